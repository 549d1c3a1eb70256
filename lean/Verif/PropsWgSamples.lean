import Verif.PropsVpnArchive

/-!
# WireGuard: automatic clients (C63), cases, and where C62 stops
-/

namespace NJ

/-! ## Automatic clients -/

/-- the client made for a server: one interface and one peer, naming each other, with the keys, the address, the ports and the networks
of the arguments, or their documented defaults -/
structure WgClientOf (a : WgArgs) (i p : VDict) : Prop where
  linked : Dict.get? p "interface" = Dict.get? i "name"
  name : Dict.get? i "name" = some (((a.server.getD []).get? "name").getD (.str ""))
  type : Dict.get? i "type" = some (.str "wireguard")
  privateKey : Dict.get? i "private_key" = some (a.privateKey.getD (.str "{{private_key}}"))
  listen : Dict.get? i "port" = some (a.port.getD (.int 51820))
  address : ∀ ip, a.ipAddress = some ip → ip.truthy = true →
    ∃ d : VDict, Dict.get? i "addresses" = some (.list [.dict d]) ∧ Dict.get? d "address" = some ip ∧ Dict.get? d "mask" = some (.int 32) ∧
      Dict.get? d "proto" = some (.str "static") ∧ Dict.get? d "family" = some (.str "ipv4")
  noAddress : (∀ ip, a.ipAddress = some ip → ip.truthy = false) → Dict.get? i "addresses" = some (.list [])
  publicKey : Dict.get? p "public_key" = some (a.publicKey.getD (.str ""))
  host : Dict.get? p "endpoint_host" = some (a.host.getD (.str ""))
  serverPort : Dict.get? p "endpoint_port" = some (((a.server.getD []).get? "port").getD (.int 51820))
  networks : Dict.get? p "allowed_ips" = some (.list [a.serverIpNetwork.getD (.str "")])

/-- **C63.** `wireguard_auto_client` never fails, and gives one interface and one peer that agree with each other and with the arguments. -/
theorem C63_wireguard (a : WgArgs) : ∃ i p, wireguardAutoClient a = .ok [("interfaces", .list [.dict i]), ("wireguard_peers", .list [.dict p])] ∧
    (Dict.keys i).Nodup ∧ (Dict.keys p).Nodup ∧ WgClientOf a i p := by
  refine ⟨_, _, rfl, by simp [Dict.keys], by simp [Dict.keys], ?_⟩
  refine ⟨rfl, rfl, rfl, rfl, rfl, ?_, ?_, rfl, rfl, rfl, rfl⟩
  · intro ip h ht
    obtain ⟨_, _, _, _, _, x, _⟩ := a
    cases h
    refine ⟨[("proto", .str "static"), ("family", .str "ipv4"), ("address", ip), ("mask", .int 32)], ?_, rfl, rfl, rfl, rfl⟩
    show some (Val.list (if ip.truthy then _ else [])) = _
    rw [ht]; rfl
  · intro h
    obtain ⟨_, _, _, _, _, x, _⟩ := a
    have hf : (x.getD Val.none).truthy = false := by
      cases x with
      | none => rfl
      | some ip => exact h ip rfl
    show some (Val.list (if (x.getD Val.none).truthy then _ else [])) = _
    rw [hf]; rfl

/-- **C63.** `vxlan_wireguard_auto_client` gives the same interface and peer, and a VXLAN interface on top of that tunnel. -/
theorem C63_vxlan (a : WgArgs) (x : VxlanArgs) : ∃ i v p,
    vxlanWireguardAutoClient a x = .ok [("interfaces", .list [.dict i, .dict v]), ("wireguard_peers", .list [.dict p])] ∧
    wireguardAutoClient a = .ok [("interfaces", .list [.dict i]), ("wireguard_peers", .list [.dict p])] ∧ (Dict.keys v).Nodup ∧
    Dict.get? v "tunlink" = Dict.get? i "name" ∧ Dict.get? v "type" = some (.str "vxlan") ∧
    Dict.get? v "name" = some (((x.vxlan.getD []).get? "name").getD (.str "vxlan")) ∧
    Dict.get? v "vtep" = some (x.serverIp.getD (.str "")) ∧ Dict.get? v "vni" = some (x.vni.getD (.int 0)) ∧
    Dict.get? v "port" = some (.int 4789) := ⟨_, _, _, rfl, rfl, by simp [Dict.keys], rfl, rfl, rfl, rfl, rfl, rfl⟩

/-- a client whose server gave a name and a port, and a client without arguments -/
example : ∃ i p, wireguardAutoClient ⟨some (.str "vpn.example.com"), some (.str "KEY"), some [("name", .str "wg1"), ("port", .int 40842)], none, none,
    some (.str "10.0.0.2"), some (.str "10.0.0.0/24")⟩ = .ok [("interfaces", .list [.dict i]), ("wireguard_peers", .list [.dict p])] ∧
    Dict.get? p "interface" = some (.str "wg1") ∧ Dict.get? p "endpoint_port" = some (.int 40842) := ⟨_, _, rfl, rfl, rfl⟩

/-! ## Cases -/

/-- the WireGuard class with a schema that accepts everything -/
def anyWgClass : Class := wireguardClass sampleEnv (fun _ => .ok ()) (fun _ => false) (fun _ => none)

def samplePeer : VDict :=
  [("public_key", .str "PUB="), ("allowed_ips", .str "10.0.0.0/24"), ("preshared_key", .str ""), ("endpoint_host", .str "vpn.example.com"),
   ("endpoint_port", .int 51820)]

def sampleTunnel : VDict :=
  [("name", .str "wg0"), ("port", .int 51820), ("private_key", .str "PRIV="), ("address", .str "10.0.0.1/24"), ("mtu", .int 1420),
   ("save_config", .bool true), ("dns", .list [.str "1.1.1.1", .str "8.8.8.8"]), ("pre_up", .str ""), ("peers", .list [.dict samplePeer])]

/-- Boolean test for a line -/
def lineB (kw l : Chars) : Bool :=
  decide ('\n' ∉ l) && decide (¬ [' ', ' ', ' ', ' '] <:+: l) && decide (¬ kw <+: l) && l.all (fun c => decide (c.toNat < 128))

theorem lineB_sound {kw l : Chars} (h : lineB kw l = true) : CleanLine l ∧ ¬ kw <+: l ∧ ∀ c ∈ l, c.toNat < 128 := by
  unfold lineB at h
  simp only [Bool.and_eq_true, decide_eq_true_eq, List.all_eq_true] at h
  exact ⟨⟨h.1.1.1, h.1.1.2⟩, h.1.2, h.2⟩

theorem tunnelOption_keys {t : VDict} {k : String} {v : Val} (h : tunnelOption t k = some v) : k ∈ Dict.keys t ++ Dict.keys wgNames := by
  unfold tunnelOption at h
  split at h
  · cases h
  · split at h
    · next o ho => exact List.mem_append.2 (.inr (Dict.mem_keys (Dict.mem_of_get? ho)))
    · exact List.mem_append.2 (.inl (Dict.mem_keys (Dict.mem_of_get? h)))

theorem peerOption_keys {reprC : Val → String} {p : VDict} {k : String} {v : Val} (h : peerOption reprC p k = some v) :
    k ∈ Dict.keys p ++ ["AllowedIPs", "PublicKey", "PreSharedKey", "Endpoint"] := by
  unfold peerOption at h
  split at h
  · next e => subst e; simp
  · split at h
    · next e => subst e; simp
    · split at h
      · next e => subst e; simp
      · split at h
        · next e => subst e; simp
        · split at h
          · cases h
          · rw [Option.filter_eq_some_iff] at h
            exact List.mem_append.2 (.inl (Dict.mem_keys (Dict.mem_of_get? h.1)))

/-- Boolean test: every option given by `f` on the names `ks` is a fine line -/
def optionsLinesB (kw : Chars) (reprC : Val → String) (ks : List String) (f : String → Option Val) : Bool :=
  ks.all (fun k => match f k with
    | some v => lineB kw (optionEq reprC (k, v))
    | none => true)

theorem optionsLinesB_sound {kw : Chars} {reprC : Val → String} {ks : List String} {f : String → Option Val} (h : optionsLinesB kw reprC ks f = true)
    {k : String} {v : Val} (hk : k ∈ ks) (hf : f k = some v) :
    CleanLine (optionEq reprC (k, v)) ∧ ¬ kw <+: optionEq reprC (k, v) ∧ ∀ c ∈ optionEq reprC (k, v), c.toNat < 128 := by
  unfold optionsLinesB at h
  have := List.all_eq_true.1 h k hk
  rw [hf] at this
  exact lineB_sound this

theorem sampleTunnel_file : TunnelFile sampleEnv.reprC sampleTunnel := by
  have hp : (Dict.get? sampleTunnel "peers").getD (.list []) = .list (([samplePeer] : List VDict).map .dict) := rfl
  have ho : optionsLinesB wgKw sampleEnv.reprC (Dict.keys sampleTunnel ++ Dict.keys wgNames) (tunnelOption sampleTunnel) = true := by decide +kernel
  have hq : optionsLinesB wgKw sampleEnv.reprC (Dict.keys samplePeer ++ ["AllowedIPs", "PublicKey", "PreSharedKey", "Endpoint"])
      (peerOption sampleEnv.reprC samplePeer) = true := by decide +kernel
  refine ⟨⟨⟨by decide +kernel, by decide +kernel, by decide +kernel, by decide +kernel, ?_⟩, ⟨[samplePeer], hp, ?_⟩, ⟨by decide +kernel, by decide +kernel⟩, ?_⟩, by decide +kernel, ?_, ?_⟩
  · intro v hv
    cases hv
    exact ⟨["1.1.1.1".toList, "8.8.8.8".toList], rfl⟩
  · intro p hp
    cases List.mem_singleton.1 hp
    exact ⟨⟨by decide +kernel, by decide +kernel, by decide +kernel⟩, fun k v h => (optionsLinesB_sound hq (peerOption_keys h) h).1⟩
  · intro k v h
    exact (optionsLinesB_sound ho (tunnelOption_keys h) h).1
  · intro k v h
    exact (optionsLinesB_sound ho (tunnelOption_keys h) h).2
  · intro ps h p hm k v hv
    rw [hp] at h
    cases dicts_inj (Val.list.inj h)
    cases List.mem_singleton.1 hm
    exact (optionsLinesB_sound hq (peerOption_keys hv) hv).2

/-- two tunnels meet the hypotheses of `C62_render` and `C72_wireguard` -/
example : ∃ st os, List.Forall₂ (TunnelText sampleEnv.reprC) [sampleTunnel, sampleTunnel] os ∧
    generate anyWgClass ⟨[("wireguard", .list [.dict sampleTunnel, .dict sampleTunnel])], none⟩ =
      (st, .ok (os.map (fun o => vpnFileOf ".conf".toList (o.1, tunnelBody sampleEnv.reprC o.2.1 o.2.2)) ++ [])) :=
  C72_wireguard sampleEnv _ _ _ [("wireguard", .list [.dict sampleTunnel, .dict sampleTunnel])]
    [("wireguard", .list [.dict sampleTunnel, .dict sampleTunnel])] [sampleTunnel, sampleTunnel] (by simp) rfl
    (by intro t ht; simp only [List.mem_cons, List.not_mem_nil, or_false, or_self] at ht; rw [ht]; exact sampleTunnel_file) (by decide +kernel) (by decide +kernel) [] (by decide +kernel)

/-- this is the text of the tunnel -/
example : ((render anyWgClass false ⟨[("wireguard", .list [.dict sampleTunnel])], none⟩).2).map String.ofList = .ok
  "# wireguard config: wg0\n\n[Interface]\nAddress = 10.0.0.1/24\nDNS = 1.1.1.1,8.8.8.8\nListenPort = 51820\nMTU = 1420\nPrivateKey = PRIV=\nSaveConfig = true\n\n[Peer]\nAllowedIPs = 10.0.0.0/24\nEndpoint = vpn.example.com:51820\nPublicKey = PUB=\n" := by
  decide +kernel

/-- the groups of an archive: two VPNs and a further file -/
example : parseVpnTar ([("a".toList, ["x 1".toList]), ("b".toList, ["y".toList])].map (vpnFileOf ".conf".toList) ++ [⟨"etc/x".toList, 0o644, []⟩]) =
    parseVpn (joinWith ['\n'] ([("a".toList, ["x 1".toList]), ("b".toList, ["y".toList])].flatMap (fun g => (vpnKw ++ [' '] ++ g.1) :: [] :: g.2 ++ [[]]))) := by
  apply C72_archive_as_text
  · simp
  · intro g hg
    simp only [List.mem_cons, List.not_mem_nil, or_false] at hg
    rcases hg with rfl | rfl
    · exact ⟨by decide +kernel, ⟨[], _, rfl, by decide⟩, by decide +kernel, by decide +kernel⟩
    · exact ⟨by decide +kernel, ⟨[], _, rfl, by decide⟩, by decide +kernel, by decide +kernel⟩
  · decide +kernel

/-- a VPN of the OpenVPN backend meets the hypotheses of `C72_openvpn` -/
example : ∃ fs, processFiles [("openvpn", .list [.dict [("name", .str "test"), ("mode", .str "server"), ("port", .int 1194)]])] = .ok fs ∧
    [⟨"test.conf".toList, 0o644, utf8 "mode server\nport 1194\n".toList⟩] =
      [[("mode", .str "server"), ("name", .str "test"), ("port", .int 1194)]].map (fun b =>
        vpnFileOf ".conf".toList (fieldText sampleEnv.reprC b "name", b.flatMap (vpnOptionLines sampleEnv.reprC))) ++ fs := by
  refine C72_openvpn sampleEnv (fun _ => .ok ()) (fun _ => false) (fun _ => none)
    ⟨[("openvpn", .list [.dict [("name", .str "test"), ("mode", .str "server"), ("port", .int 1194)]])], none⟩
    ⟨[("openvpn", .list [.dict [("name", .str "test"), ("mode", .str "server"), ("port", .int 1194)]])],
      some [("openvpn", .list [.dict [("mode", .str "server"), ("name", .str "test"), ("port", .int 1194)]])]⟩ _ ?_ _ rfl _ rfl (by simp) ?_ ?_
  · have : ∀ a b : BState × Except PyErr (List Member), a.1.config = b.1.config → a.1.inter = b.1.inter → a.2 = b.2 → a = b := by
      rintro ⟨⟨_, _⟩, _⟩ ⟨⟨_, _⟩, _⟩ h1 h2 h3
      cases h1; cases h2; cases h3; rfl
    exact this _ _ (by decide +kernel) (by decide +kernel) (by decide +kernel)
  · have : ∀ b ∈ ([[("mode", .str "server"), ("name", .str "test"), ("port", .int 1194)]] : List VDict), ∀ l ∈ vpnTextLines sampleEnv.reprC b,
        '\n' ∉ l ∧ ¬ [' ', ' ', ' ', ' '] <:+: l := by decide +kernel
    exact this
  · intro b hb
    cases List.mem_singleton.1 hb
    exact ⟨by decide +kernel, ⟨["mode server".toList], "port 1194".toList, by decide +kernel, by decide⟩, by decide +kernel, by decide +kernel⟩

/-! ## Where C62 stops -/

/-- C62 needs an address: the schema of the WireGuard backend does not ask for one, but without it rendering fails with `KeyError`,
whatever the rest of the tunnel. -/
theorem C62_needs_address (env : Env) (t : VDict) (h : Dict.get? t "address" = none) (hp : Dict.has t "port" = true) (hk : Dict.has t "private_key" = true)
    (hn : (Dict.keys t).Nodup) : wgBlock env t = .error .keyError := by
  obtain ⟨c, hc, hcn, g⟩ := renames_get [("port", "ListenPort"), ("private_key", "PrivateKey")] t hn (by decide) (by decide) (by decide) (by
    intro p hm
    simp only [List.mem_cons, List.not_mem_nil, or_false] at hm
    rcases hm with rfl | rfl
    · exact hp
    · exact hk)
  have hnone : Dict.get? c "address" = none := by
    rw [g]
    simp [h]
  have : wgRequired.foldlM renamePop t = .error .keyError := by
    have e : wgRequired = [("port", "ListenPort"), ("private_key", "PrivateKey")] ++ [("address", "Address")] := rfl
    rw [e, List.foldlM_append, hc]
    show (renamePop c ("address", "Address") >>= _) = _
    have : renamePop c ("address", "Address") = .error .keyError := by
      unfold renamePop popKey
      rw [hnone]
      rfl
    rw [this]
    rfl
  unfold wgBlock
  rw [this]
  rfl

/-- such a tunnel passes the checks of the schema -/
example : wgBlock sampleEnv [("name", .str "wg0"), ("port", .int 51820), ("private_key", .str "PRIV=")] = .error .keyError :=
  C62_needs_address _ _ rfl rfl rfl (by decide)

/-- C62 needs values of one line: a command with a line break adds a peer nobody configured. -/
theorem C62_needs_one_line : ((render anyWgClass false ⟨[("wireguard", .list [.dict [("name", .str "wg0"), ("port", .int 1), ("private_key", .str "P"),
    ("address", .str "10.0.0.1"), ("post_up", .str "x\n\n[Peer]\nPublicKey = EVIL")]])], none⟩).2).map String.ofList = .ok
  "# wireguard config: wg0\n\n[Interface]\nAddress = 10.0.0.1\nListenPort = 1\nPostUp = x\n\n[Peer]\nPublicKey = EVIL\nPrivateKey = P\n" := by decide +kernel

end NJ
