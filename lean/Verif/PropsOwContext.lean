import Verif.PropsOwFiles

/-!
# C65: what the scripts of the OpenWisp archive are made from
-/

namespace NJ

/-- the dictionaries in the list `k` of a configuration -/
def entriesOf (config : VDict) (k : String) : List VDict :=
  match Dict.get? config k with
  | some (.list l) => l.filterMap (fun v => match v with | .dict d => some d | _ => none)
  | _ => []

/-- the hostname, or the default -/
def hostSpec (config : VDict) : Val :=
  match Dict.get? config "general" with
  | some (.dict g) => (Dict.get? g "hostname").getD (.str "OpenWISP1")
  | _ => .str "OpenWISP1"

/-- a bridge as the scripts see it: protocol and address of its first address, all else as configured -/
def BridgeSeen (i b : VDict) : Prop :=
  (isGiven i "addresses" = false ∧ b = i) ∨
  (isGiven i "addresses" = true ∧ ∃ a as, Dict.get? i "addresses" = some (.list (.dict a :: as)) ∧
    ∀ k, Dict.get? b k = if k = "ip" then some ((Dict.get? a "address").getD .none)
      else if k = "proto" then some ((Dict.get? a "proto").getD .none) else Dict.get? i k)

/-- a file for cron -/
def IsCron (f : VDict) : Prop := ∃ p, Dict.get? f "path" = some (.str p) ∧ ("/crontabs".toList <+: p.toList ∨ "crontabs".toList <+: p.toList)

/-- what the installation scripts are given -/
structure InstallContext (config ctx : VDict) : Prop where
  hostname : Dict.get? ctx "hostname" = some (hostSpec config)
  l2vpn : Dict.get? ctx "l2vpn" = some (.list (((entriesOf config "openvpn").filter (fun v => decide (Dict.get? v "dev_type" = some (.str "tap")))).map .dict))
  bridges : ∃ bs, Dict.get? ctx "bridges" = some (.list (bs.map .dict)) ∧
    List.Forall₂ BridgeSeen ((entriesOf config "interfaces").filter (fun v => decide (Dict.get? v "type" = some (.str "bridge")))) bs
  radios : Dict.get? ctx "radios" = some ((Dict.get? config "radios").getD (.list []))
  cron : ∃ c, Dict.get? ctx "cron" = some (.bool c) ∧ (c = true ↔ ∃ f ∈ entriesOf config "files", IsCron f)
  keys : ∀ k, k ∉ ["hostname", "l2vpn", "bridges", "radios", "cron"] → Dict.get? ctx k = none

theorem owItems_inv {config : VDict} {k : String} {l : List Val} (h : owItems config k = .ok l) :
    entriesOf config k = l.filterMap (fun v => match v with | .dict d => some d | _ => none) := by
  unfold owItems at h
  unfold entriesOf
  split at h
  · rename_i e; cases h; rw [e]; rfl
  · rename_i e; cases h; rw [e]
  · cases h

theorem owTaps_inv {l : List Val} {ts : List VDict} (h : owTaps l = .ok ts) :
    ts = (l.filterMap (fun v => match v with | .dict d => some d | _ => none)).filter (fun v => decide (Dict.get? v "dev_type" = some (.str "tap"))) := by
  induction l generalizing ts with
  | nil => cases h; rfl
  | cons v vs ih =>
    cases v with
    | dict d =>
      unfold owTaps at h
      obtain ⟨r, e, h⟩ := bind_ok_iff.1 h
      have h := pure_ok_iff.1 h
      rw [ih e] at h
      simp only [List.filterMap_cons, List.filter_cons]
      rw [← h]
      by_cases hd : Dict.get? d "dev_type" = some (.str "tap")
      · simp [hd]
      · simp [hd]
    | none => cases h
    | bool => cases h
    | int => cases h
    | str => cases h
    | list => cases h

theorem owBridge_inv {i b : VDict} (h : owBridge i = .ok b) : BridgeSeen i b := by
  unfold owBridge at h
  split at h
  · rename_i hg
    split at h
    · rename_i a as e
      cases h
      refine Or.inr ⟨hg, a, as, e, fun k => ?_⟩
      rw [Dict.get?_set', Dict.get?_set']
    · cases h
  · rename_i hg
    cases h
    exact Or.inl ⟨by simpa using hg, rfl⟩

theorem owBridges_inv {l : List Val} {bs : List VDict} (h : owBridges l = .ok bs) :
    List.Forall₂ BridgeSeen ((l.filterMap (fun v => match v with | .dict d => some d | _ => none)).filter
      (fun v => decide (Dict.get? v "type" = some (.str "bridge")))) bs := by
  induction l generalizing bs with
  | nil => cases h; exact .nil
  | cons v vs ih =>
    cases v with
    | dict d =>
      unfold owBridges at h
      obtain ⟨ty, e1, h⟩ := bind_ok_iff.1 h
      have ht : Dict.get? d "type" = some ty := by
        unfold getKey at e1
        split at e1
        · rename_i e; cases e1; exact e
        · cases e1
      simp only [List.filterMap_cons, List.filter_cons]
      rw [ht]
      dsimp only at h
      by_cases hd : ty = .str "bridge"
      · rw [if_pos hd] at h
        obtain ⟨b, e4, h⟩ := bind_ok_iff.1 h
        obtain ⟨b', e5, h⟩ := bind_ok_iff.1 h
        obtain ⟨r, e3, h⟩ := bind_ok_iff.1 h
        have h := pure_ok_iff.1 h
        rw [← h, ← pure_ok_iff.1 e5, if_pos (by simp [hd])]
        exact .cons (owBridge_inv e4) (ih e3)
      · rw [if_neg hd] at h
        obtain ⟨b', e5, h⟩ := bind_ok_iff.1 h
        obtain ⟨r, e3, h⟩ := bind_ok_iff.1 h
        have h := pure_ok_iff.1 h
        rw [← h, ← pure_ok_iff.1 e5, if_neg (by simpa using hd)]
        exact ih e3
    | none => cases h
    | bool => cases h
    | int => cases h
    | str => cases h
    | list => cases h

theorem owCron_inv {l : List Val} {c : Bool} (h : owCron l = .ok c) :
    c = true ↔ ∃ f ∈ l.filterMap (fun v => match v with | .dict d => some d | _ => none), IsCron f := by
  induction l generalizing c with
  | nil => cases h; simp
  | cons v vs ih =>
    unfold owCron at h
    obtain ⟨p, e1, h'⟩ := bind_ok_iff.1 h
    clear h
    obtain ⟨d, hd, hp⟩ : ∃ d, v = .dict d ∧ Dict.get? d "path" = some (txt p) := by
      unfold filePath at e1
      cases v with
      | dict d =>
        refine ⟨d, rfl, ?_⟩
        unfold reqStr at e1
        dsimp only at e1
        split at e1
        · rename_i s e; cases e1; rw [e]; simp [txt]
        · cases e1
        · cases e1
      | none => cases e1
      | bool => cases e1
      | int => cases e1
      | str => cases e1
      | list => cases e1
    subst hd
    have hiff : IsCron d ↔ ("/crontabs".toList <+: p ∨ "crontabs".toList <+: p) := by
      unfold IsCron
      rw [hp]
      constructor
      · rintro ⟨q, hq, h⟩
        have hq := Option.some.inj hq
        unfold txt at hq
        have hq := Val.str.inj hq
        rw [← hq] at h
        simpa using h
      · intro h
        exact ⟨String.ofList p, rfl, by simpa using h⟩
    simp only [List.filterMap_cons, List.mem_cons, exists_eq_or_imp]
    split at h'
    · rename_i hc
      have h := pure_ok_iff.1 h'
      rw [← h]
      simp [hiff.2 hc]
    · rename_i hc
      rw [ih h', hiff, or_iff_right hc]

/-- **C65.** What the installation scripts are given: the hostname (OpenWISP1 if there is none), the layer 2 VPNs, the bridges, the radios,
and whether there are files for cron. -/
theorem C65_context {config ctx : VDict} (h : owContext config = .ok ctx) : InstallContext config ctx := by
  unfold owContext at h
  obtain ⟨vpns, e1, h⟩ := bind_ok_iff.1 h
  obtain ⟨taps, e2, h⟩ := bind_ok_iff.1 h
  obtain ⟨ifs, e3, h⟩ := bind_ok_iff.1 h
  obtain ⟨bridges, e4, h⟩ := bind_ok_iff.1 h
  obtain ⟨files, e5, h⟩ := bind_ok_iff.1 h
  obtain ⟨cron, e6, h⟩ := bind_ok_iff.1 h
  obtain ⟨host, e7, h⟩ := bind_ok_iff.1 h
  have h := pure_ok_iff.1 h
  subst h
  have hh : host = hostSpec config := by
    unfold owHostname at e7
    unfold hostSpec
    split at e7
    · rename_i e; cases e7; rw [e]
    · rename_i g e; cases e7; rw [e]
    · cases e7
  refine ⟨by rw [hh]; rfl, ?_, ⟨bridges, rfl, ?_⟩, rfl, ⟨cron, rfl, ?_⟩, ?_⟩
  · rw [owItems_inv e1, ← owTaps_inv e2]; rfl
  · rw [owItems_inv e3]; exact owBridges_inv e4
  · rw [owItems_inv e5]; exact owCron_inv e6
  · intro k hk
    simp only [List.mem_cons, List.not_mem_nil, or_false, not_or] at hk
    simp [Dict.get?_cons, Ne.symm hk.1, Ne.symm hk.2.1, Ne.symm hk.2.2.1, Ne.symm hk.2.2.2.1, Ne.symm hk.2.2.2.2]

/-- the scripts of the option `k` of a layer 2 VPN: named by the last part of the path -/
def hookOf (v : VDict) (k : String) (text : Chars) : List Val :=
  match Dict.get? v k with
  | some (.str s) => if (lastPart s.toList).isEmpty then [] else [owScript ("/openvpn/".toList ++ lastPart s.toList) text]
  | _ => []

theorem owVpnFile_inv {v : VDict} {k : String} {text : Chars} {l : List Val} (h : owVpnFile v k text = .ok l) : l = hookOf v k text := by
  unfold owVpnFile isGiven at h
  unfold hookOf
  cases hg : Dict.get? v k with
  | none => rw [hg] at h; simp [Val.truthy] at h; rw [← h]
  | some w =>
    rw [hg] at h
    simp only [Option.getD_some] at h
    cases w with
    | str s =>
      split at h
      · exact (Except.ok.inj h).symm
      · rename_i hs
        have : s = "" := by simpa [Val.truthy] using hs
        subst this
        cases h
        rfl
    | none => simp [Val.truthy] at h; rw [← h]
    | bool b => cases b <;> simp [Val.truthy] at h; rw [← h]
    | int i => split at h <;> cases h; rfl
    | list i => split at h <;> cases h; rfl
    | dict i => split at h <;> cases h; rfl

/-- **C65.** The scripts added by generate(), in order: install.sh and uninstall.sh made from the same context, for every layer 2 VPN its
`up` and `down` script, tc_script.sh made from the tc options. -/
theorem C65_scripts {sc : OwScripts} {config : VDict} {fs : List Val} (h : owAdded sc config = .ok fs) :
    ∃ ctx install uninstall tc, InstallContext config ctx ∧ sc.install ctx = .ok install ∧ sc.uninstall ctx = .ok uninstall ∧
      sc.tc [("tc_options", (Dict.get? config "tc_options").getD (.list []))] = .ok tc ∧
      fs = [owScript "/install.sh".toList install, owScript "/uninstall.sh".toList uninstall] ++
        ((entriesOf config "openvpn").filter (fun v => decide (Dict.get? v "dev_type" = some (.str "tap")))).flatMap
          (fun v => hookOf v "up" sc.up ++ hookOf v "down" sc.down) ++
        [owScript "/tc_script.sh".toList tc] := by
  unfold owAdded at h
  obtain ⟨ctx, e1, h⟩ := bind_ok_iff.1 h
  obtain ⟨a, e2, h⟩ := bind_ok_iff.1 h
  obtain ⟨b, e3, h⟩ := bind_ok_iff.1 h
  obtain ⟨v, e4, h⟩ := bind_ok_iff.1 h
  obtain ⟨c, e5, h⟩ := bind_ok_iff.1 h
  have h := pure_ok_iff.1 h
  refine ⟨ctx, a, b, c, C65_context e1, e2, e3, e5, ?_⟩
  unfold owVpnFiles at e4
  obtain ⟨vpns, e6, e4⟩ := bind_ok_iff.1 e4
  obtain ⟨taps, e7, e4⟩ := bind_ok_iff.1 e4
  obtain ⟨ls, e8, e4⟩ := bind_ok_iff.1 e4
  have e4 := pure_ok_iff.1 e4
  rw [owItems_inv e6, ← owTaps_inv e7, ← h, ← e4]
  congr 2
  clear * - e8
  induction taps generalizing ls with
  | nil => rw [mapM_ok_nil] at e8; rw [← Except.ok.inj e8]; rfl
  | cons t ts ih =>
    obtain ⟨x, xs, hx, hxs, rfl⟩ := (mapM_ok_cons _ _ _ _).1 e8
    obtain ⟨u, f1, hx⟩ := bind_ok_iff.1 hx
    obtain ⟨d, f2, hx⟩ := bind_ok_iff.1 hx
    have hx := pure_ok_iff.1 hx
    rw [List.flatten_cons, List.flatMap_cons, ih _ hxs, ← hx, owVpnFile_inv f1, owVpnFile_inv f2]

/-- a configuration with a layer 2 VPN, a bridge, another interface, a crontab -/
def contextSample : VDict :=
  [("general", .dict [("hostname", .str "ap1")]),
   ("openvpn", .list [.dict [("name", .str "a"), ("dev_type", .str "tun"), ("up", .str "/x/no.sh")],
     .dict [("name", .str "b"), ("dev_type", .str "tap"), ("up", .str "/x/up.sh"), ("down", .str "")]]),
   ("interfaces", .list [.dict [("name", .str "eth0"), ("type", .str "ethernet")],
     .dict [("name", .str "br0"), ("type", .str "bridge"), ("addresses", .list [.dict [("proto", .str "static"), ("address", .str "10.0.0.1")]])]]),
   ("files", .list [.dict [("path", .str "/crontabs/root"), ("contents", .str ""), ("mode", .str "0644")]])]

example : owContext contextSample = .ok
    [("hostname", .str "ap1"),
     ("l2vpn", .list [.dict [("name", .str "b"), ("dev_type", .str "tap"), ("up", .str "/x/up.sh"), ("down", .str "")]]),
     ("bridges", .list [.dict [("name", .str "br0"), ("type", .str "bridge"),
       ("addresses", .list [.dict [("proto", .str "static"), ("address", .str "10.0.0.1")]]), ("proto", .str "static"), ("ip", .str "10.0.0.1")]]),
     ("radios", .list []), ("cron", .bool true)] := by decide +kernel

example : owAdded ⟨fun _ => .ok ['i'], fun _ => .ok ['u'], ['U'], ['D'], fun _ => .ok ['t']⟩ contextSample = .ok
    [owScript "/install.sh".toList ['i'], owScript "/uninstall.sh".toList ['u'], owScript "/openvpn/up.sh".toList ['U'],
     owScript "/tc_script.sh".toList ['t']] := by decide +kernel

end NJ
