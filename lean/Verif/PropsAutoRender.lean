import Verif.PropsAuto
import Verif.PropsConstructed

/-!
# C92: the client is rendered
-/

namespace NJ

/-- the client is a dictionary as they are read from JSON -/
theorem client_wf {host : Val} {server : VDict} {ca cert key : Val × Val} {r : VDict} (hs : (Val.dict server).WF) (hh : host.WF)
    (hp : ∀ pc ∈ [ca, cert, key], pc.1.WF ∧ pc.2.WF) (h : vpnAutoClient host server ca cert key = .ok r) : (Val.dict r).WF := by
  have hf : ∀ (k : String) (pc : Val × Val) (st : VDict × List Val), (pc.1.WF ∧ pc.2.WF) → (Val.dict st.1).WF → (∀ f ∈ st.2, f.WF) →
      (Val.dict (clientFile k pc.1 pc.2 st).1).WF ∧ ∀ f ∈ (clientFile k pc.1 pc.2 st).2, f.WF := by
    intro k pc st hpc h1 h2
    unfold clientFile
    split
    · refine ⟨wf_set h1 hpc.1, fun f hf => ?_⟩
      rcases List.mem_append.1 hf with hf | hf
      · exact h2 f hf
      · rw [List.mem_singleton] at hf
        subst hf
        refine .dict _ (by simp [Dict.keys]) fun p hp => ?_
        simp only [List.mem_cons, List.not_mem_nil, or_false] at hp
        rcases hp with rfl | rfl | rfl
        · exact hpc.1
        · exact hpc.2
        · exact .str _
    · exact ⟨h1, h2⟩
  unfold vpnAutoClient at h
  dsimp only at h
  obtain ⟨ns, h1, h⟩ := bind_ok_iff.1 h
  obtain ⟨rc, h2, h⟩ := bind_ok_iff.1 h
  obtain ⟨c1, h3, h⟩ := bind_ok_iff.1 h
  obtain ⟨c2, h4, h⟩ := bind_ok_iff.1 h
  have h1 := certType_ok h1
  have h2 := certType_ok h2
  have hcert : ∀ o, (certSpec o).WF := by
    intro o
    unfold certSpec
    split <;> exact .str _
  have hport : ∀ k : String, ((Dict.get? server k).getD .none).WF := by
    intro k
    cases e : Dict.get? server k with
    | none => exact .none
    | some v => exact hs.of_get? e
  have w0 : (Val.dict (clientBase host server)).WF := by
    have base : (Val.dict [("mode", .str "p2p"), ("nobind", .bool true), ("resolv_retry", .str "infinite"), ("tls_client", .bool true),
        ("remote", .list [.dict [("host", host), ("port", if ((Dict.get? server "port").getD .none).truthy then (Dict.get? server "port").getD .none else .int 1195)]]),
        ("proto", .str (if Dict.get? server "proto" = some (.str "tcp-server") then "tcp-client" else "udp"))]).WF := by
      refine .dict _ (by simp [Dict.keys]) fun p hp => ?_
      simp only [List.mem_cons, List.not_mem_nil, or_false] at hp
      rcases hp with rfl | rfl | rfl | rfl | rfl | rfl
      · exact .str _
      · exact .bool _
      · exact .str _
      · exact .bool _
      · refine .list _ fun v hv => ?_
        rw [List.mem_singleton] at hv
        subst hv
        refine .dict _ (by simp [Dict.keys]) fun p hp => ?_
        simp only [List.mem_cons, List.not_mem_nil, or_false] at hp
        rcases hp with rfl | rfl
        · exact hh
        · dsimp only
          split
          · exact hport _
          · exact .int _
      · exact .str _
    unfold clientBase
    dsimp only
    split
    · split
      · exact wf_set base (.bool _)
      · exact base
    · split
      · exact wf_set (wf_set base (.bool _)) (.bool _)
      · exact wf_set base (.bool _)
  have w1 : (Val.dict (Dict.set (Dict.set (clientBase host server) "ns_cert_type" ns) "remote_cert_tls" rc)).WF := by
    rw [h1, h2]
    exact wf_set (wf_set w0 (hcert _)) (hcert _)
  have w2 : (Val.dict c1).WF := by
    unfold clientTlsAuth at h3
    dsimp only at h3
    split at h3
    · cases h3; exact w1
    · obtain ⟨t, _, h3⟩ := bind_ok_iff.1 h3
      cases h3
      split
      · exact w1
      · exact wf_set w1 (hport _)
  have w3 : ∀ (ks : List String) (c : VDict), (Val.dict c).WF → (Val.dict (ks.foldl (copyKey server) c)).WF := by
    intro ks
    induction ks with
    | nil => exact fun c h => h
    | cons k ks ih =>
      intro c h
      refine ih _ ?_
      unfold copyKey
      split
      · next v e => exact wf_set h (hs.of_get? e)
      · exact h
  have w4 : (Val.dict c2).WF := by
    have w4 : ∀ c : VDict, (Val.dict c).WF → clientLog server c = .ok c2 → (Val.dict c2).WF := by
      intro c hcw h4
      unfold clientLog at h4
      split at h4
      · cases h4; exact hcw
      · obtain ⟨t, _, h4⟩ := bind_ok_iff.1 h4
        cases h4
        exact wf_set hcw (.str _)
    refine w4 _ ?_ h4
    split
    · exact wf_set (w3 _ _ w2) (.int _)
    · exact w3 _ _ w2
  obtain ⟨a1, a2⟩ := hf "ca" ca (c2, []) (hp _ (by simp)) w4 (fun f hf => by cases hf)
  obtain ⟨b1, b2⟩ := hf "cert" cert _ (hp _ (by simp)) a1 a2
  obtain ⟨d1, d2⟩ := hf "key" key _ (hp _ (by simp)) b1 b2
  cases h
  refine .dict _ (by simp [Dict.keys]) fun p hp => ?_
  simp only [List.mem_cons, List.not_mem_nil, or_false] at hp
  rcases hp with rfl | rfl
  · refine .list _ fun v hv => ?_
    rw [List.mem_singleton] at hv
    subst hv
    exact d1
  · exact .list _ d2

/-- **C92**, rendering: the configuration that `auto_client` makes for a valid server is rendered and archived by the OpenVPN backend. -/
theorem C92_renders (env : Env) (sh : Val → Bool) (loads : Chars → Option Val) (host : Val) (server : VDict) (ca cert key : Val × Val)
    (hw : (Val.dict server).WF)
    (hv : validate (openvpnReal env sh loads) [("openvpn", .list [.dict server])] = .ok ()) (hm : Dict.get? server "mode" = some (.str "server"))
    (hh : HostOk host) (h1 : PairOk ca) (h2 : PairOk cert) (h3 : PairOk key) (hn : (givenPaths ca cert key).Nodup)
    (hp : ∀ pc ∈ [ca, cert, key], pc.1.WF ∧ pc.2.WF) :
    ∃ r, vpnAutoClient host server ca cert key = .ok r ∧
      (∀ files, ∃ t, (render (openvpnReal env sh loads) files ⟨r, none⟩).2 = .ok t) ∧ ∃ ms, (generate (openvpnReal env sh loads) ⟨r, none⟩).2 = .ok ms := by
  obtain ⟨r, e, v1, -⟩ := C92_auto_client env sh loads false host server ca cert key hv hm hh h1 h2 h3 hn
  have hhw : host.WF := by
    obtain ⟨s, rfl, -⟩ := hh
    exact .str _
  refine ⟨r, e, C81_openvpn env sh loads r (client_wf hw hhw hp e) v1 ?_⟩
  obtain ⟨client, er, hc⟩ := C61_client host server ca cert key r e
  intro l d hl hd hmode
  rw [er] at hl
  cases hl
  rw [List.mem_singleton] at hd
  cases hd
  rw [hc] at hmode
  exact absurd (show some (Val.str "p2p") = some (.str "server") from hmode) (by decide)

end NJ
