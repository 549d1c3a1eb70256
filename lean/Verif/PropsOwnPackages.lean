import Verif.PropsExtraItems

/-!
# C105: packages of the configuration that are called like those of the converters
-/

namespace NJ

/-- **Specification.** The sections `os` say what the configuration lists itself as package `pkg`: one section for each object with a type; none when there is no list. -/
def OwnSections (env : Env) (config : VDict) (pkg : String) (os : List VDict) : Prop :=
  (∀ l, Dict.get? config pkg = some (.list l) → Forall2Idx (ListedSays env) 1 (listedSections l) os) ∧
  ((∀ l, Dict.get? config pkg ≠ some (.list l)) → os = [])

/-- the last converter appends the sections of the configuration's own packages -/
theorem own_grows {env : Env} {ip6 : Ip6} {sh : Val → Bool} {loads : Chars → Option Val} {dsa : Bool} {config c i j : VDict} {st : BState} {pkg : String}
    (hw : (Val.dict config).WF) (hp : pkg ∉ knownKeys) (hc : ∀ k, k ≠ "files" → Dict.get? c k = Dict.get? config k) (hn : (Dict.keys c).Nodup)
    (H : convLoop (openwrtClass env (owValidate ip6) sh loads dsa) [defaultConv env knownKeys] c i = (st, .ok ())) (hj : st.inter = some j) :
    ∃ os, OwnSections env config pkg os ∧ Grows pkg i j os := by
  have hpf : pkg ≠ "files" := by rintro rfl; exact hp (by decide)
  obtain ⟨v, e1, e2⟩ := last_step H hj
  obtain ⟨hnv, hd⟩ := default_at hn e1
  by_cases hl : ∃ l, Dict.get? config pkg = some (.list l)
  · obtain ⟨l, hl⟩ := hl
    obtain ⟨y, hy, hg⟩ := (hd pkg).1 _ (by rw [hc pkg hpf, hl])
    unfold entryRun at hy
    dsimp only at hy
    rw [if_neg hp] at hy
    obtain ⟨bs, e3, e4⟩ := bind_ok_iff.1 hy
    obtain ⟨ss, rfl, hs⟩ := listed_all l 1 (fun d hd => wf_nodup (wf_each hw hl hd)) e3
    refine ⟨ss, ⟨fun l' hl' => ?_, fun hno => absurd hl (hno l)⟩, grows_merge e2 fun _ => ⟨?_, hnv⟩⟩
    · rw [hl] at hl'
      cases hl'
      exact hs
    · rw [hg, ← pure_ok_iff.1 e4]
      have := (stored_get pkg ss).1
      simpa using this
  · have hl' : ∀ l, Dict.get? config pkg ≠ some (.list l) := fun l e => hl ⟨l, e⟩
    refine ⟨[], ⟨fun l e => absurd e (hl' l), fun _ => rfl⟩, grows_same ?_⟩
    have hv : Dict.get? v pkg = none := by
      cases hx : Dict.get? config pkg with
      | none => exact (hd pkg).2 (by rw [hc pkg hpf, hx])
      | some x =>
        obtain ⟨y, hy, hg⟩ := (hd pkg).1 x (by rw [hc pkg hpf, hx])
        rw [hg]
        unfold entryRun at hy
        cases x with
        | list l => exact absurd hx (hl' l)
        | _ => cases hy; rfl
    rw [mergeKvs_get?_not_mem e2 ((Dict.get?_eq_none_iff _ _).1 hv)]

/-- **C105.** The network package of any valid configuration: the sections of the converters (see C100), then those of the package `network` that the configuration lists. -/
theorem C105_network (env : Env) (ip6 : Ip6) (sh : Val → Bool) (loads : Chars → Option Val) (dsa : Bool) (config : VDict) (hw : (Val.dict config).WF)
    (hok : ∀ b ∈ objectsAt config "interfaces", AddressesOK (addressList b) ∧ MembersOK b)
    {st : BState} (h : toIntermediate (openwrtClass env (owValidate ip6) sh loads dsa) ⟨config, none⟩ = (st, .ok ())) {j : VDict} (hj : st.inter = some j) :
    ∃ (gs : List VDict) (outs : List (List VDict × List VDict)) (rts rls : List VDict) (sws : List (List VDict)) (prs os : List VDict),
      GlobalsSays config gs ∧ AllWritten env dsa config [] (objectsAt config "interfaces") outs ∧
      Forall2Idx (RouteSays env) 1 (objectsAt config "routes") rts ∧ Forall2Idx (RuleSays env) 1 (objectsAt config "ip_rules") rls ∧
      List.Forall₂ (SwitchSays env) (objectsAt config "switch") sws ∧ Forall2Idx PeerSays 1 (objectsAt config "wireguard_peers") prs ∧
      OwnSections env config "network" os ∧
      (DistinctNames (gs ++ outs.flatMap (fun o => o.1 ++ o.2) ++ rts ++ rls ++ sws.flatten ++ prs ++ os) →
        Dict.get? j "network" = stored (gs ++ outs.flatMap (fun o => o.1 ++ o.2) ++ rts ++ rls ++ sws.flatten ++ prs ++ os)) := by
  obtain ⟨gs, outs, rts, rls, sws, prs, g1, o1, t1, t2, t3, t4, c, i, a1, a2, g2, H⟩ := network_before env ip6 sh loads dsa config hw hok h
  obtain ⟨os, p1, p2⟩ := own_grows (pkg := "network") hw (by decide) a1 a2 H hj
  refine ⟨gs, outs, rts, rls, sws, prs, os, g1, o1, t1, t2, t3, t4, p1, fun hd => ?_⟩
  have := grows_trans g2 p2 [] rfl (by simpa using hd)
  rw [this, List.nil_append]

/-- **C105.** The system package of any valid configuration: the sections of the converters (see C101), then those of the package `system` that the configuration lists. -/
theorem C105_system (env : Env) (ip6 : Ip6) (sh : Val → Bool) (loads : Chars → Option Val) (dsa : Bool) (config : VDict) (hw : (Val.dict config).WF)
    {st : BState} (h : toIntermediate (openwrtClass env (owValidate ip6) sh loads dsa) ⟨config, none⟩ = (st, .ok ())) {j : VDict} (hj : st.inter = some j) :
    ∃ ss ns ls os : List VDict, GeneralSays env config ss ∧ NtpSays config ns ∧ List.Forall₂ (LedSays env) (objectsAt config "led") ls ∧
      OwnSections env config "system" os ∧
      (DistinctNames (ss ++ ns ++ ls ++ os) → Dict.get? j "system" = stored (ss ++ ns ++ ls ++ os)) := by
  obtain ⟨ss, ns, ls, g1, g3, g5, c, i, a1, a2, g2, H⟩ := system_before env ip6 sh loads dsa config hw h
  obtain ⟨os, p1, p2⟩ := own_grows (pkg := "system") hw (by decide) a1 a2 H hj
  refine ⟨ss, ns, ls, os, g1, g3, g5, p1, fun hd => ?_⟩
  have := grows_trans g2 p2 [] rfl (by simpa using hd)
  rw [this, List.nil_append]

/-- **C105.** The wireless package of any valid configuration: the sections of the radios and the Wi-Fi interfaces (see C99), then those of the package `wireless` that the
configuration lists. -/
theorem C105_wireless (env : Env) (ip6 : Ip6) (sh : Val → Bool) (loads : Chars → Option Val) (dsa : Bool) (config : VDict) (hw : (Val.dict config).WF)
    (hnames : ∀ x ∈ wifiOnes (objectsAt config "interfaces"), (∃ s, wifiSectionName x.1 x.2 = .str s) ∧
      ∀ enc, Dict.get? x.2 "encryption" = some (.dict enc) → Dict.get? enc ".name" = none)
    (hd : ((objectsAt config "radios").map (fun d => (Dict.get? d "name").getD .none) ++
      (wifiOnes (objectsAt config "interfaces")).map fun x => wifiSectionName x.1 x.2).Nodup)
    {st : BState} (h : toIntermediate (openwrtClass env (owValidate ip6) sh loads dsa) ⟨config, none⟩ = (st, .ok ())) {j : VDict} (hj : st.inter = some j) :
    ∃ (m : Dict String (List String)) (ss ws os : List VDict), List.Forall₂ (RadioSays env dsa) (objectsAt config "radios") ss ∧
      List.Forall₂ (fun x b => WifiSays env m x.1 x.2 b) (wifiOnes (objectsAt config "interfaces")) ws ∧ OwnSections env config "wireless" os ∧
      (DistinctNames (ss ++ ws ++ os) → Dict.get? j "wireless" = stored (ss ++ ws ++ os)) := by
  obtain ⟨m, ss, ws, c3, i3, r1, q1, q2, q3, q4, _, q6⟩ := wireless_before env ip6 sh loads dsa config hw hnames hd h
  obtain ⟨c4, i4, b1, b2, b3, b4⟩ := skip_one (P := ["wireless"]) reads_vpn (.inr (by decide)) q3 q6
  obtain ⟨c5, i5, d1, d2, d3, d4⟩ := skip_one (P := ["wireless"]) (readers_reads (env := env) (sh := sh) (dsa := dsa) (peersConv, ["wireguard_peers"], [], ["network"])
    (by simp [readers])) (.inr (by decide)) b2 b4
  obtain ⟨c6, i6, t1, t2, t3, t4⟩ := skip_one (P := ["wireless"]) reads_zt (.inr (by decide)) d2 d4
  obtain ⟨os, p1, p2⟩ := own_grows (pkg := "wireless") hw (by decide) (fun k hk => by rw [t1 k hk, d1 k hk, b1 k hk, q2 k hk]) t2 t4 hj
  exact ⟨m, ss, ws, os, r1, q1, p1, p2 _ (by rw [t3 "wireless" (by simp), d3 "wireless" (by simp), b3 "wireless" (by simp), q4])⟩

end NJ
