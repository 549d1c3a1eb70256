import Verif.PropsVpnSays
import Verif.PropsSysItems

/-!
# C102: the OpenVPN package says what the VPNs say
-/

namespace NJ

/-! ## Specification -/

/-- the empty text, which UCI does not show -/
def EmptyText (v : Val) : Prop := v = .str ""

instance (v : Val) : Decidable (EmptyText v) := by unfold EmptyText; infer_instance

/-- **Specification.** The ciphers of an option `tls_cipher`: a list of the names between the colons. -/
def tlsCipherItem : Option Val → Option Val
  | some (.str s) => if s = "" then some (.str s) else some (.list (((splitOn ':' s.toList).filter (fun w => !w.isEmpty)).map txt))
  | o => o

/-- **Specification.** The VPN `d` for UCI: its name is that of the section, it is enabled unless it is disabled, a `fragment` of 0 is left out, the
TLS ciphers are a list. -/
def vpnItemUci (d : VDict) (k : String) : Option Val :=
  if k = "enabled" then some (.bool (!((Dict.get? d "disabled").getD (.bool false)).truthy))
  else if k = ".type" then some (.str "openvpn")
  else if k = ".name" then (Dict.get? d "name").map fun n => txt (uciName (optionText (some n)))
  else if k = "name" ∨ k = "disabled" then none
  else if k = "fragment" ∧ (Dict.get? d "fragment" = some (.int 0) ∨ Dict.get? d "fragment" = some (.bool false)) then none
  else if k = "tls_cipher" then tlsCipherItem (Dict.get? d "tls_cipher")
  else Dict.get? d k

/-- where the TLS key of a VPN is kept: next to the certificate of the authority -/
def uciKeyPath (reprC : Val → String) (c : VDict) : Chars :=
  directoryOf (optionText (Dict.get? c "ca")) ++ (pyStr reprC ((Dict.get? c "dev").getD (.str ""))).toList ++ "_tls_auth.key".toList

/-- **Specification.** The option `k` of the section of the VPN `c` (as UCI wants it): servers and ciphers as texts, a TLS key replaced by a reference to its
file, `status_version` only with `status`, nothing for an empty text; otherwise the option of the VPN. -/
def uciOption (reprC : Val → String) (c : VDict) (k : String) : Option Val :=
  if k = "remote" then match vpnShown EmptyText c k with
    | some (.list rs) => some (.list (rs.map fun r => txt (remoteSays reprC r)))
    | o => o
  else if k = "data_ciphers" then match vpnShown EmptyText c k with
    | some (.list (x :: cs)) => some (txt (joinWith [':'] ((x :: cs).map (cipherSays reprC))))
    | o => o
  else if k = "tls_auth" then match vpnShown EmptyText c k with
    | some (.str key) => some (if IsReference key then .str key
        else txt (uciKeyPath reprC c ++ (if Dict.get? c "mode" = some (.str "server") then " 0".toList else " 1".toList)))
    | o => o
  else vpnShown EmptyText c k

/-- **Specification.** The section `b` says what the VPN `d` says. -/
def VpnSays (env : Env) (d b : VDict) : Prop :=
  ∃ c : VDict, (∀ k, Dict.get? c k = vpnItemUci d k) ∧ (Dict.keys b).Nodup ∧ ∀ k, Dict.get? b k = uciOption env.reprC c k

/-! ## The section -/

theorem shown_same {falsy : Val → Prop} [DecidablePred falsy] (c : VDict) {k : String} (hk : k ≠ "status_version") : vpnShown falsy c k = vpnKept falsy c k := by
  unfold vpnShown
  rw [if_neg (fun h => hk h.1)]

theorem uciBlock_says {env : Env} {c b : VDict} {f : Option VDict} (hn : (Dict.keys c).Nodup) (h : vpnBlock env removedUci c = .ok (b, f)) :
    (Dict.keys b).Nodup ∧ ∀ k, Dict.get? b k = uciOption env.reprC c k := by
  unfold vpnBlock at h
  obtain ⟨r1, h1, h⟩ := bind_ok_iff.1 h
  obtain ⟨r2, h2, h⟩ := bind_ok_iff.1 h
  obtain ⟨⟨r3, f'⟩, h3, h⟩ := bind_ok_iff.1 h
  cases Except.ok.inj h
  have kept := @kept_get EmptyText _ removedUci removedUci_iff (by decide) c hn
  obtain ⟨n1, g1, s1⟩ := remotesText_get h1 (dropRemoved_nodup hn removedUci)
  obtain ⟨n2, g2, s2⟩ := dataCiphers_get h2 (statusVersion_nodup n1)
  obtain ⟨n3, g3, s3⟩ := tlsAuth_get h3 n2
  refine ⟨sortedDict_nodup n3, fun k => ?_⟩
  rw [get?_sortedDict n3]
  have e : ∀ k, k ≠ "remote" → Dict.get? (statusVersion r1) k = vpnShown EmptyText c k := by
    intro k hk
    rw [statusVersion_get, g1 "status" (by decide), g1 k hk, kept, kept]
    rfl
  have er : Dict.get? (statusVersion r1) "remote" = Dict.get? r1 "remote" := by rw [statusVersion_get, if_neg (by simp)]
  unfold uciOption
  by_cases k1 : k = "remote"
  · subst k1
    rw [if_pos rfl, g3 _ (by decide), g2 _ (by decide), er, shown_same c (by decide), ← kept]
    unfold remotesText at h1
    cases hv : Dict.get? (dropRemoved removedUci (bareBridge c)) "remote" with
    | none => rw [hv] at h1; cases h1; exact hv
    | some v =>
      rw [hv] at h1
      cases v with
      | list rs =>
        dsimp only at h1
        obtain ⟨ts, h4, h5⟩ := bind_ok_iff.1 h1
        cases Except.ok.inj h5
        rw [Dict.get?_set', if_pos rfl, mapM_says (fun a b => remoteText_says) h4]
      | _ => cases h1
  · rw [if_neg k1]
    by_cases k2 : k = "data_ciphers"
    · subst k2
      rw [if_pos rfl, g3 _ (by decide), ← e _ (by decide)]
      unfold dataCiphers at h2
      dsimp only at h2
      cases hv : Dict.get? (statusVersion r1) "data_ciphers" with
      | none => rw [hv] at h2; cases h2; exact hv
      | some v =>
        rw [hv, Option.getD_some] at h2
        split at h2
        · next ht =>
          cases Except.ok.inj h2
          rw [hv]
          cases v with
          | list l => cases l with
            | nil => rfl
            | cons => simp [Val.truthy] at ht
          | _ => rfl
        · next ht =>
          split at h2
          · next l =>
            obtain ⟨ts, h4, h5⟩ := bind_ok_iff.1 h2
            cases Except.ok.inj h5
            cases l with
            | nil => exact absurd rfl ht
            | cons x cs => rw [Dict.get?_set', if_pos rfl, mapM_says (fun a b => cipherText_says) h4]
          · cases h2
    · rw [if_neg k2]
      by_cases k3 : k = "tls_auth"
      · subst k3
        rw [if_pos rfl]
        have ec : ∀ k, k ≠ "remote" → k ≠ "data_ciphers" → Dict.get? r2 k = vpnShown EmptyText c k := fun k q1 q2 => by rw [g2 k q2, e k q1]
        rw [← ec "tls_auth" (by decide) (by decide)]
        unfold tlsAuth at h3
        dsimp only at h3
        cases hv : Dict.get? r2 "tls_auth" with
        | none => rw [hv] at h3; cases h3; exact hv
        | some v =>
          rw [hv, Option.getD_some] at h3
          split at h3
          · next ht =>
            cases Except.ok.inj h3
            rw [hv]
            cases v with
            | str s =>
              exfalso
              have hs : s = "" := by simpa [Val.truthy] using ht
              have := ec "tls_auth" (by decide) (by decide)
              rw [hv, shown_same c (by decide), hs] at this
              unfold vpnKept at this
              split at this
              · cases this
              · rw [if_neg (by simp), if_neg (by decide)] at this
                split at this
                · cases this
                · next hx => cases this; exact hx rfl
            | _ => rfl
          · next ht =>
            obtain ⟨t, a1, h3⟩ := bind_ok_iff.1 h3
            cases v with
            | str key =>
              cases a1
              dsimp only
              split at h3
              · next hl =>
                cases Except.ok.inj h3
                rw [hv, if_pos (show IsReference key from hl)]
              · next hl =>
                rw [if_neg (show ¬ IsReference key from hl)]
                obtain ⟨ca, a2, h3⟩ := bind_ok_iff.1 h3
                cases Except.ok.inj h3
                rw [Dict.get?_set', if_pos rfl, tlsAuthPath_eq]
                have hmode : (Dict.get? r2 "mode" = some (.str "server")) = (Dict.get? c "mode" = some (.str "server")) := by
                  rw [ec "mode" (by decide) (by decide), shown_same c (by decide)]
                  unfold vpnKept
                  cases hm : Dict.get? c "mode" with
                  | none => rfl
                  | some m =>
                    dsimp only
                    rw [if_neg (by simp), if_neg (by decide)]
                    split
                    · next hx => rw [hx]; simp
                    · rfl
                have hkept : ∀ k, k = "ca" ∨ k = "dev" → (Dict.get? r2 k).getD (.str "") = (Dict.get? c k).getD (.str "") := by
                  intro k hk
                  rw [ec k (by rcases hk with rfl | rfl <;> decide) (by rcases hk with rfl | rfl <;> decide), shown_same c (by rcases hk with rfl | rfl <;> decide)]
                  unfold vpnKept
                  cases hm : Dict.get? c k with
                  | none => rfl
                  | some m =>
                    dsimp only
                    rw [if_neg (by rcases hk with rfl | rfl <;> simp), if_neg (by rcases hk with rfl | rfl <;> decide)]
                    split
                    · next hx => rw [hx]; rfl
                    · rfl
                rw [hkept "ca" (.inl rfl)] at a2
                rw [hkept "dev" (.inr rfl)]
                have hca : ca = optionText (Dict.get? c "ca") := by
                  cases hm : Dict.get? c "ca" with
                  | none => rw [hm] at a2; cases a2; rfl
                  | some m => rw [hm] at a2; cases m with
                    | str s => cases a2; rfl
                    | _ => cases a2
                unfold uciKeyPath
                rw [← hca]
                simp only [hmode]
                congr 3
                split <;> rfl
            | _ => cases a1
      · rw [if_neg k3, g3 k k3, g2 k k2, e k k1]

theorem isZero_iff (o : Option Val) : isZero o = true ↔ o = some (.int 0) ∨ o = some (.bool false) := by
  cases o with
  | none => simp [isZero]
  | some v => cases v <;> simp [isZero]

theorem vpn_says {env : Env} {d b : VDict} {f : Option VDict} (hn : (Dict.keys d).Nodup) (h : uciVpnBlock env d = .ok (b, f)) : VpnSays env d b := by
  unfold uciVpnBlock at h
  dsimp only at h
  generalize hd0 : (if isZero (Dict.get? d "fragment") = true then Dict.erase d "fragment" else d) = d0 at h
  have hn0 : (Dict.keys d0).Nodup := by rw [← hd0]; split; exacts [Dict.nodup_erase hn _, hn]
  have g0 : ∀ k, Dict.get? d0 k = if k = "fragment" ∧ (Dict.get? d "fragment" = some (.int 0) ∨ Dict.get? d "fragment" = some (.bool false)) then none else Dict.get? d k := by
    intro k
    rw [← hd0]
    by_cases hz : isZero (Dict.get? d "fragment") = true
    · rw [if_pos hz, Dict.get?_erase']
      simp only [(isZero_iff _).1 hz, and_true]
    · rw [if_neg hz, if_neg (fun hh => hz ((isZero_iff _).2 hh.2))]
  obtain ⟨⟨name, d1⟩, e1, h⟩ := bind_ok_iff.1 h
  obtain ⟨a1, a2⟩ := popKey_is e1
  obtain ⟨nm, e2, h⟩ := bind_ok_iff.1 h
  dsimp only at a1 a2 e2 h
  subst a2
  have hname : Dict.get? d "name" = some name := by rw [g0, if_neg (by simp)] at a1; exact a1
  have hnm : nm = optionText (some name) := by
    cases name with
    | str s => cases e2; rfl
    | _ => cases e2
  simp only [popOr] at h
  have hn1 := Dict.nodup_update (Dict.nodup_erase (Dict.nodup_erase hn0 "name") "disabled") [(".name", txt (uciName nm)), (".type", .str "openvpn"),
    ("enabled", .bool (!((Dict.get? (Dict.erase d0 "name") "disabled").getD (.bool false)).truthy))]
  generalize hu : Dict.update (Dict.erase (Dict.erase d0 "name") "disabled") [(".name", txt (uciName nm)), (".type", .str "openvpn"),
    ("enabled", .bool (!((Dict.get? (Dict.erase d0 "name") "disabled").getD (.bool false)).truthy))] = u at h hn1
  have gu : ∀ k, Dict.get? u k = if k = "enabled" then some (.bool (!((Dict.get? d "disabled").getD (.bool false)).truthy))
      else if k = ".type" then some (.str "openvpn") else if k = ".name" then some (txt (uciName nm))
      else if k = "disabled" then none else if k = "name" then none else Dict.get? d0 k := by
    intro k
    rw [← hu]
    simp only [Dict.update_cons, Dict.update_nil, Dict.get?_set', Dict.get?_erase', String.reduceEq, if_false, g0, false_and]
  have htc : Dict.get? u "tls_cipher" = Dict.get? d "tls_cipher" := by rw [gu, g0]; simp
  have hn2 : (Dict.keys (tlsCipherList u)).Nodup := by
    unfold tlsCipherList
    split
    · split
      · exact hn1
      · exact Dict.nodup_set hn1 _ _
    · exact hn1
  obtain ⟨b1, b2⟩ := uciBlock_says hn2 h
  refine ⟨tlsCipherList u, fun k => ?_, b1, b2⟩
  have gt : Dict.get? (tlsCipherList u) k = if k = "tls_cipher" then tlsCipherItem (Dict.get? d "tls_cipher") else Dict.get? u k := by
    unfold tlsCipherList tlsCipherItem
    rw [htc]
    by_cases hk : k = "tls_cipher"
    · subst hk
      rw [if_pos rfl]
      cases hv : Dict.get? d "tls_cipher" with
      | none => rw [htc, hv]
      | some v => cases v with
        | str s =>
          dsimp only
          split
          · rw [htc, hv]
          · rw [Dict.get?_set', if_pos rfl]
        | _ => rw [htc, hv]
    · rw [if_neg hk]
      split
      · split
        · rfl
        · rw [Dict.get?_set', if_neg hk]
      · rfl
  rw [gt]
  unfold vpnItemUci
  by_cases hk : k = "tls_cipher"
  · subst hk; simp
  · rw [if_neg hk, gu, if_neg hk, g0, hname, hnm]
    by_cases q1 : k = "enabled"
    · rw [if_pos q1, if_pos q1]
    · by_cases q2 : k = ".type"
      · rw [if_neg q1, if_neg q1, if_pos q2, if_pos q2]
      · by_cases q3 : k = ".name"
        · rw [if_neg q1, if_neg q1, if_neg q2, if_neg q2, if_pos q3, if_pos q3]; rfl
        · by_cases q4 : k = "disabled" <;> by_cases q5 : k = "name" <;> simp [q1, q2, q3, q4, q5]

theorem vpns_say {env : Env} {l : List VDict} {rs : List (VDict × Option VDict)} (h : l.mapM (uciVpnBlock env) = .ok rs) (hn : ∀ d ∈ l, (Dict.keys d).Nodup) :
    List.Forall₂ (VpnSays env) l (rs.map Prod.fst) := by
  induction l generalizing rs with
  | nil => cases h; exact .nil
  | cons d l ih =>
    rw [mapM_ok_cons] at h
    obtain ⟨r, rs', c1, c2, rfl⟩ := h
    exact .cons (vpn_says (hn d List.mem_cons_self) c1) (ih c2 (fun x hx => hn x (List.mem_cons_of_mem _ hx)))

/-! ## The loop -/

/-- what a successful conversion tells -/
theorem ow_loop {env : Env} {ip6 : Ip6} {sh : Val → Bool} {loads : Chars → Option Val} {dsa : Bool} {config : VDict} {st : BState}
    (h : toIntermediate (openwrtClass env (owValidate ip6) sh loads dsa) ⟨config, none⟩ = (st, .ok ())) :
    OwFacts ip6 config ∧ convLoop (openwrtClass env (owValidate ip6) sh loads dsa) (openwrtConvs env sh dsa) config [] = (st, .ok ()) := by
  unfold toIntermediate at h
  split at h
  · cases h
  rename_i hval
  have hval : (validateRadios config >>= fun _ => owValidate ip6 config >>= fun _ => validateFilePaths config >>= fun _ => validatePvid config) = .ok () := hval
  obtain ⟨_, hr, hval⟩ := bind_ok_iff.1 hval
  obtain ⟨_, hv, _⟩ := bind_ok_iff.1 hval
  refine ⟨OwFacts.of_valid ?_, h⟩
  unfold owValidate at hv
  split at hv
  · rename_i e; exact e
  · cases hv

/-- the last converter: it leaves the packages of the converters alone that are not in the configuration as such -/
theorem last_step {env : Env} {ip6 : Ip6} {sh : Val → Bool} {loads : Chars → Option Val} {dsa : Bool} {c i j : VDict} {st : BState}
    (H : convLoop (openwrtClass env (owValidate ip6) sh loads dsa) [defaultConv env knownKeys] c i = (st, .ok ())) (hj : st.inter = some j) :
    ∃ v, ((defaultConv env knownKeys).run c i).2 = .ok v ∧ mergeConfig sh [".name"] i v = .ok j := by
  rcases loop_step H with ⟨s, _⟩ | ⟨_, v, i13, e1, e2, H⟩
  · cases s
  · rw [convLoop] at H
    cases H
    cases hj
    exact ⟨v, e1, e2⟩

theorem known_kept {env : Env} {ip6 : Ip6} {sh : Val → Bool} {loads : Chars → Option Val} {dsa : Bool} {c i j : VDict} {st : BState} {k : String} (hk : k ∈ knownKeys) (hn : (Dict.keys c).Nodup)
    (H : convLoop (openwrtClass env (owValidate ip6) sh loads dsa) [defaultConv env knownKeys] c i = (st, .ok ())) (hj : st.inter = some j) :
    Dict.get? j k = Dict.get? i k := by
  obtain ⟨v, e1, e2⟩ := last_step H hj
  have hv : Dict.get? v k = none := by
    obtain ⟨_, hd⟩ := default_at hn e1
    cases hc : Dict.get? c k with
    | none => exact (hd k).2 hc
    | some x =>
      obtain ⟨y, hy, hg⟩ := (hd k).1 x hc
      rw [hg]
      unfold entryRun at hy
      cases x with
      | list l => dsimp only at hy; rw [if_pos hk] at hy; cases hy; rfl
      | _ => cases hy; rfl
  rw [mergeKvs_get?_not_mem e2 ((Dict.get?_eq_none_iff _ _).1 hv)]

theorem stored_first {sh : Val → Bool} {pkg : String} {i i1 v : VDict} {bs : List VDict} (h : mergeConfig sh [".name"] i v = .ok i1) (hi : Dict.get? i pkg = none)
    (hv : Dict.get? v pkg = stored bs) (hn : (Dict.keys v).Nodup) : Dict.get? i1 pkg = stored bs := by
  unfold stored at hv ⊢
  by_cases hb : bs = []
  · rw [if_pos hb] at hv ⊢
    rw [mergeKvs_get?_not_mem h ((Dict.get?_eq_none_iff _ _).1 hv), hi]
  · rw [if_neg hb] at hv ⊢
    obtain ⟨x, h1, h2⟩ := mergeKvs_get?_mem hn h hv
    rw [hi, mergeVal_none] at h1
    cases h1
    exact h2

/-- **C102.** What the OpenVPN package contains: one section for each VPN, in their order, each with exactly the options it should have. -/
theorem C102_openvpn (env : Env) (ip6 : Ip6) (sh : Val → Bool) (loads : Chars → Option Val) (dsa : Bool) (config : VDict) (hw : (Val.dict config).WF)
    {st : BState} (h : toIntermediate (openwrtClass env (owValidate ip6) sh loads dsa) ⟨config, none⟩ = (st, .ok ())) {j : VDict} (hj : st.inter = some j) :
    ∃ bs : List VDict, List.Forall₂ (VpnSays env) (objectsAt config "openvpn") bs ∧ Dict.get? j "openvpn" = stored bs := by
  obtain ⟨facts, H⟩ := ow_loop h
  have hn := wf_nodup hw
  have hvpn := objectsAt_of (holds_objects facts.vpn)
  have H : convLoop (openwrtClass env (owValidate ip6) sh loads dsa)
      ((((readers env sh dsa).take 9).map Prod.fst) ++ (uciVpnConv env :: peersConv :: ztConv env :: [defaultConv env knownKeys])) config [] = (st, .ok ()) := H
  obtain ⟨c1, i1, a1, a2, a3, H⟩ := skip_many (P := ["openvpn"]) _ (fun x hx => ⟨readers_reads x (List.mem_of_mem_take hx), by
    simp only [readers, List.take_succ_cons, List.take_zero, List.mem_cons, List.not_mem_nil, or_false] at hx
    rcases hx with rfl | rfl | rfl | rfl | rfl | rfl | rfl | rfl | rfl <;> simp⟩) hn H
  have hi1 : Dict.get? i1 "openvpn" = none := a3 "openvpn" (by simp)
  rw [← a1 "openvpn" (by decide)] at hvpn
  have V : ∃ c2 i2 bs, List.Forall₂ (VpnSays env) (objectsAt config "openvpn") bs ∧ Dict.get? i2 "openvpn" = stored bs ∧ (Dict.keys c2).Nodup ∧
      convLoop (openwrtClass env (owValidate ip6) sh loads dsa) (peersConv :: ztConv env :: [defaultConv env knownKeys]) c2 i2 = (st, .ok ()) := by
    rcases loop_step H with ⟨s, H⟩ | ⟨s, v, i2, e1, e2, H⟩
    · have s : Dict.has c1 "openvpn" = false := s
      rcases hvpn with ⟨_, e⟩ | e
      · exact ⟨c1, i1, [], by rw [e]; exact .nil, hi1, a2, H⟩
      · rw [Dict.has_eq, e] at s; cases s
    · have s : Dict.has c1 "openvpn" = true := s
      rcases hvpn with ⟨e, _⟩ | e
      · rw [Dict.has_eq, e] at s; cases s
      · have e1 : (vpnRun (uciVpnBlock env) c1 i1).2 = .ok v := e1
        unfold vpnRun at e1
        rw [e, Option.getD_some] at e1
        dsimp only at e1
        obtain ⟨bs, e3, e4⟩ := bind_ok_iff.1 e1
        obtain ⟨rs, b1, b2, _⟩ := vpnBlocks_ok (config' := (vpnBlocks (uciVpnBlock env) c1 ((objectsAt config "openvpn").map .dict)).1) (Prod.ext rfl e3)
        have hf := vpns_say b1 fun d hd => wf_nodup (wf_each hw (by rw [← a1 "openvpn" (by decide), e]) (List.mem_map_of_mem hd))
        refine ⟨_, i2, rs.map Prod.fst, hf, ?_, (reads_vpn (env := env)).config c1 i1 |>.2 a2, H⟩
        have e4 := pure_ok_iff.1 e4
        have hv : Dict.get? v "openvpn" = stored (rs.map Prod.fst) ∧ (Dict.keys v).Nodup := by
          have := stored_get "openvpn" (rs.map Prod.fst)
          rw [← e4, b2]
          simpa [List.map_map, Function.comp_def] using this
        exact stored_first e2 hi1 hv.1 hv.2
  obtain ⟨c2, i2, bs, f1, f2, n2, H⟩ := V
  refine ⟨bs, f1, ?_⟩
  obtain ⟨c3, i3, _, n3, g3, H⟩ := skip_one (P := ["openvpn"]) (readers_reads (env := env) (sh := sh) (dsa := dsa) (peersConv, ["wireguard_peers"], [], ["network"]) (by simp [readers]))
    (.inr (by simp)) n2 H
  obtain ⟨c4, i4, _, n4, g4, H⟩ := skip_one (P := ["openvpn"]) reads_zt (.inr (by simp)) n3 H
  rw [known_kept (by decide) n4 H hj, g4 "openvpn" (by simp), g3 "openvpn" (by simp), f2]

end NJ
