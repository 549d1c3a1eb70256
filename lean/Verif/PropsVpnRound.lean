import Verif.PropsOpenVpn
import Verif.PropsMerge

/-!
# OpenVPN: what is rendered comes back (C57, C58)
-/

namespace NJ

/-! ## What a configuration must satisfy -/

/-- a cipher of `data_ciphers`: a name without white space and colon, that does not begin with a question mark, and whether it
is optional -/
def CipherOK (v : Val) : Prop :=
  ∃ (d : VDict) (n : String) (o : Bool), v = .dict d ∧ SameItems d [("cipher", .str n), ("optional", .bool o)] ∧ n ≠ "" ∧
    (∀ c ∈ n.toList, isSpace c = false ∧ c ≠ ':') ∧ n.toList.head? ≠ some '?'

/-- the values that come back: of the type that the schema gives to the option, flags and texts for the others -/
def VpnReturns (k : String) (v : Val) : Prop :=
  if k = "data_ciphers" then ∃ l, v = .list l ∧ l ≠ [] ∧ ∀ x ∈ l, CipherOK x
  else if k = "tls_auth" then ∃ s : String, v = .str s ∧ VpnText s.toList ∧ (splitOn ' ' s.toList).length = 2
  else if k = "server_bridge" then ∃ s : String, v = .str s ∧ (s = "" ∨ VpnText s.toList)
  else match Dict.get? openvpnProps k with
    | some .integer => ∃ i, v = .int i
    | some .boolean => v = .bool true
    | _ => v = .bool true ∨ ∃ s : String, v = .str s ∧ VpnText s.toList

/-- an OpenVPN configuration without `remote` (which never comes back: `C57_needs_no_remote`) -/
structure VpnOK (c : VDict) : Prop where
  nodup : (Dict.keys c).Nodup
  name : ∃ n, Dict.get? c "name" = some (.str n) ∧ VpnText n.toList
  noRemote : Dict.get? c "remote" = none
  options : ∀ k v, Dict.get? c k = some v → k ≠ "name" → VpnKey k ∧ ((k ≠ "script_security" ∧ FalsyOption v) ∨ VpnReturns k v)

/-- **Specification.** What comes back for an option: the value it was given; nothing for options that are not rendered
(false, 0, empty; `status_version` without `status`). -/
def vpnReturned (c : VDict) (k : String) : Option Val :=
  if k = "server_bridge" ∧ Dict.get? c k = some (.str "") then some (.str "") else vpnShown FalsyOption c k

/-- the same lists of dictionaries -/
def SameDicts (a b : Val) : Prop := ∃ x y, a = .list x ∧ b = .list y ∧ List.Forall₂ SameDict x y

/-- **Specification.** `out` has exactly the options of `c` that come back -/
def VpnSame (out c : VDict) : Prop :=
  (Dict.keys out).Nodup ∧ (∀ k, k ≠ "data_ciphers" → Dict.get? out k = vpnReturned c k) ∧
    ((vpnReturned c "data_ciphers" = none ∧ Dict.get? out "data_ciphers" = none) ∨
      ∃ v w, vpnReturned c "data_ciphers" = some v ∧ Dict.get? out "data_ciphers" = some w ∧ SameDicts w v)

/-! ## Ciphers -/

theorem cipher_ok (env : Env) {v : Val} (h : CipherOK v) :
    ∃ t, cipherText env v = .ok t ∧ t ≠ [] ∧ (∀ c ∈ t, isSpace c = false ∧ c ≠ ':') ∧ SameDict (cipherBack t) v := by
  obtain ⟨d, n, o, rfl, hs, hne, hc, hq⟩ := h
  have h1 : Dict.get? d "cipher" = some (.str n) := by rw [hs]; rfl
  have h2 : Dict.get? d "optional" = some (.bool o) := by rw [hs]; simp [Dict.get?]
  have hn : n.toList ≠ [] := fun e => hne (String.toList_inj.1 e)
  cases o with
  | true =>
    refine ⟨'?' :: n.toList, ?_, by simp, ?_, ?_⟩
    · show (do
        let name ← getKey d "cipher"
        let optional ← getKey d "optional"
        pure (if optional.truthy then '?' :: (pyStr env.reprC name).toList else (pyStr env.reprC name).toList) : Except PyErr Chars) = _
      rw [getKey_ok h1, getKey_ok h2]
      rfl
    · intro c hm
      rcases List.mem_cons.1 hm with rfl | hm
      · decide
      · exact hc c hm
    · refine ⟨_, d, rfl, rfl, ?_⟩
      intro k
      rw [hs k]
      simp [txt]
  | false =>
    refine ⟨n.toList, ?_, hn, hc, ?_⟩
    · show (do
        let name ← getKey d "cipher"
        let optional ← getKey d "optional"
        pure (if optional.truthy then '?' :: (pyStr env.reprC name).toList else (pyStr env.reprC name).toList) : Except PyErr Chars) = _
      rw [getKey_ok h1, getKey_ok h2]
      rfl
    · have : cipherBack n.toList = .dict [("cipher", txt n.toList), ("optional", .bool false)] := by
        unfold cipherBack
        split
        · next r e => rw [e] at hq; exact absurd rfl hq
        · rfl
      rw [this]
      refine ⟨_, d, rfl, rfl, ?_⟩
      intro k
      rw [hs k]
      simp [txt]

theorem ciphers_ok (env : Env) {l : List Val} (hne : l ≠ []) (h : ∀ x ∈ l, CipherOK x) :
    ∃ ts, l.mapM (cipherText env) = .ok ts ∧ VpnText (joinWith [':'] ts) ∧ (∀ c ∈ joinWith [':'] ts, isSpace c = false) ∧
      splitOn ':' (joinWith [':'] ts) = ts ∧ List.Forall₂ SameDict (ts.map cipherBack) l := by
  have key : ∃ ts, l.mapM (cipherText env) = .ok ts ∧ (∀ t ∈ ts, t ≠ [] ∧ ∀ c ∈ t, isSpace c = false ∧ c ≠ ':') ∧
      List.Forall₂ SameDict (ts.map cipherBack) l := by
    clear hne
    induction l with
    | nil => exact ⟨[], rfl, by simp, .nil⟩
    | cons v l ih =>
      obtain ⟨ts, i1, i2, i3⟩ := ih (fun x hx => h x (by simp [hx]))
      obtain ⟨t, h1, h2, h3, h4⟩ := cipher_ok env (h v (by simp))
      refine ⟨t :: ts, ?_, ?_, .cons h4 i3⟩
      · rw [mapM_ok_cons]; exact ⟨_, _, h1, i1, rfl⟩
      · intro x hx
        rcases List.mem_cons.1 hx with rfl | hx
        · exact ⟨h2, h3⟩
        · exact i2 x hx
  obtain ⟨ts, h1, h2, h3⟩ := key
  have htne : ts ≠ [] := by
    rintro rfl
    cases l with
    | nil => exact hne rfl
    | cons => cases h3
  have hns : ∀ c ∈ joinWith [':'] ts, isSpace c = false := by
    clear h1 h3 htne
    induction ts with
    | nil => simp [joinWith]
    | cons t ts ih =>
      have ih := ih (fun x hx => h2 x (by simp [hx]))
      cases ts with
      | nil => intro c hc; exact ((h2 t (by simp)).2 c (by simpa [joinWith] using hc)).1
      | cons u us =>
        intro c hc
        simp only [joinWith, List.mem_append, List.mem_singleton] at hc ih
        rcases hc with (hc | rfl) | hc
        · exact ((h2 t (by simp)).2 c hc).1
        · decide
        · exact ih c hc
  have hj : joinWith [':'] ts ≠ [] := by
    cases ts with
    | nil => exact absurd rfl htne
    | cons t ts =>
      have := (h2 t (by simp)).1
      cases ts with
      | nil => simpa [joinWith] using this
      | cons => simp [joinWith]
  refine ⟨ts, h1, ⟨⟨_, _, List.head?_eq_some_head hj, hns _ (List.head_mem hj), List.getLast?_eq_some_getLast hj, hns _ (List.getLast_mem hj)⟩, ?_, ?_⟩,
    hns, splitOn_joinWith ts htne (fun w hw hm => ((h2 w hw).2 _ hm).2 rfl), h3⟩
  · intro hm; exact absurd (hns _ hm) (by decide)
  · intro hm; exact absurd (hns ' ' (hm.subset (by simp))) (by decide)

/-! ## One VPN -/

theorem returned_some {c : VDict} (h : VpnOK c) {k : String} {v : Val} (hk : vpnReturned c k = some v) (hn : k ≠ "name") :
    Dict.get? c k = some v ∧ VpnKey k ∧ VpnReturns k v := by
  unfold vpnReturned at hk
  split at hk
  · next e =>
    obtain ⟨rfl, e⟩ := e
    cases hk
    have := h.options _ _ e hn
    refine ⟨e, this.1, ?_⟩
    unfold VpnReturns
    rw [if_neg (by decide), if_neg (by decide), if_pos rfl]
    exact ⟨"", rfl, .inl rfl⟩
  · next e =>
    unfold vpnShown at hk
    split at hk
    · cases hk
    · unfold vpnKept at hk
      split at hk
      · cases hk
      · next w ew =>
        split at hk
        · next e2 =>
          obtain ⟨rfl, rfl⟩ := e2
          exact absurd ⟨rfl, ew⟩ e
        · split at hk
          · next e3 =>
            cases hk
            have := h.options _ _ ew hn
            refine ⟨ew, this.1, ?_⟩
            rcases this.2 with h' | h'
            · rcases e3 with e3 | rfl
              · exact absurd e3 h'.1
              · rw [h.noRemote] at ew; cases ew
            · exact h'
          · split at hk
            · cases hk
            · next e4 =>
              cases hk
              have := h.options _ _ ew hn
              refine ⟨ew, this.1, ?_⟩
              rcases this.2 with h' | h'
              · exact absurd h'.2 e4
              · exact h'

theorem returned_name {c : VDict} (h : VpnOK c) : ∃ n, vpnReturned c "name" = some (.str n) ∧ VpnText n.toList := by
  obtain ⟨n, h1, h2⟩ := h.name
  refine ⟨n, ?_, h2⟩
  have hne : n ≠ "" := by rintro rfl; exact h2.1.ne rfl
  unfold vpnReturned vpnShown vpnKept
  simp [h1, FalsyOption, hne]

/-- the form that an option has in the block, `t` is the text of the ciphers -/
def vpnForm (t : Val) (k : String) (v : Val) : Val :=
  if k = "server_bridge" ∧ v = .str "" then .bool true else if k = "data_ciphers" then t else v

theorem shown_form (t : Val) {c : VDict} {k : String} (h : k ≠ "data_ciphers") : vpnShown FalsyOption c k = (vpnReturned c k).map (vpnForm t k) := by
  unfold vpnReturned
  split
  · next e =>
    obtain ⟨rfl, e⟩ := e
    unfold vpnShown vpnKept
    simp [e, vpnForm]
  · next e =>
    cases hs : vpnShown FalsyOption c k with
    | none => rfl
    | some v =>
      have : ¬ (k = "server_bridge" ∧ v = .str "") := by
        rintro ⟨rfl, rfl⟩
        unfold vpnShown vpnKept at hs
        rw [if_neg (by simp)] at hs
        split at hs
        · cases hs
        · split at hs
          · cases hs
          · rw [if_neg (by decide)] at hs
            split at hs
            · cases hs
            · next w ew _ _ => cases hs; exact e ⟨rfl, ew⟩
      simp [vpnForm, this, h]

theorem vpn_block (env : Env) {c : VDict} (h : VpnOK c) :
    ∃ b t ts, vpnBlock env removedVpn c = .ok (b, none) ∧ (Dict.keys b).Nodup ∧ (∀ k, Dict.get? b k = (vpnReturned c k).map (vpnForm (txt t) k)) ∧
      (∀ v, vpnReturned c "data_ciphers" = some v → VpnText t ∧ splitOn ':' t = ts ∧ SameDicts (.list (ts.map cipherBack)) v) := by
  have hkept := fun k => kept_get removedVpn_iff (by decide) h.nodup (remove := removedVpn) (falsy := FalsyOption) (c := c) k
  have n1 := dropRemoved_nodup h.nodup removedVpn
  unfold vpnBlock
  generalize dropRemoved removedVpn (bareBridge c) = c1 at hkept n1
  have hrem : Dict.get? c1 "remote" = none := by
    rw [hkept]; unfold vpnKept; rw [h.noRemote]
  have e1 : remotesText env c1 = .ok c1 := by unfold remotesText; rw [hrem]
  rw [e1]
  have g2 : ∀ k, Dict.get? (statusVersion c1) k = vpnShown FalsyOption c k := by
    intro k; rw [statusVersion_get, hkept, hkept]; rfl
  have n2 := statusVersion_nodup n1
  simp only [bind, Except.bind]
  generalize statusVersion c1 = c2 at g2 n2
  -- the ciphers
  obtain ⟨c3, t, ts, e3, n3, g3, ht⟩ : ∃ c3 t ts, dataCiphers env c2 = .ok c3 ∧ (Dict.keys c3).Nodup ∧
      (∀ k, Dict.get? c3 k = (vpnReturned c k).map (vpnForm (txt t) k)) ∧
      (∀ v, vpnReturned c "data_ciphers" = some v → VpnText t ∧ splitOn ':' t = ts ∧ SameDicts (.list (ts.map cipherBack)) v) := by
    have hdc : vpnReturned c "data_ciphers" = vpnShown FalsyOption c "data_ciphers" := by
      unfold vpnReturned; rw [if_neg (by simp)]
    cases e : vpnReturned c "data_ciphers" with
    | none =>
      refine ⟨c2, [], [], ?_, n2, ?_, fun v hv => by cases hv⟩
      · unfold dataCiphers
        rw [g2, ← hdc, e]; rfl
      · intro k
        rw [g2]
        by_cases hk : k = "data_ciphers"
        · subst hk; rw [← hdc, e]; rfl
        · exact shown_form _ hk
    | some v =>
      obtain ⟨_, _, hv⟩ := returned_some h e (by decide)
      unfold VpnReturns at hv
      rw [if_pos rfl] at hv
      obtain ⟨l, rfl, hne, hl⟩ := hv
      obtain ⟨ts, i1, i2, _, i4, i5⟩ := ciphers_ok env hne hl
      refine ⟨Dict.set c2 "data_ciphers" (txt (joinWith [':'] ts)), joinWith [':'] ts, ts, ?_, Dict.nodup_set n2 _ _, ?_, ?_⟩
      · unfold dataCiphers
        rw [g2, ← hdc, e]
        simp only [Option.getD_some]
        rw [if_neg (by cases l with
          | nil => exact absurd rfl hne
          | cons => simp [Val.truthy]), i1]
        rfl
      · intro k
        rw [Dict.get?_set']
        by_cases hk : k = "data_ciphers"
        · subst hk; rw [if_pos rfl, e]; rfl
        · rw [if_neg hk, g2]; exact shown_form _ hk
      · intro v hv
        cases hv
        exact ⟨i2, i4, _, _, rfl, rfl, i5⟩
  rw [e3]
  -- the key
  have hta : vpnReturned c "tls_auth" = Dict.get? c3 "tls_auth" := by
    rw [g3]
    cases vpnReturned c "tls_auth" with
    | none => rfl
    | some v => rfl
  have e4 : tlsAuth env c3 = .ok (c3, none) := by
    unfold tlsAuth
    cases e : vpnReturned c "tls_auth" with
    | none => rw [← hta, e]; rfl
    | some v =>
      obtain ⟨_, _, hv⟩ := returned_some h e (by decide)
      unfold VpnReturns at hv
      rw [if_neg (by decide), if_pos rfl] at hv
      obtain ⟨s, rfl, hs1, hs2⟩ := hv
      have hne : s ≠ "" := by rintro rfl; exact hs1.1.ne rfl
      rw [← hta, e]
      simp only [Option.getD_some]
      rw [if_neg (by simp [Val.truthy, hne])]
      simp only [asText, bind, Except.bind]
      rw [hs1.1.strip, if_pos hs2]
      rfl
  dsimp only
  rw [e4]
  exact ⟨sortedDict c3, t, ts, rfl, sortedDict_nodup n3, fun k => by rw [get?_sortedDict n3, g3], ht⟩

/-- the values of the block, as text and cast back -/
theorem form_ok {c : VDict} (h : VpnOK c) {t : Chars} (ht : ∀ v, vpnReturned c "data_ciphers" = some v → VpnText t) {k : String} {v : Val}
    (hk : vpnReturned c k = some v) (hn : k ≠ "name") :
    VpnKey k ∧ VpnValue (vpnForm (txt t) k v) ∧ castValue (Dict.get? openvpnProps k) (vpnRead (vpnForm (txt t) k v)) = .ok (vpnForm (txt t) k v) := by
  obtain ⟨_, h1, h2⟩ := returned_some h hk hn
  refine ⟨h1, ?_⟩
  unfold VpnReturns at h2
  split at h2
  · next e =>
    subst e
    have : vpnForm (txt t) "data_ciphers" v = txt t := by simp [vpnForm]
    rw [this]
    refine ⟨?_, rfl⟩
    show VpnText _
    rw [String.toList_ofList]
    exact ht v hk
  · next e1 =>
    split at h2
    · next e =>
      subst e
      obtain ⟨s, rfl, hs1, _⟩ := h2
      have : vpnForm (txt t) "tls_auth" (.str s) = .str s := by simp [vpnForm]
      rw [this]
      exact ⟨hs1, rfl⟩
    · split at h2
      · next e =>
        subst e
        obtain ⟨s, rfl, hs⟩ := h2
        by_cases hs' : s = ""
        · subst hs'
          have : vpnForm (txt t) "server_bridge" (.str "") = .bool true := by simp [vpnForm]
          rw [this]
          exact ⟨rfl, rfl⟩
        · have : vpnForm (txt t) "server_bridge" (.str s) = .str s := by simp [vpnForm, hs']
          rw [this]
          rcases hs with hs | hs
          · exact absurd hs hs'
          · exact ⟨hs, rfl⟩
      · next e3 =>
        have : vpnForm (txt t) k v = v := by simp [vpnForm, e1, e3]
        rw [this]
        split at h2
        · next ei =>
          obtain ⟨i, rfl⟩ := h2
          rw [ei]
          exact ⟨trivial, by simp [castValue, vpnRead, txt, pyInt, parseInt_showInt]⟩
        · next eb =>
          subst h2
          rw [eb]
          exact ⟨rfl, rfl⟩
        · next ni nb =>
          rcases h2 with rfl | ⟨s, rfl, hs⟩
          · exact ⟨rfl, castValue_other ni nb _⟩
          · exact ⟨hs, castValue_other ni nb _⟩

theorem vpn_plain {c b : VDict} {t : Chars} (h : VpnOK c) (hn : (Dict.keys b).Nodup) (hb : ∀ k, Dict.get? b k = (vpnReturned c k).map (vpnForm (txt t) k))
    (ht : ∀ v, vpnReturned c "data_ciphers" = some v → VpnText t) : VpnPlain b := by
  refine ⟨hn, ?_, ?_⟩
  · obtain ⟨n, h1, h2⟩ := returned_name h
    exact ⟨n, by rw [hb, h1]; simp [vpnForm], h2⟩
  · intro k v hk hne
    rw [hb] at hk
    obtain ⟨w, hw, rfl⟩ := Option.map_eq_some_iff.1 hk
    have := form_ok h ht hw hne
    exact ⟨this.1, this.2.1⟩

theorem vpn_back {c r : VDict} {t : Chars} {ts : List Chars} (h : VpnOK c) (hn : (Dict.keys r).Nodup)
    (hr : ∀ k, Dict.get? r k = ((vpnReturned c k).map (vpnForm (txt t) k)).map vpnRead)
    (ht : ∀ v, vpnReturned c "data_ciphers" = some v → VpnText t ∧ splitOn ':' t = ts ∧ SameDicts (.list (ts.map cipherBack)) v) :
    ∃ out, netjsonVpn r = .ok out ∧ VpnSame out c := by
  let f : String × Val → Val := fun p => match castValue (Dict.get? openvpnProps p.1) p.2 with
    | .ok v => v
    | .error _ => .none
  have hcast : ∀ k v, vpnReturned c k = some v →
      castValue (Dict.get? openvpnProps k) (vpnRead (vpnForm (txt t) k v)) = .ok (vpnForm (txt t) k v) := by
    intro k v hk
    by_cases hne : k = "name"
    · subst hne
      obtain ⟨n, h1, h2⟩ := returned_name h
      rw [h1] at hk
      cases hk
      rfl
    · exact (form_ok h (fun v hv => (ht v hv).1) hk hne).2.2
  have e1 : typeCast openvpnProps r = .ok (r.map (fun p => (p.1, f p))) := by
    apply typeCast_ok
    intro p hp
    have := Dict.get?_of_mem hn (k := p.1) (v := p.2) hp
    rw [hr] at this
    obtain ⟨w, hw, hp2⟩ := Option.map_eq_some_iff.1 this
    obtain ⟨v, hv, rfl⟩ := Option.map_eq_some_iff.1 hw
    show _ = Except.ok (match castValue (Dict.get? openvpnProps p.1) p.2 with
      | .ok v => v
      | .error _ => .none)
    rw [← hp2, hcast _ _ hv]
  have g1 : ∀ k, Dict.get? (r.map (fun p => (p.1, f p))) k = (vpnReturned c k).map (vpnForm (txt t) k) := by
    intro k
    rw [Dict.get?_map_val r f, hr]
    cases e : vpnReturned c k with
    | none => rfl
    | some v =>
      simp only [Option.map_some, Option.some.injEq]
      show (match castValue (Dict.get? openvpnProps k) _ with
        | .ok v => v
        | .error _ => .none) = _
      rw [hcast _ _ e]
  have n1 : (Dict.keys (r.map (fun p => (p.1, f p)))).Nodup := by
    have : Dict.keys (r.map (fun p => (p.1, f p))) = Dict.keys r := by unfold Dict.keys; rw [List.map_map]; rfl
    rw [this]; exact hn
  unfold netjsonVpn
  rw [e1]
  simp only [bind, Except.bind]
  generalize r.map (fun p => (p.1, f p)) = r1 at g1 n1
  -- the bridge
  have g2 : ∀ k, Dict.get? (bareBridgeBack r1) k = if k = "data_ciphers" then (vpnReturned c k).map (fun _ => txt t) else vpnReturned c k := by
    intro k
    have hx : ∀ k, k ≠ "server_bridge" → Dict.get? r1 k = if k = "data_ciphers" then (vpnReturned c k).map (fun _ => txt t) else vpnReturned c k := by
      intro k hk
      rw [g1]
      split
      · next e => subst e; cases vpnReturned c "data_ciphers" <;> simp [vpnForm]
      · next e => cases vpnReturned c k <;> simp [vpnForm, hk, e]
    unfold bareBridgeBack
    by_cases hk : k = "server_bridge"
    · subst hk
      have hR : (if "server_bridge" = "data_ciphers" then (vpnReturned c "server_bridge").map (fun _ => txt t) else vpnReturned c "server_bridge") =
        vpnReturned c "server_bridge" := by rw [if_neg (by decide)]
      rw [hR]
      have hg := g1 "server_bridge"
      cases e : vpnReturned c "server_bridge" with
      | none =>
        rw [e] at hg
        rw [if_neg (by rw [hg]; simp), hg]; rfl
      | some v =>
        obtain ⟨_, _, hv⟩ := returned_some h e (by decide)
        unfold VpnReturns at hv
        rw [if_neg (by decide), if_neg (by decide), if_pos rfl] at hv
        obtain ⟨s, rfl, hs⟩ := hv
        rw [e] at hg
        by_cases hs' : s = ""
        · subst hs'
          rw [if_pos (by rw [hg]; simp [vpnForm]), Dict.get?_set', if_pos rfl]
        · rw [if_neg (by rw [hg]; simp [vpnForm, hs']), hg]
          simp [vpnForm, hs']
    · split
      · rw [Dict.get?_set', if_neg hk]; exact hx k hk
      · exact hx k hk
  have n2 : (Dict.keys (bareBridgeBack r1)).Nodup := by
    unfold bareBridgeBack; split
    · exact Dict.nodup_set n1 _ _
    · exact n1
  generalize bareBridgeBack r1 = r2 at g2 n2
  have hrem : Dict.get? r2 "remote" = none := by
    rw [g2, if_neg (by decide)]
    unfold vpnReturned vpnShown vpnKept
    simp [h.noRemote]
  have e2 : remotesBack r2 = .ok r2 := by unfold remotesBack; rw [hrem]
  rw [e2]
  -- the ciphers
  cases e : vpnReturned c "data_ciphers" with
  | none =>
    refine ⟨r2, ?_, n2, fun k hk => by rw [g2, if_neg hk], .inl ⟨e, by rw [g2, e]; rfl⟩⟩
    dsimp only
    unfold dataCiphersBack
    rw [g2, e]
    rfl
  | some v =>
    obtain ⟨i1, i2, i3⟩ := ht v e
    refine ⟨Dict.set r2 "data_ciphers" (.list (ts.map cipherBack)), ?_, Dict.nodup_set n2 _ _,
      fun k hk => by rw [Dict.get?_set', if_neg hk, g2, if_neg hk], .inr ⟨v, _, e, by rw [Dict.get?_set', if_pos rfl], i3⟩⟩
    dsimp only
    unfold dataCiphersBack
    rw [g2, e]
    simp only [if_pos, Option.map_some, Option.getD_some]
    have hne : String.ofList t ≠ "" := by
      intro e
      have := congrArg String.toList e
      rw [String.toList_ofList] at this
      exact i1.1.ne this
    rw [if_neg (by simp [Val.truthy, txt, hne])]
    simp only [txt, asText, bind, Except.bind, String.toList_ofList, i2]
    rfl


/-! ## The whole object -/

theorem vpnBlocks_none {conv1 : VDict → Except PyErr (VDict × Option VDict)} (config : VDict) {l bs : List VDict}
    (h : List.Forall₂ (fun d b => conv1 d = .ok (b, none)) l bs) : vpnBlocks conv1 config (l.map .dict) = (config, .ok (bs.map .dict)) := by
  induction h with
  | nil => rfl
  | cons h1 _ ih =>
    rename_i d b l bs _
    rw [List.map_cons, vpnBlocks]
    have : (asDict (.dict d) >>= conv1) = .ok (b, none) := h1
    rw [this]
    show (_, _) = _
    rw [show addVpnFile config none = config from rfl, ih]
    rfl

theorem forall2_of_forall {α β : Type} {R : α → β → Prop} {l : List α} (h : ∀ a ∈ l, ∃ b, R a b) : ∃ bs, List.Forall₂ R l bs := by
  induction l with
  | nil => exact ⟨[], .nil⟩
  | cons a l ih =>
    obtain ⟨b, hb⟩ := h a (by simp)
    obtain ⟨bs, hbs⟩ := ih (fun x hx => h x (by simp [hx]))
    exact ⟨b :: bs, .cons hb hbs⟩

theorem mapIdxM_const {α β : Type} {f : α → Except PyErr β} {l : List α} {r : List β} (i : Nat) (h : List.Forall₂ (fun a b => f a = .ok b) l r) :
    mapIdxM (fun _ => f) i l = .ok r := by
  induction h generalizing i with
  | nil => rfl
  | cons h1 _ ih => rw [mapIdxM, h1, ih (i + 1)]; rfl

theorem parse_of_loop {cls : Class} {p : Chars → Except PyErr VDict} {text : Chars} {inter config inter' : VDict} (hp : cls.parser = some p)
    (h1 : p text = .ok inter) (h2 : bconvLoop cls inter cls.bconvs [] inter = ((config, inter'), .ok ())) :
    parse cls text = (do
      validate cls config
      pure ⟨config, some inter⟩) := by
  unfold parse
  rw [hp]
  show (p text >>= _) = _
  rw [h1]
  have e : toNetjson cls inter = (⟨config, some inter⟩, validate cls config) := by
    unfold toNetjson
    rw [h2]
  simp only [bind, Except.bind]
  rw [e]
  cases hv : validate cls config with
  | error e => rfl
  | ok u => rfl

/-- **C57, C58.** Rendering a configuration of the OpenVPN backend and parsing the text gives, for every VPN, exactly the
options that are rendered, with the values they were given, data ciphers included. -/
theorem C57_round_trip (env : Env) (schema : VDict → Except PyErr Unit) (sh : Val → Bool) (loads : Chars → Option Val) (config config' : VDict)
    (l : List VDict) (hne : l ≠ []) (hk : Dict.get? config "openvpn" = some (.list (l.map .dict))) (hl : ∀ c ∈ l, VpnOK c)
    (hv : validate (openvpnClass env schema sh loads) config = .ok ()) (hd : deduplicateFiles config = .ok config') :
    ∃ st text inter outs, render (openvpnClass env schema sh loads) false ⟨config, none⟩ = (st, .ok text) ∧ st.config = config' ∧
      List.Forall₂ VpnSame outs l ∧
      parse (openvpnClass env schema sh loads) text = (do
        validate (openvpnClass env schema sh loads) [("openvpn", .list (outs.map .dict))]
        pure ⟨[("openvpn", .list (outs.map .dict))], some inter⟩) := by
  obtain ⟨bs, hbs⟩ : ∃ bs : List VDict, List.Forall₂ (fun c b => vpnBlock env removedVpn c = .ok (b, none) ∧ VpnPlain b ∧
      ∀ r, (Dict.keys r).Nodup → (∀ k, Dict.get? r k = (Dict.get? b k).map vpnRead) → ∃ out, netjsonVpn r = .ok out ∧ VpnSame out c) l bs := by
    apply forall2_of_forall
    intro c hc
    obtain ⟨b, t, ts, h1, h2, h3, h4⟩ := vpn_block env (hl c hc)
    refine ⟨b, h1, vpn_plain (hl c hc) h2 h3 (fun v hv => (h4 v hv).1), ?_⟩
    intro r hn hr
    exact vpn_back (hl c hc) hn (fun k => by rw [hr, h3]) h4
  have hbne : bs ≠ [] := by
    rintro rfl
    cases hbs
    exact hne rfl
  obtain ⟨rs, hp, hrs⟩ := vpn_text_back env.reprC bs hbne (by
    intro b hb
    clear hk hl hne hbne
    induction hbs with
    | nil => cases hb
    | cons h1 _ ih =>
      rcases List.mem_cons.1 hb with rfl | hb
      · exact h1.2.1
      · exact ih hb)
  obtain ⟨outs, h1, h2⟩ : ∃ outs : List VDict, List.Forall₂ (fun r o => netjsonVpn r = .ok o) rs outs ∧ List.Forall₂ VpnSame outs l := by
    clear hk hl hne hbne hp
    induction hbs generalizing rs with
    | nil => cases hrs; exact ⟨[], .nil, .nil⟩
    | cons h1 _ ih =>
      cases hrs with
      | cons h2 hrs =>
        obtain ⟨outs, i1, i2⟩ := ih _ hrs
        obtain ⟨o, j1, j2⟩ := h1.2.2 _ h2.1 h2.2
        exact ⟨o :: outs, .cons j1 i1, .cons j2 i2⟩
  have hrne : rs ≠ [] := by
    rintro rfl
    cases hrs
    exact hbne rfl
  refine ⟨⟨config', some [("openvpn", .list (bs.map .dict))]⟩, renderVpns env.reprC bs, [("openvpn", .list (rs.map .dict))], outs, ?_, rfl, h2, ?_⟩
  · unfold render
    rw [hv]
    have hrun : (openvpnConv env).run config [] = (config, .ok [("openvpn", .list (bs.map .dict))]) := by
      show vpnRun (vpnBlock env removedVpn) config [] = _
      unfold vpnRun
      rw [hk]
      simp only [Option.getD_some]
      rw [vpnBlocks_none config (hbs.imp (fun _ _ h => h.1))]
      have : (bs.map Val.dict).isEmpty = false := by
        cases bs with
        | nil => exact absurd rfl hbne
        | cons => rfl
      simp only [bind, Except.bind, this]
      rfl
    have he : ensureIntermediate (openvpnClass env schema sh loads) ⟨config, none⟩ = (⟨config, some [("openvpn", .list (bs.map .dict))]⟩, .ok ()) := by
      unfold ensureIntermediate toIntermediate
      dsimp only
      rw [hv]
      show convLoop _ [openvpnConv env] config [] = _
      unfold convLoop
      have : (openvpnConv env).should config = true := by
        show Dict.has config "openvpn" = true
        simp [Dict.has, hk]
      rw [if_neg (by rw [this]; simp), hrun]
      dsimp only
      rw [if_neg (by simp), C04_empty_template _ _ _ (by simp)]
      rfl
    rw [he]
    show renderTail _ _ _ = _
    unfold renderTail
    rw [hd]
    show (_, (do
      let out ← vpnNative env.reprC [("openvpn", .list (bs.map .dict))]
      _ : Except PyErr Chars)) = _
    have : vpnNative env.reprC [("openvpn", .list (bs.map .dict))] = .ok (renderVpns env.reprC bs) := by
      unfold vpnNative
      rw [Dict.get?_cons_self]
      dsimp only
      rw [blocksOf_map]
      rfl
    rw [this]
    rfl
  · have hsec := backFold_section none (vpnBack netjsonVpn) "openvpn" (fun _ => netjsonVpn) (fun _ _ _ => rfl) rs outs hrne
      (by
        intro b hb
        have : b ≠ [] := by
          rintro rfl
          clear hk hl hp hbne h1 h2 hne
          induction hbs generalizing rs with
          | nil => cases hrs; cases hb
          | cons g1 _ ih =>
            cases hrs with
            | cons g2 hrs =>
              rcases List.mem_cons.1 hb with e | hb
              · obtain ⟨n, e1, _⟩ := g1.2.1.name
                have := g2.2 "name"
                rw [e1, ← e] at this
                cases this
              · exact ih _ hrs (by rintro rfl; cases hb) hb
        unfold skipBlock
        cases b with
        | nil => exact absurd rfl this
        | cons => rfl) (mapIdxM_const 1 h1)
    have hrun := bwd_split "openvpn" none () (fun i b (acc : Unit × VDict) => do let r ← vpnBack netjsonVpn i b acc.2; pure ((), r))
      [] [("openvpn", .list (rs.map .dict))] [("openvpn", .list (rs.map .dict))] rs [] _ (by simp) (by
        intro b hb
        have : b ≠ [] := by
          rintro rfl
          clear hk hl hp hbne h1 h2 hne hsec
          induction hbs generalizing rs with
          | nil => cases hrs; cases hb
          | cons g1 _ ih =>
            cases hrs with
            | cons g2 hrs =>
              rcases List.mem_cons.1 hb with e | hb
              · obtain ⟨n, e1, _⟩ := g1.2.1.name
                have := g2.2 "name"
                rw [e1, ← e] at this
                cases this
              · exact ih _ hrs (by rintro rfl; cases hb) hb
        unfold skipBlock
        cases b with
        | nil => exact absurd rfl this
        | cons => rfl) (by simp) hsec
    have hloop : bconvLoop (openvpnClass env schema sh loads) [("openvpn", .list (rs.map .dict))] [openvpnBConv] [] [("openvpn", .list (rs.map .dict))] =
        (([("openvpn", .list (outs.map .dict))], [("openvpn", .list [])]), .ok ()) := by
      unfold bconvLoop
      have : openvpnBConv.should [("openvpn", .list (rs.map .dict))] = true := rfl
      rw [if_neg (by rw [this]; simp)]
      have hrun : openvpnBConv.run [] [("openvpn", .list (rs.map .dict))] [("openvpn", .list (rs.map .dict))] =
        (([], Dict.set [("openvpn", .list (rs.map .dict))] "openvpn" (.list (([] : List VDict).map .dict))), .ok [("openvpn", .list (outs.map .dict))]) := hrun
      rw [hrun]
      dsimp only
      rw [if_neg (by simp), C04_empty_template _ _ _ (by simp)]
      rfl
    exact parse_of_loop rfl hp hloop

end NJ
