import Verif.PropsVpnMore
import Verif.PropsVpnArchive
import Verif.PropsOpenVpnText
import Verif.PropsValidVpn
import Verif.Same

/-!
# C88: an OpenVPN file says what the configuration says

The text and the archive of the OpenVPN backend, line by line, in terms of the configuration the user gives.
-/

namespace NJ

/-! ## Specification -/

/-- a server: host, port, and the protocol when one is given other than `auto` -/
def remoteSays (reprC : Val → String) : Val → Chars
  | .dict d => (pyStr reprC ((Dict.get? d "host").getD .none)).toList ++ ' ' :: (pyStr reprC ((Dict.get? d "port").getD .none)).toList ++
      (if Dict.get? d "proto" = none ∨ Dict.get? d "proto" = some (.str "auto") then []
        else ' ' :: (pyStr reprC ((Dict.get? d "proto").getD .none)).toList)
  | _ => []

/-- a cipher: its name, after a question mark when it is optional -/
def cipherSays (reprC : Val → String) : Val → Chars
  | .dict d => (if ((Dict.get? d "optional").getD .none).truthy then ['?'] else []) ++ (pyStr reprC ((Dict.get? d "cipher").getD .none)).toList
  | _ => []

/-- the text of an option, empty when it is not shown -/
def shownText (reprC : Val → String) (c : VDict) (k : String) : Chars :=
  match vpnShown FalsyOption c k with
  | some v => (pyStr reprC v).toList
  | none => []

/-- a path up to its last slash -/
def directoryOf (p : Chars) : Chars := (p.reverse.dropWhile (fun x => x ≠ '/')).reverse

/-- where the TLS key of a VPN is kept: next to the certificate of the authority -/
def keyPath (reprC : Val → String) (c : VDict) : Chars := directoryOf (shownText reprC c "ca") ++ shownText reprC c "dev" ++ "_tls_auth.key".toList

/-- is this `path direction`, as opposed to a key -/
def IsReference (key : String) : Prop := (splitOn ' ' (strip key.toList)).length = 2

instance (key : String) : Decidable (IsReference key) := by unfold IsReference; infer_instance

/-- **Specification.** The lines of the option `k` of a VPN: none when it is not shown (false, 0, empty; see `vpnShown`); the name of the
option, with dashes, alone for flags and before the value otherwise; one line for every item of a list and for every server; one for all ciphers;
a reference to the file of the TLS key. -/
def optionSays (reprC : Val → String) (c : VDict) (k : String) : List Chars :=
  match vpnShown FalsyOption c k with
  | none => []
  | some v =>
    if k = "remote" then match v with
      | .list rs => rs.map (fun r => "remote ".toList ++ remoteSays reprC r)
      | _ => []
    else if k = "data_ciphers" then match v with
      | .list (x :: cs) => ["data-ciphers ".toList ++ joinWith [':'] ((x :: cs).map (cipherSays reprC))]
      | _ => []
    else if k = "tls_auth" then match v with
      | .str key => ["tls-auth ".toList ++ (if IsReference key then key.toList
          else keyPath reprC c ++ (if Dict.get? c "mode" = some (.str "server") then " 0".toList else " 1".toList))]
      | _ => []
    else vpnOptionLines reprC (k, v)

/-- **Specification.** The lines of a VPN: those of its options, in alphabetical order of the options. -/
def Says (reprC : Val → String) (c : VDict) (lines : List Chars) : Prop :=
  ∃ ks : List String, ks.Perm (Dict.keys c) ∧ ks.Pairwise (fun a b => charsLe a.toList b.toList = true) ∧ lines = ks.flatMap (optionSays reprC c)

/-- **Specification.** The file for the TLS key of a VPN, when one is given: private to its owner -/
def keyFiles (reprC : Val → String) (c : VDict) : List Val :=
  match vpnShown FalsyOption c "tls_auth" with
  | some (.str key) => if IsReference key then [] else
      [.dict [("path", txt (keyPath reprC c)), ("mode", .str "0600"), ("contents", txt (strip key.toList))]]
  | _ => []

/-! ## The options of the block -/

theorem dropWhile_all {l : Chars} (h : ∀ x ∈ l, x ≠ '/') : l.dropWhile (fun x => decide (x ≠ '/')) = [] := by
  induction l with
  | nil => rfl
  | cons a l ih =>
    rw [List.dropWhile_cons_of_pos (by simpa using h a List.mem_cons_self)]
    exact ih fun x hx => h x (List.mem_cons_of_mem _ hx)

theorem directoryOf_dir (dir base : Chars) (h : '/' ∉ base) : directoryOf (dir ++ '/' :: base) = dir ++ ['/'] := by
  unfold directoryOf
  rw [List.reverse_append, List.reverse_cons, List.append_assoc, List.dropWhile_append]
  rw [dropWhile_all fun x hx e => h (e ▸ List.mem_reverse.1 hx)]
  simp

theorem directoryOf_plain (ca : Chars) (h : '/' ∉ ca) : directoryOf ca = [] := by
  unfold directoryOf
  rw [dropWhile_all fun x hx e => h (e ▸ List.mem_reverse.1 hx)]
  rfl

theorem last_slash (ca : Chars) : '/' ∉ ca ∨ ∃ dir base, ca = dir ++ '/' :: base ∧ '/' ∉ base := by
  induction ca with
  | nil => exact .inl (by simp)
  | cons x r ih =>
    rcases ih with h | ⟨dir, base, rfl, h⟩
    · by_cases hx : x = '/'
      · exact .inr ⟨[], r, by rw [hx]; rfl, h⟩
      · exact .inl (by simp [Ne.symm hx, h])
    · exact .inr ⟨x :: dir, base, rfl, h⟩

theorem tlsAuthPath_eq (ca dev : Chars) : tlsAuthPath ca dev = directoryOf ca ++ dev ++ "_tls_auth.key".toList := by
  rcases last_slash ca with h | ⟨dir, base, rfl, h⟩
  · rw [tlsAuthPath_plain ca dev h, directoryOf_plain ca h]; rfl
  · rw [tlsAuthPath_dir dir base dev h, directoryOf_dir dir base h]; simp

theorem remoteText_says {env : Env} {r t : Val} (h : remoteText env r = .ok t) : t = txt (remoteSays env.reprC r) := by
  unfold remoteText at h
  split at h
  · next d =>
    obtain ⟨host, h1, h⟩ := bind_ok_iff.1 h
    obtain ⟨port, h2, h⟩ := bind_ok_iff.1 h
    cases Except.ok.inj h
    unfold remoteSays
    dsimp only
    rw [getKey_iff.1 h1, getKey_iff.1 h2]
    unfold txt
    congr 1
    apply String.toList_inj.1
    rw [String.toList_ofList]
    cases hq : Dict.get? d "proto" with
    | none => simp
    | some q =>
      by_cases hs : q = .str "auto"
      · subst hs; simp
      · simp [hs]
  · cases h

theorem cipherText_says {env : Env} {v : Val} {t : Chars} (h : cipherText env v = .ok t) : t = cipherSays env.reprC v := by
  unfold cipherText at h
  split at h
  · next d =>
    obtain ⟨name, h1, h⟩ := bind_ok_iff.1 h
    obtain ⟨opt, h2, h⟩ := bind_ok_iff.1 h
    cases Except.ok.inj h
    unfold cipherSays
    dsimp only
    rw [getKey_iff.1 h1, getKey_iff.1 h2]
    dsimp only [Option.getD_some]
    split <;> rfl
  · cases h

theorem mapM_says {α β : Type} {f : α → Except PyErr β} {g : α → β} (hg : ∀ a b, f a = .ok b → b = g a) {l : List α} {r : List β}
    (h : l.mapM f = .ok r) : r = l.map g := by
  induction l generalizing r with
  | nil => cases h; rfl
  | cons a l ih =>
    rw [mapM_ok_cons] at h
    obtain ⟨b, bs, h1, h2, rfl⟩ := h
    rw [List.map_cons, hg a b h1, ih h2]

theorem shown_eq (c : VDict) {k : String} (hk : k ≠ "status_version") : vpnShown FalsyOption c k = vpnKept FalsyOption c k := by
  unfold vpnShown
  rw [if_neg (fun h => hk h.1)]

/-- the options before the TLS key is looked at, all of them -/
theorem vpnBlock_says {env : Env} {c b : VDict} {f : Option VDict} (hn : (Dict.keys c).Nodup) (h : vpnBlock env removedVpn c = .ok (b, f)) :
    ∃ c1 c2, (Dict.keys c1).Nodup ∧ (∀ k, k ≠ "remote" → k ≠ "data_ciphers" → Dict.get? c1 k = vpnShown FalsyOption c k) ∧
      (∀ v, vpnShown FalsyOption c "remote" = some v → ∃ rs, v = .list rs ∧
        Dict.get? c1 "remote" = some (.list (rs.map fun r => txt (remoteSays env.reprC r)))) ∧
      (vpnShown FalsyOption c "remote" = none → Dict.get? c1 "remote" = none) ∧
      (∀ v, vpnShown FalsyOption c "data_ciphers" = some v → (v.truthy = false ∧ Dict.get? c1 "data_ciphers" = some v) ∨ ∃ x cs, v = .list (x :: cs) ∧
        Dict.get? c1 "data_ciphers" = some (txt (joinWith [':'] ((x :: cs).map (cipherSays env.reprC))))) ∧
      (vpnShown FalsyOption c "data_ciphers" = none → Dict.get? c1 "data_ciphers" = none) ∧
      tlsAuth env c1 = .ok (c2, f) ∧ b = sortedDict c2 := by
  unfold vpnBlock at h
  obtain ⟨r1, h1, h⟩ := bind_ok_iff.1 h
  obtain ⟨r2, h2, h⟩ := bind_ok_iff.1 h
  obtain ⟨⟨r3, f'⟩, h3, h⟩ := bind_ok_iff.1 h
  cases Except.ok.inj h
  have kept := @kept_get FalsyOption _ removedVpn removedVpn_iff (by decide) c hn
  obtain ⟨n1, g1, s1⟩ := remotesText_get h1 (dropRemoved_nodup hn removedVpn)
  obtain ⟨n2, g2, s2⟩ := dataCiphers_get h2 (statusVersion_nodup n1)
  have e : ∀ k, k ≠ "remote" → Dict.get? (statusVersion r1) k = vpnShown FalsyOption c k := by
    intro k hk
    rw [statusVersion_get, g1 "status" (by decide), g1 k hk, kept, kept]
    rfl
  have er : Dict.get? (statusVersion r1) "remote" = Dict.get? r1 "remote" := by rw [statusVersion_get, if_neg (by simp)]
  refine ⟨r2, r3, n2, fun k k1 k2 => by rw [g2 k k2, e k k1], ?_, ?_, ?_, ?_, h3, rfl⟩
  · intro v hv
    rw [shown_eq c (by decide), ← kept] at hv
    unfold remotesText at h1
    rw [hv] at h1
    rw [g2 _ (by decide), er]
    split at h1
    · next q => cases q
    · next rs q =>
      obtain ⟨ts, h4, h5⟩ := bind_ok_iff.1 h1
      cases Except.ok.inj h5
      refine ⟨rs, Option.some.inj q, ?_⟩
      rw [Dict.get?_set', if_pos rfl, mapM_says (fun a b => remoteText_says) h4]
    · cases h1
  · intro hv
    rw [shown_eq c (by decide), ← kept] at hv
    unfold remotesText at h1
    rw [hv] at h1
    cases Except.ok.inj h1
    rw [g2 _ (by decide), er, hv]
  · intro v hv
    unfold dataCiphers at h2
    dsimp only at h2
    rw [e _ (by decide), hv, Option.getD_some] at h2
    split at h2
    · next ht =>
      cases Except.ok.inj h2
      exact .inl ⟨by simpa using ht, by rw [e _ (by decide), hv]⟩
    · next ht =>
      split at h2
      · next l =>
        obtain ⟨ts, h4, h5⟩ := bind_ok_iff.1 h2
        cases Except.ok.inj h5
        cases l with
        | nil => exact absurd rfl ht
        | cons x cs =>
          refine .inr ⟨x, cs, rfl, ?_⟩
          rw [Dict.get?_set', if_pos rfl, mapM_says (fun a b => cipherText_says) h4]
      · cases h2
  · intro hv
    have := s2
    rw [e _ (by decide), hv] at this
    cases hq : Dict.get? r2 "data_ciphers" with
    | none => rfl
    | some v => rw [hq] at this; cases this

theorem falsy_lines (reprC : Val → String) (k : String) {v : Val} (h : v.truthy = false) (hf : ¬ FalsyOption v) : vpnOptionLines reprC (k, v) = [] := by
  unfold vpnOptionLines
  dsimp only
  split
  · rfl
  · cases v with
    | none => rfl
    | bool b => cases b with
      | false => exact absurd (Or.inl rfl) hf
      | true => cases h
    | int i =>
      have : i = 0 := by simpa [Val.truthy] using h
      exact absurd (Or.inr (Or.inl (by rw [this]))) hf
    | str s =>
      have : s = "" := by simpa [Val.truthy] using h
      exact absurd (Or.inr (Or.inr (by rw [this]))) hf
    | list l => cases l with
      | nil => rfl
      | cons => cases h
    | dict d => cases d with
      | nil => rfl
      | cons => cases h

theorem shown_not_falsy {c : VDict} {k : String} {v : Val} (h : vpnShown FalsyOption c k = some v) (h1 : k ≠ "script_security") (h2 : k ≠ "remote") :
    ¬ FalsyOption v := by
  unfold vpnShown at h
  split at h
  · cases h
  · unfold vpnKept at h
    split at h
    · cases h
    · split at h
      · cases h; decide
      · rw [if_neg (by rintro (e | e); exacts [h1 e, h2 e])] at h
        split at h
        · cases h
        · next q => cases h; exact q

/-- the lines of the block are those of the specification, option by option; and so is the file -/
theorem block_lines {env : Env} {c b : VDict} {f : Option VDict} (hn : (Dict.keys c).Nodup) (h : vpnBlock env removedVpn c = .ok (b, f)) :
    (Dict.keys b).Nodup ∧ b.Pairwise (fun p q => charsLe p.1.toList q.1.toList = true) ∧
    (∀ k, k ≠ "name" → (match Dict.get? b k with | some v => vpnOptionLines env.reprC (k, v) | none => []) = optionSays env.reprC c k) ∧
    Dict.get? b "name" = vpnShown FalsyOption c "name" ∧ f.toList.map Val.dict = keyFiles env.reprC c := by
  obtain ⟨c1, c2, n1, g, gr, gr', gc, gc', h2, rfl⟩ := vpnBlock_says hn h
  obtain ⟨n2, g2, s2⟩ := tlsAuth_get h2 n1
  refine ⟨sortedDict_nodup n2, C33_sorting_sorts c2, ?_, ?_, ?_⟩
  · intro k hname
    rw [get?_sortedDict n2]
    unfold optionSays
    by_cases kt : k = "tls_auth"
    · subst kt
      unfold tlsAuth at h2
      dsimp only at h2
      rw [g _ (by decide) (by decide)] at h2
      cases hs : vpnShown FalsyOption c "tls_auth" with
      | none =>
        rw [hs] at h2
        simp only [Option.getD_none, Val.truthy, Bool.not_false, if_true] at h2
        cases Except.ok.inj h2
        rw [g _ (by decide) (by decide), hs]
      | some v =>
        rw [hs, Option.getD_some] at h2
        dsimp only
        rw [if_neg (by decide), if_neg (by decide), if_pos rfl]
        split at h2
        · next ht =>
          cases Except.ok.inj h2
          rw [g _ (by decide) (by decide), hs]
          dsimp only
          have hf := shown_not_falsy hs (by decide) (by decide)
          rw [falsy_lines _ _ (by simpa using ht) hf]
          cases v with
          | str s => exact absurd (Or.inr (Or.inr (by simpa [Val.truthy] using ht))) hf
          | _ => rfl
        · next ht =>
          obtain ⟨t, h3, h4⟩ := bind_ok_iff.1 h2
          cases v with
          | str key =>
            have : t = key.toList := by cases Except.ok.inj h3; rfl
            subst this
            dsimp only
            split at h4
            · next hr =>
              cases Except.ok.inj h4
              rw [g _ (by decide) (by decide), hs, if_pos (show IsReference key from hr)]
              dsimp only
              unfold vpnOptionLines
              dsimp only [pyStr]
              rw [if_neg (by decide)]
              have : dashed "tls_auth" = "tls-auth".toList := by decide
              rw [this]
              rfl
            · next hr =>
              obtain ⟨ca, h5, h6⟩ := bind_ok_iff.1 h4
              cases Except.ok.inj h6
              rw [Dict.get?_set', if_pos rfl, if_neg (show ¬ IsReference key from hr), tlsAuthPath_eq]
              have hca : ca = shownText env.reprC c "ca" := by
                rw [g _ (by decide) (by decide)] at h5
                unfold shownText
                cases hq : vpnShown FalsyOption c "ca" with
                | none => rw [hq] at h5; cases Except.ok.inj h5; rfl
                | some w =>
                  rw [hq, Option.getD_some] at h5
                  cases w with
                  | str s => cases Except.ok.inj h5; rfl
                  | _ => cases h5
              have hdev : (pyStr env.reprC ((Dict.get? c1 "dev").getD (.str ""))).toList = shownText env.reprC c "dev" := by
                rw [g _ (by decide) (by decide)]
                unfold shownText
                cases vpnShown FalsyOption c "dev" <;> rfl
              have hmode : Dict.get? c1 "mode" = some (.str "server") ↔ Dict.get? c "mode" = some (.str "server") := by
                rw [g _ (by decide) (by decide), shown_eq c (by decide)]
                unfold vpnKept
                cases hm : Dict.get? c "mode" with
                | none => simp
                | some w =>
                  simp only [show ¬("mode" = "server_bridge" ∧ w = .str "") from fun h => absurd h.1 (by decide), if_false,
                    show ¬("mode" = "script_security" ∨ "mode" = "remote") by decide]
                  by_cases hw : FalsyOption w
                  · rw [if_pos hw]
                    constructor
                    · intro h; cases h
                    · intro h; cases Option.some.inj h; exact absurd hw (by decide)
                  · rw [if_neg hw]
              have hd : (if Dict.get? c1 "mode" = some (.str "server") then '0' else '1') =
                  if Dict.get? c "mode" = some (.str "server") then '0' else '1' := by simp only [hmode]
              rw [hca, hdev, hd]
              unfold vpnOptionLines keyPath
              dsimp only [txt, pyStr]
              rw [if_neg (c := "tls_auth" = "name") (by decide)]
              rw [String.toList_ofList]
              have : dashed "tls_auth" = "tls-auth".toList := by decide
              rw [this]
              split
              · simp
              · simp
          | _ => cases h3
    · rw [g2 k kt]
      by_cases kr : k = "remote"
      · subst kr
        cases hs : vpnShown FalsyOption c "remote" with
        | none => rw [gr' hs]
        | some v =>
          obtain ⟨rs, rfl, e⟩ := gr v hs
          rw [e]
          dsimp only
          rw [if_pos rfl]
          unfold vpnOptionLines
          dsimp only
          rw [if_neg (by decide)]
          rw [List.map_map]
          apply List.map_congr_left
          intro r _
          dsimp only [Function.comp, txt, pyStr]
          rw [String.toList_ofList]
          rfl
      · by_cases kc : k = "data_ciphers"
        · subst kc
          cases hs : vpnShown FalsyOption c "data_ciphers" with
          | none => rw [gc' hs]
          | some v =>
            dsimp only
            rw [if_neg (by decide), if_pos rfl]
            rcases gc v hs with ⟨hv, e⟩ | ⟨x, cs, rfl, e⟩
            · rw [e]
              dsimp only
              rw [falsy_lines _ _ hv (shown_not_falsy hs (by decide) (by decide))]
              split
              · cases hv
              · rfl
            · rw [e]
              dsimp only
              unfold vpnOptionLines
              dsimp only [txt, pyStr]
              rw [if_neg (by decide)]
              rw [String.toList_ofList]
              rfl
        · rw [g k kr kc]
          cases hs : vpnShown FalsyOption c k with
          | none => rfl
          | some v =>
            dsimp only
            rw [if_neg kr, if_neg kc, if_neg kt]
  · rw [get?_sortedDict n2, g2 _ (by decide), g _ (by decide) (by decide)]
  · unfold tlsAuth at h2
    dsimp only at h2
    rw [g _ (by decide) (by decide)] at h2
    unfold keyFiles
    cases hs : vpnShown FalsyOption c "tls_auth" with
    | none =>
      rw [hs] at h2
      simp only [Option.getD_none, Val.truthy, Bool.not_false, if_true] at h2
      cases Except.ok.inj h2
      rfl
    | some v =>
      rw [hs, Option.getD_some] at h2
      split at h2
      · next ht =>
        cases Except.ok.inj h2
        have hf := shown_not_falsy hs (by decide) (by decide)
        cases v with
        | str s => exact absurd (Or.inr (Or.inr (by simpa [Val.truthy] using ht))) hf
        | _ => rfl
      · next ht =>
        obtain ⟨t, h3, h4⟩ := bind_ok_iff.1 h2
        cases v with
        | str key =>
          have : t = key.toList := by cases Except.ok.inj h3; rfl
          subst this
          dsimp only
          split at h4
          · next hr =>
            cases Except.ok.inj h4
            rw [if_pos (show IsReference key from hr)]
            rfl
          · next hr =>
            obtain ⟨ca, h5, h6⟩ := bind_ok_iff.1 h4
            cases Except.ok.inj h6
            rw [if_neg (show ¬ IsReference key from hr), tlsAuthPath_eq]
            have hca : ca = shownText env.reprC c "ca" := by
              rw [g _ (by decide) (by decide)] at h5
              unfold shownText
              cases hq : vpnShown FalsyOption c "ca" with
              | none => rw [hq] at h5; cases Except.ok.inj h5; rfl
              | some w =>
                rw [hq, Option.getD_some] at h5
                cases w with
                | str s => cases Except.ok.inj h5; rfl
                | _ => cases h5
            have hdev : (pyStr env.reprC ((Dict.get? c1 "dev").getD (.str ""))).toList = shownText env.reprC c "dev" := by
              rw [g _ (by decide) (by decide)]
              unfold shownText
              cases vpnShown FalsyOption c "dev" <;> rfl
            rw [hca, hdev]
            rfl
        | _ => cases h3

theorem shown_key {c : VDict} {k : String} (h : (vpnShown FalsyOption c k).isSome) : k ∈ Dict.keys c := by
  unfold vpnShown at h
  split at h
  · cases h
  · unfold vpnKept at h
    split at h
    · cases h
    · next v e => exact List.mem_map.2 ⟨_, Dict.mem_of_get? e, rfl⟩

theorem name_says (reprC : Val → String) (c : VDict) : optionSays reprC c "name" = [] := by
  unfold optionSays
  cases vpnShown FalsyOption c "name" with
  | none => rfl
  | some v =>
    dsimp only
    rw [if_neg (by decide), if_neg (by decide), if_neg (by decide)]
    rfl

/-- the block of a VPN says what its options say -/
theorem block_says {env : Env} {c b : VDict} {f : Option VDict} (hn : (Dict.keys c).Nodup) (h : vpnBlock env removedVpn c = .ok (b, f)) :
    Says env.reprC c (b.flatMap (vpnOptionLines env.reprC)) ∧ fieldText env.reprC b "name" = shownText env.reprC c "name" ∧
      f.toList.map Val.dict = keyFiles env.reprC c := by
  obtain ⟨nb, sb, lb, name, hf⟩ := block_lines hn h
  have sm := fun k => (C59_options env c b f hn h k).1
  refine ⟨⟨Dict.keys (sortedDict c), (C33_sorting_keeps c).map _, List.pairwise_map.2 (C33_sorting_sorts c), ?_⟩, ?_, hf⟩
  · have np : (Dict.keys (sortedDict c)).Nodup := sortedDict_nodup hn
    have sp : (Dict.keys (sortedDict c)).Pairwise (fun x y => charsLe x.toList y.toList = true) := List.pairwise_map.2 (C33_sorting_sorts c)
    have mp : ∀ k, k ∈ Dict.keys (sortedDict c) ↔ k ∈ Dict.keys c := fun k => ((C33_sorting_keeps c).map _).mem_iff
    generalize Dict.keys (sortedDict c) = ks at np sp mp
    have e1 : b.flatMap (vpnOptionLines env.reprC) = (Dict.keys b).flatMap (optionSays env.reprC c) := by
      unfold Dict.keys
      rw [List.flatMap_map]
      apply List.flatMap_congr
      intro p hp
      by_cases hk : p.1 = "name"
      · rw [hk, name_says]
        unfold vpnOptionLines
        rw [if_pos hk]
      · have := lb p.1 hk
        rw [Dict.get?_of_mem nb hp] at this
        exact this
    have e2 : Dict.keys b = ks.filter (fun k => (Dict.get? b k).isSome) := by
      refine List.Perm.eq_of_pairwise (le := fun x y : String => charsLe x.toList y.toList = true)
        (fun x y _ _ h1 h2 => String.toList_inj.1 (charsLe_antisymm' h1 h2)) (List.pairwise_map.2 sb) (sp.filter _) ?_
      refine (List.perm_ext_iff_of_nodup nb (np.filter _)).2 fun k => ?_
      rw [List.mem_filter]
      constructor
      · intro hk
        have : (Dict.get? b k).isSome := by
          cases hq : Dict.get? b k with
          | none => exact absurd hk ((Dict.get?_eq_none_iff b k).1 hq)
          | some => rfl
        exact ⟨(mp k).2 (shown_key ((sm k) ▸ this)), this⟩
      · rintro ⟨_, hk⟩
        cases hq : Dict.get? b k with
        | none => rw [hq] at hk; cases hk
        | some v => exact List.mem_map.2 ⟨_, Dict.mem_of_get? hq, rfl⟩
    rw [e1, e2]
    clear e1 e2 np sp mp
    induction ks with
    | nil => rfl
    | cons k ks ih =>
      cases hq : Dict.get? b k with
      | some v => rw [List.filter_cons_of_pos (by rw [hq]; rfl), List.flatMap_cons, List.flatMap_cons, ih]
      | none =>
        rw [List.filter_cons_of_neg (by rw [hq]; simp), List.flatMap_cons, ih]
        have : optionSays env.reprC c k = [] := by
          by_cases hk : k = "name"
          · rw [hk, name_says]
          · have := lb k hk
            rw [hq] at this
            exact this.symm
        rw [this]
        rfl
  · unfold fieldText shownText
    rw [name]
    cases vpnShown FalsyOption c "name" <;> rfl

/-! ## The text and the archive -/

/-- what a VPN must be like for its lines to be recognised: no line of it (and not its name) contains a line feed or four spaces in a row -/
structure LinesFit (reprC : Val → String) (c : VDict) : Prop where
  nodup : (Dict.keys c).Nodup
  name : CleanLine ("# openvpn config: ".toList ++ shownText reprC c "name")
  lines : ∀ k, ∀ l ∈ optionSays reprC c k, CleanLine l

/-- a VPN and the name and the lines of its file -/
def FileSays (reprC : Val → String) (c : VDict) (g : Chars × List Chars) : Prop := g.1 = shownText reprC c "name" ∧ Says reprC c g.2

theorem says_lines {reprC : Val → String} {c : VDict} {ls : List Chars} {P : Chars → Prop} (h : Says reprC c ls)
    (hp : ∀ k, ∀ l ∈ optionSays reprC c k, P l) : ∀ l ∈ ls, P l := by
  obtain ⟨ks, _, _, rfl⟩ := h
  intro l hl
  obtain ⟨k, _, hk⟩ := List.mem_flatMap.1 hl
  exact hp k l hk

theorem blocks_say {env : Env} {l : List VDict} {rs : List (VDict × Option VDict)} (hn : ∀ c ∈ l, (Dict.keys c).Nodup)
    (h : l.mapM (vpnBlock env removedVpn) = .ok rs) :
    List.Forall₂ (fun c r => FileSays env.reprC c (fieldText env.reprC r.1 "name", r.1.flatMap (vpnOptionLines env.reprC))) l rs ∧
      rs.flatMap (fun r => r.2.toList.map Val.dict) = l.flatMap (keyFiles env.reprC) := by
  induction l generalizing rs with
  | nil => cases h; exact ⟨.nil, rfl⟩
  | cons c l ih =>
    rw [mapM_ok_cons] at h
    obtain ⟨⟨b, f⟩, rs, h1, h2, rfl⟩ := h
    obtain ⟨i1, i2⟩ := ih (fun c hc => hn c (List.mem_cons_of_mem _ hc)) h2
    obtain ⟨s1, s2, s3⟩ := block_says (hn c List.mem_cons_self) h1
    refine ⟨.cons ⟨s2, s1⟩ i1, ?_⟩
    rw [List.flatMap_cons, List.flatMap_cons, i2, s3]

/-- **C88.** What `render()` of the OpenVPN backend returns: for every VPN of the configuration, in their order, a line with its name, an empty line,
the lines its options say, and an empty line. And the files the configuration has afterwards: those it had, then the TLS keys, without duplicates. -/
theorem C88_text (env : Env) (schema : VDict → Except PyErr Unit) (sh : Val → Bool) (loads : Chars → Option Val) (config : VDict) (l : List VDict)
    (hne : l ≠ []) (hk : Dict.get? config "openvpn" = some (.list (l.map .dict))) (hl : ∀ c ∈ l, LinesFit env.reprC c) (st : BState) (text : Chars)
    (h : render (openvpnClass env schema sh loads) false ⟨config, none⟩ = (st, .ok text)) :
    ∃ gs, List.Forall₂ (FileSays env.reprC) l gs ∧
      text = joinWith ['\n'] (gs.flatMap fun g => ("# openvpn config: ".toList ++ g.1) :: [] :: g.2 ++ [[]]) ∧
      ∃ config', filesList config' = filesList config ++ l.flatMap (keyFiles env.reprC) ∧
        (∀ k, k ≠ "files" → Dict.get? config' k = Dict.get? config k) ∧ deduplicateFiles config' = .ok st.config := by
  obtain ⟨hv, st1, he, ht⟩ := render_ok h
  have hv : validate (openvpnClass env schema sh loads) config = .ok () := hv
  obtain ⟨config2, hd, rfl, out, ho, hh⟩ := renderTail_ok ht
  have eo : text = out := by
    rcases hh with ⟨_, e⟩ | ⟨hf, _⟩
    · exact e
    · cases hf
  subst eo
  unfold ensureIntermediate toIntermediate at he
  dsimp only at he
  rw [hv] at he
  change convLoop _ [openvpnConv env] config [] = _ at he
  unfold convLoop at he
  rw [if_neg (by
    show ¬ Dict.has config "openvpn" = false
    simp [Dict.has, hk])] at he
  cases hrun : (openvpnConv env).run config [] with
  | mk config1 res =>
    rw [hrun] at he
    cases res with
    | error e => cases he
    | ok value =>
      have hrun' : vpnRun (vpnBlock env removedVpn) config [] = (config1, .ok value) := hrun
      unfold vpnRun at hrun'
      rw [hk] at hrun'
      simp only [Option.getD_some, Prod.mk.injEq] at hrun'
      obtain ⟨r1, r2⟩ := hrun'
      obtain ⟨bs, r3, r4⟩ := bind_ok_iff.1 r2
      obtain ⟨rs, i1, rfl, i3, i4⟩ := vpnBlocks_ok (config := config) (config' := config1) (l := l) (bs := bs) (by rw [← r1, ← r3])
      obtain ⟨s1, s2⟩ := blocks_say (fun c hc => (hl c hc).nodup) i1
      have hrs : rs ≠ [] := by
        rintro rfl
        cases s1
        exact hne rfl
      have hv : value = [("openvpn", .list ((rs.map Prod.fst).map .dict))] := by
        cases rs with
        | nil => exact absurd rfl hrs
        | cons r rs => cases Except.ok.inj r4; simp
      subst hv
      dsimp only at he
      rw [if_neg (by simp), C04_empty_template _ _ _ (by simp)] at he
      unfold convLoop at he
      cases (Prod.mk.injEq _ _ _ _ ▸ he).1
      refine ⟨rs.map fun r => (fieldText env.reprC r.1 "name", r.1.flatMap (vpnOptionLines env.reprC)), ?_, ?_, config1, by rw [i3, s2], i4, hd⟩
      · rw [List.forall₂_map_right_iff]
        exact s1
      · have h1 : vpnNative env.reprC [("openvpn", .list ((rs.map Prod.fst).map .dict))] = .ok text := ho
        unfold vpnNative at h1
        rw [Dict.get?_cons_self] at h1
        dsimp only at h1
        rw [blocksOf_map] at h1
        have h1 : Except.ok (renderVpns env.reprC (rs.map Prod.fst)) = Except.ok text := h1
        rw [C59_exact_lines env.reprC (rs.map Prod.fst) (by simpa using hrs) ?_] at h1
        · rw [← Except.ok.inj h1, List.flatMap_map, List.flatMap_map]
          rfl
        · intro b hb x hx
          obtain ⟨r, hr, rfl⟩ := List.mem_map.1 hb
          obtain ⟨c, hc, n, hs⟩ : ∃ c ∈ l, fieldText env.reprC r.1 "name" = shownText env.reprC c "name" ∧
              Says env.reprC c (r.1.flatMap (vpnOptionLines env.reprC)) := by
            clear * - s1 hr
            induction s1 with
            | nil => cases hr
            | cons h1 _ ih =>
              rcases List.mem_cons.1 hr with rfl | hr
              · exact ⟨_, List.mem_cons_self, h1⟩
              · obtain ⟨c, hc, h⟩ := ih hr
                exact ⟨c, List.mem_cons_of_mem _ hc, h⟩
          unfold vpnTextLines at hx
          rcases List.mem_cons.1 hx with rfl | hx
          · rw [n]; exact (hl c hc).name
          · rcases List.mem_cons.1 hx with rfl | hx
            · exact ⟨by simp, by decide⟩
            · exact says_lines hs (hl c hc).lines x hx

/-- and for its file: at least one line, none of them empty or a comment, all ASCII (see C22) -/
structure FileFits (reprC : Val → String) (c : VDict) : Prop extends LinesFit reprC c where
  nonempty : ∃ k ∈ Dict.keys c, optionSays reprC c k ≠ []
  plain : ∀ k, ∀ l ∈ optionSays reprC c k, l ≠ [] ∧ l.head? ≠ some '#' ∧ ∀ x ∈ l, x.toNat < 128

/-- **C88.** What `generate()` of the OpenVPN backend puts into the archive: for every VPN of the configuration, in their order, a file of mode 0644
named after it (up to the first ".conf" its name contains) with the lines its options say; then the files of the configuration and the TLS keys. -/
theorem C88_archive (env : Env) (schema : VDict → Except PyErr Unit) (sh : Val → Bool) (loads : Chars → Option Val) (config : VDict) (l : List VDict)
    (hne : l ≠ []) (hk : Dict.get? config "openvpn" = some (.list (l.map .dict))) (hl : ∀ c ∈ l, FileFits env.reprC c) (st : BState) (ms : List Member)
    (h : generate (openvpnClass env schema sh loads) ⟨config, none⟩ = (st, .ok ms)) :
    ∃ gs fs, List.Forall₂ (FileSays env.reprC) l gs ∧ ms = gs.map (vpnFileAt ".conf".toList) ++ fs ∧ processFiles st.config = .ok fs ∧
      ∃ config', filesList config' = filesList config ++ l.flatMap (keyFiles env.reprC) ∧
        (∀ k, k ≠ "files" → Dict.get? config' k = Dict.get? config k) ∧ deduplicateFiles config' = .ok st.config := by
  unfold generate at h
  split at h
  · cases h
  · next st1 text hr =>
    obtain ⟨h0, h9⟩ := (Prod.mk.injEq _ _ _ _).mp h
    clear h
    subst h0
    obtain ⟨a, h1, h9⟩ := bind_ok_iff.1 h9
    obtain ⟨fs, h2, h9⟩ := bind_ok_iff.1 h9
    cases h9
    obtain ⟨gs, s, rfl, hc⟩ := C88_text env schema sh loads config l hne hk (fun c hc => (hl c hc).toLinesFit) st1 text hr
    refine ⟨gs, fs, s, ?_, h2, hc⟩
    congr 1
    have h1 : vpnSplit vpnKw ".conf".toList _ = .ok a := h1
    rw [show "# openvpn config: ".toList = vpnKw ++ [' '] by decide +kernel, members_at vpnKw ".conf".toList (by decide) gs ?_ ?_] at h1
    · exact (Except.ok.inj h1).symm
    · intro g hg
      obtain ⟨c, hc, n, hs⟩ : ∃ c ∈ l, FileSays env.reprC c g := by
        clear * - s hg
        induction s with
        | nil => cases hg
        | cons h1 _ ih =>
          rcases List.mem_cons.1 hg with rfl | hg
          · exact ⟨_, List.mem_cons_self, h1⟩
          · obtain ⟨c, hc, h⟩ := ih hg
            exact ⟨c, List.mem_cons_of_mem _ hc, h⟩
      have F := hl c hc
      refine ⟨?_, ?_, ?_, fun x hx => says_lines (P := fun l => ∀ x ∈ l, x.toNat < 128) hs (fun k l hl => (F.plain k l hl).2.2) x hx⟩
      · rw [n]
        exact fun hm => F.name.1 (List.mem_append_right _ hm)
      · have hne : g.2 ≠ [] := by
          obtain ⟨ks, hp, _, e⟩ := hs
          obtain ⟨k, hk, hke⟩ := F.nonempty
          rw [e]
          intro h0
          exact hke (List.flatMap_eq_nil_iff.1 h0 k (hp.mem_iff.2 hk))
        refine ⟨g.2.dropLast, g.2.getLast hne, (List.dropLast_append_getLast hne).symm, ?_⟩
        exact says_lines (P := fun l => l ≠ []) hs (fun k l hl => (F.plain k l hl).1) _ (List.getLast_mem hne)
      · intro x hx
        refine ⟨says_lines (P := fun l => '\n' ∉ l) hs (fun k l hl => (F.lines k l hl).1) x hx, ?_⟩
        have := says_lines (P := fun l => l.head? ≠ some '#') hs (fun k l hl => (F.plain k l hl).2.1) x hx
        rintro ⟨t, rfl⟩
        exact this rfl
    · rintro rfl
      cases s
      exact hne rfl

end NJ
