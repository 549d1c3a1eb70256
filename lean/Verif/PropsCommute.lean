import Verif.PropsOrder
import Verif.PropsConstructed

/-!
# C84: templates for different sections can be given in any order
-/

namespace NJ

set_option linter.unusedVariables false

/-! ## Specification -/

/-- templates (or configurations) with no key of the top level in common -/
def Disjoint' (a b : VDict) : Prop := ∀ k, ¬ (Dict.has a k = true ∧ Dict.has b k = true)

/-- lists of templates that differ by swaps of neighbours with no key in common -/
inductive Reordered : List VDict → List VDict → Prop
  | refl (l : List VDict) : Reordered l l
  | swap (pre : List VDict) (a b : VDict) (post : List VDict) : Disjoint' a b → Reordered (pre ++ a :: b :: post) (pre ++ b :: a :: post)
  | trans {l m n : List VDict} : Reordered l m → Reordered m n → Reordered l n

/-- the arguments of the constructor -/
def givenTemplates (l : List VDict) : TemplatesArg := .list (l.map fun t => Arg.val (.dict t))

/-! ## Proofs -/

/-- both fail, or both succeed with related results -/
inductive RelO {α β : Type} (R : α → β → Prop) : Except PyErr α → Except PyErr β → Prop
  | ok {a b} : R a b → RelO R (.ok a) (.ok b)
  | error (e e') : RelO R (.error e) (.error e')

theorem RelE.relO {α β : Type} {R : α → β → Prop} {x : Except PyErr α} {y : Except PyErr β} (h : RelE R x y) : RelO R x y := by
  cases h with
  | ok h => exact .ok h
  | error e => exact .error e e

theorem relO_bind {α β γ δ : Type} {R : α → β → Prop} {S : γ → δ → Prop} {x : Except PyErr α} {y : Except PyErr β} {f : α → Except PyErr γ}
    {g : β → Except PyErr δ} (h : RelO R x y) (hf : ∀ a b, x = .ok a → y = .ok b → R a b → RelO S (f a) (g b)) : RelO S (x >>= f) (y >>= g) := by
  cases h with
  | ok h => exact hf _ _ rfl rfl h
  | error e e' => exact .error e e'

section
variable {sh : Val → Bool} {ids : List String}

/-- merging into dictionaries with the same items -/
theorem merge_same {d e : VDict} (h : SameD flat d e) (t : VDict) : RelE (SameD flat) (mergeConfig sh ids d t) (mergeConfig sh ids e t) := by
  unfold mergeConfig
  induction t generalizing d e with
  | nil => rw [mergeKvs, mergeKvs]; exact .ok h
  | cons p t ih =>
    obtain ⟨k, v⟩ := p
    rw [mergeKvs, mergeKvs, h.get_flat k]
    refine relE_bind (relE_refl _) fun x y hxy => ?_
    exact ih (sameD_set h (fun q => nomatch q) hxy)

theorem fold_same {d e : VDict} (h : SameD flat d e) (l : List VDict) :
    RelE (SameD flat) (l.foldlM (fun acc t => mergeConfig sh ids acc t) d) (l.foldlM (fun acc t => mergeConfig sh ids acc t) e) := by
  induction l generalizing d e with
  | nil => exact .ok h
  | cons t l ih =>
    rw [List.foldlM_cons, List.foldlM_cons]
    exact relE_bind (merge_same h t) fun _ _ h => ih h

theorem disjoint_keys {a b : VDict} (h : Disjoint' a b) {k : String} {v : Val} (hk : Dict.get? a k = some v) : Dict.get? b k = none := by
  cases hb : Dict.get? b k with
  | none => rfl
  | some w => exact absurd ⟨by rw [Dict.has_eq, hk]; rfl, by rw [Dict.has_eq, hb]; rfl⟩ (h k)

/-- templates with no key in common, one after the other -/
theorem merge_two {acc a b x y : VDict} (hd : Disjoint' a b) (ha : (Dict.keys a).Nodup) (hb : (Dict.keys b).Nodup) (h1 : mergeConfig sh ids acc a = .ok x)
    (h2 : mergeConfig sh ids x b = .ok y) : ∃ x' y', mergeConfig sh ids acc b = .ok x' ∧ mergeConfig sh ids x' a = .ok y' ∧ ∀ k, Dict.get? y k = Dict.get? y' k := by
  unfold mergeConfig at *
  have keep : ∀ {a b acc x : VDict}, Disjoint' a b → mergeKvs sh ids a acc = .ok x → ∀ k v, Dict.get? b k = some v → Dict.get? x k = Dict.get? acc k := by
    intro a b acc x hd h k v hk
    refine mergeKvs_get?_not_mem h ((Dict.get?_eq_none_iff _ _).1 ?_)
    exact disjoint_keys (fun k q => hd k ⟨q.2, q.1⟩) hk
  have hd' : Disjoint' b a := fun k q => hd k ⟨q.2, q.1⟩
  obtain ⟨x', h1'⟩ := (mergeKvs_ok_iff (sh := sh) (ids := ids) hb acc).2 fun k v hk => by
    rw [← keep hd h1 k v hk]
    exact (mergeKvs_ok_iff hb x).1 ⟨y, h2⟩ k v hk
  obtain ⟨y', h2'⟩ := (mergeKvs_ok_iff (sh := sh) (ids := ids) ha x').2 fun k v hk => by
    rw [keep hd' h1' k v hk]
    exact (mergeKvs_ok_iff ha acc).1 ⟨x, h1⟩ k v hk
  refine ⟨x', y', h1', h2', fun k => ?_⟩
  cases hka : Dict.get? a k with
  | some v =>
    obtain ⟨z, e1, e2⟩ := mergeKvs_get?_mem ha h1 hka
    obtain ⟨z', e1', e2'⟩ := mergeKvs_get?_mem ha h2' hka
    rw [keep hd' h1' k v hka, e1] at e1'
    cases e1'
    rw [e2', mergeKvs_get?_not_mem h2 ((Dict.get?_eq_none_iff _ _).1 (disjoint_keys hd hka)), e2]
  | none =>
    cases hkb : Dict.get? b k with
    | some v =>
      obtain ⟨z, e1, e2⟩ := mergeKvs_get?_mem hb h2 hkb
      obtain ⟨z', e1', e2'⟩ := mergeKvs_get?_mem hb h1' hkb
      rw [keep hd h1 k v hkb, e1'] at e1
      cases e1
      rw [e2, mergeKvs_get?_not_mem h2' ((Dict.get?_eq_none_iff _ _).1 hka), e2']
    | none =>
      have na := (Dict.get?_eq_none_iff _ _).1 hka
      have nb := (Dict.get?_eq_none_iff _ _).1 hkb
      rw [mergeKvs_get?_not_mem h2 nb, mergeKvs_get?_not_mem h1 na, mergeKvs_get?_not_mem h2' na, mergeKvs_get?_not_mem h1' nb]

theorem merge_swap {acc a b : VDict} (hacc : (Dict.keys acc).Nodup) (hd : Disjoint' a b) (ha : (Dict.keys a).Nodup) (hb : (Dict.keys b).Nodup) :
    RelO (SameD flat) (mergeConfig sh ids acc a >>= fun x => mergeConfig sh ids x b) (mergeConfig sh ids acc b >>= fun x => mergeConfig sh ids x a) := by
  cases h : mergeConfig sh ids acc a >>= fun x => mergeConfig sh ids x b with
  | ok y =>
    obtain ⟨x, h1, h2⟩ := bind_ok_iff.1 h
    obtain ⟨x', y', h1', h2', hk⟩ := merge_two hd ha hb h1 h2
    rw [h1']
    show RelO _ _ (mergeConfig sh ids x' a)
    rw [h2']
    exact .ok (sameD_flat (mergeKvs_nodup (mergeKvs_nodup hacc h1) h2) (mergeKvs_nodup (mergeKvs_nodup hacc h1') h2') hk)
  | error e =>
    cases h' : mergeConfig sh ids acc b >>= fun x => mergeConfig sh ids x a with
    | error e' => exact .error e e'
    | ok y =>
      obtain ⟨x, h1, h2⟩ := bind_ok_iff.1 h'
      obtain ⟨x', y', h1', h2', hk⟩ := merge_two (fun k q => hd k ⟨q.2, q.1⟩) hb ha h1 h2
      rw [h1'] at h
      change mergeConfig sh ids x' b = .error e at h
      rw [h2'] at h
      cases h

theorem fold_nodup {l : List VDict} {acc r : VDict} (hacc : (Dict.keys acc).Nodup) (h : l.foldlM (fun acc t => mergeConfig sh ids acc t) acc = .ok r) :
    (Dict.keys r).Nodup := by
  induction l generalizing acc with
  | nil => cases h; exact hacc
  | cons t l ih =>
    rw [List.foldlM_cons] at h
    obtain ⟨x, h1, h⟩ := bind_ok_iff.1 h
    exact ih (mergeKvs_nodup hacc h1) h

theorem relO_trans {d e f : Except PyErr VDict} (h : RelO (SameD flat) d e) (h' : RelO (SameD flat) e f) : RelO (SameD flat) d f := by
  cases h with
  | ok h =>
    cases h' with
    | ok h' => exact .ok (sameD_flat h.left h'.right fun k => (h.get_flat k).trans (h'.get_flat k))
  | error e e' =>
    cases h' with
    | error _ e'' => exact .error _ _

theorem reordered_perm {l m : List VDict} (h : Reordered l m) : l.Perm m := by
  induction h with
  | refl => exact .refl _
  | swap pre a b post _ => exact List.Perm.append_left pre (.swap b a post)
  | trans _ _ h1 h2 => exact h1.trans h2

theorem fold_reordered {l m : List VDict} (h : Reordered l m) (hn : ∀ t ∈ l, (Dict.keys t).Nodup) (post : List VDict) :
    RelO (SameD flat) ((l ++ post).foldlM (fun acc t => mergeConfig sh ids acc t) []) ((m ++ post).foldlM (fun acc t => mergeConfig sh ids acc t) []) := by
  induction h with
  | refl l =>
    cases h : (l ++ post).foldlM (fun acc t => mergeConfig sh ids acc t) [] with
    | error e => exact .error _ _
    | ok r => exact .ok (sameD_refl (fold_nodup (acc := []) (by decide) h))
  | swap pre a b l hd =>
    rw [List.append_assoc, List.append_assoc, List.foldlM_append, List.foldlM_append]
    cases h : pre.foldlM (fun acc t => mergeConfig sh ids acc t) [] with
    | error e => exact .error _ _
    | ok acc =>
      have hacc := fold_nodup (acc := []) (by decide) h
      show RelO _ (List.foldlM _ acc (a :: b :: (l ++ post))) (List.foldlM _ acc (b :: a :: (l ++ post)))
      have := merge_swap (sh := sh) (ids := ids) hacc hd (hn a (by simp)) (hn b (by simp))
      simp only [List.foldlM_cons]
      rw [← bind_assoc, ← bind_assoc]
      exact relO_bind this fun x y _ _ hxy => (fold_same hxy _).relO
  | trans h1 h2 ih1 ih2 => exact relO_trans (ih1 hn) (ih2 fun t ht => hn t ((reordered_perm h1).symm.subset ht))

end

theorem mapM_perm {α β : Type} {f : α → Except PyErr β} {l m : List α} (h : l.Perm m) : RelO List.Perm (l.mapM f) (m.mapM f) := by
  induction h with
  | nil => exact .ok (.refl _)
  | cons x _ ih =>
    rw [List.mapM_cons, List.mapM_cons]
    cases hx : f x with
    | error e => exact .error _ _
    | ok y =>
      rename_i l1 l2 _
      show RelO List.Perm (List.mapM f l1 >>= fun r => pure (y :: r)) (List.mapM f l2 >>= fun r => pure (y :: r))
      exact relO_bind ih fun a b _ _ hab => RelO.ok (R := List.Perm) (List.Perm.cons y hab)
  | swap x y l =>
    simp only [List.mapM_cons]
    cases f x <;> cases f y <;> cases l.mapM f <;> first | exact .error _ _ | exact .ok (.swap _ _ _)
  | trans _ _ ih1 ih2 =>
    revert ih1 ih2
    generalize List.mapM f _ = x
    generalize List.mapM f _ = y
    generalize List.mapM f _ = z
    intro ih1 ih2
    cases ih1 with
    | ok h1 => cases ih2 with
      | ok h2 => exact .ok (h1.trans h2)
    | error _ _ => cases ih2 with
      | error _ _ => exact .error _ _

/-- one item, evaluated -/
def evalPair (reprC : Val → String) (ctx : VDict) (p : String × Val) : Except PyErr (String × Val) := evalVars reprC ctx p.2 >>= fun x => pure (p.1, x)

theorem evalVarsD_mapM {reprC : Val → String} {ctx : VDict} (d : VDict) :
    evalVarsD reprC ctx d = d.mapM (evalPair reprC ctx) := by
  induction d with
  | nil => rfl
  | cons p d ih =>
    obtain ⟨k, v⟩ := p
    rw [evalVarsD, List.mapM_cons, ih]
    unfold evalPair
    cases evalVars reprC ctx v <;> rfl

theorem evaluate_same {reprC : Val → String} {ctx : Option VDict} {d e : VDict} (h : SameD flat d e) :
    RelO (SameD flat) (evaluateConfig reprC ctx d) (evaluateConfig reprC ctx e) := by
  unfold evaluateConfig
  split
  · exact .ok h
  · exact .ok h
  · rename_i c _
    rw [evalVarsD_mapM, evalVarsD_mapM]
    have hp := mapM_perm (f := evalPair reprC c) (flat_perm h)
    cases hd : d.mapM (evalPair reprC c) with
    | error e1 =>
      rw [hd] at hp
      generalize e.mapM (evalPair reprC c) = y at hp ⊢
      cases hp
      exact .error _ _
    | ok r =>
      have hk : (Dict.keys r).Nodup := by
        rw [← evalVarsD_mapM] at hd
        have : ∀ (d r : VDict), evalVarsD reprC c d = .ok r → Dict.keys r = Dict.keys d := by
          intro d
          induction d with
          | nil => intro r h; rw [evalVarsD] at h; cases h; rfl
          | cons p d ih =>
            obtain ⟨k, v⟩ := p
            intro r h
            rw [evalVarsD] at h
            obtain ⟨x, _, h⟩ := bind_ok_iff.1 h
            obtain ⟨xs, h1, h⟩ := bind_ok_iff.1 h
            cases h
            exact congrArg (k :: ·) (ih xs h1)
        rw [this d r hd]
        exact h.left
      rw [hd] at hp
      generalize e.mapM (evalPair reprC c) = y at hp ⊢
      cases hp with
      | ok hp => exact .ok (sameD_of_perm hp hk)

theorem construct_templates {cls : Class} {config : VDict} {l : List VDict} {ctx : Option VDict} :
    construct cls (some (.val (.dict config))) none (givenTemplates l) ctx =
      ((if l.isEmpty then pure config else (l ++ [config]).foldlM (fun acc t => mergeConfig cls.sh cls.ids acc t) []) >>= fun m =>
        evaluateConfig cls.reprC ctx m >>= fun e => pure ⟨e, none⟩) := by
  have hm : mergeTemplates cls config (givenTemplates l) = if l.isEmpty then pure config else (l ++ [config]).foldlM (fun acc t => mergeConfig cls.sh cls.ids acc t) [] := by
    cases l with
    | nil => rfl
    | cons t l =>
      show List.foldlM (m := Except PyErr) (fun acc a => load cls a >>= fun c => mergeConfig cls.sh cls.ids acc c) []
        (((t :: l).map fun t => Arg.val (.dict t)) ++ [Arg.val (.dict config)]) = _
      have : (((t :: l).map fun t => Arg.val (.dict t)) ++ [Arg.val (.dict config)]) = ((t :: l ++ [config]).map fun t => Arg.val (.dict t)) := by simp
      rw [this, List.foldlM_map]
      rfl
  unfold construct
  show (load cls (.val (.dict config)) >>= fun c => mergeTemplates cls c (givenTemplates l) >>= _) = _
  rw [← hm]
  rfl

theorem sameJson_of_flat {d e : VDict} (h : SameD flat d e) : SameJson (.dict d) (.dict e) := by
  refine .dict _ _ (fun k => by rw [h.get_flat]) fun k a b ha hb => ?_
  rw [h.get_flat, hb] at ha
  cases ha
  exact sameJson_refl _

/-! ## C84 -/

/-- C84. Objects made with the templates in another order fail to be made together, or hold the same items: the same value under every key. -/
theorem C84_commute (cls : Class) (config : VDict) (ctx : Option VDict) {l m : List VDict} (h : Reordered l m) (hl : ∀ t ∈ l, (Dict.keys t).Nodup)
    (hc : (Dict.keys config).Nodup) :
    (∃ st st', construct cls (some (.val (.dict config))) none (givenTemplates l) ctx = .ok st ∧ construct cls (some (.val (.dict config))) none (givenTemplates m) ctx = .ok st' ∧
        (∀ k, Dict.get? st.config k = Dict.get? st'.config k) ∧ (Dict.keys st.config).Perm (Dict.keys st'.config)) ∨
      (∃ e e', construct cls (some (.val (.dict config))) none (givenTemplates l) ctx = .error e ∧
        construct cls (some (.val (.dict config))) none (givenTemplates m) ctx = .error e') := by
  have he : l.isEmpty = m.isEmpty := by
    have := (reordered_perm h).length_eq
    cases l <;> cases m <;> first | rfl | cases this
  have h1 : RelO (SameD flat) (if l.isEmpty then pure config else (l ++ [config]).foldlM (fun acc t => mergeConfig cls.sh cls.ids acc t) [])
      (if m.isEmpty then pure config else (m ++ [config]).foldlM (fun acc t => mergeConfig cls.sh cls.ids acc t) []) := by
    rw [he]
    split
    · exact .ok (sameD_refl hc)
    · exact fold_reordered h hl [config]
  have h2 := relO_bind h1 (S := SameD flat) fun a b _ _ hab => evaluate_same (reprC := cls.reprC) (ctx := ctx) hab
  have h3 := relO_bind (S := fun s t : BState => SameD flat s.config t.config) h2 fun a b _ _ hab =>
    (.ok hab : RelO _ (.ok ⟨a, none⟩ : Except PyErr BState) (.ok ⟨b, none⟩ : Except PyErr BState))
  rw [bind_assoc, bind_assoc] at h3
  have h3 : RelO (fun s t : BState => SameD flat s.config t.config) (construct cls (some (.val (.dict config))) none (givenTemplates l) ctx)
      (construct cls (some (.val (.dict config))) none (givenTemplates m) ctx) := by rw [construct_templates, construct_templates]; exact h3
  revert h3
  generalize (construct cls (some (.val (.dict config))) none (givenTemplates l) ctx) = x
  generalize (construct cls (some (.val (.dict config))) none (givenTemplates m) ctx) = y
  intro h3
  cases h3 with
  | ok h => exact .inl ⟨_, _, rfl, rfl, h.get_flat, (flat_perm h).map Prod.fst⟩
  | error e e' => exact .inr ⟨e, e', rfl, rfl⟩

theorem construct_wf {cls : Class} {config : VDict} {l : List VDict} {ctx : Option VDict} {st : BState}
    (h : construct cls (some (.val (.dict config))) none (givenTemplates l) ctx = .ok st) (hl : ∀ t ∈ l, (Val.dict t).WF) (hc : (Val.dict config).WF) :
    st.inter = none ∧ (Val.dict st.config).WF := by
  rw [construct_templates] at h
  obtain ⟨m, h1, h⟩ := bind_ok_iff.1 h
  obtain ⟨e, h2, h⟩ := bind_ok_iff.1 h
  cases h
  refine ⟨rfl, ?_⟩
  have hm : (Val.dict m).WF := by
    split at h1
    · cases h1; exact hc
    · have : ∀ (l : List VDict) (acc : VDict), (Val.dict acc).WF → (∀ t ∈ l, (Val.dict t).WF) → l.foldlM (fun acc t => mergeConfig cls.sh cls.ids acc t) acc = .ok m → (Val.dict m).WF := by
        intro l
        induction l with
        | nil => intro acc ha _ h; cases h; exact ha
        | cons t l ih =>
          intro acc ha hl h
          rw [List.foldlM_cons] at h
          obtain ⟨x, e1, h⟩ := bind_ok_iff.1 h
          exact ih x (mergeKvs_wf _ t acc x (wf_items (hl t List.mem_cons_self)).2 ha e1) (fun q hq => hl q (List.mem_cons_of_mem _ hq)) h
      refine this _ [] (.dict _ (by decide) fun _ q => nomatch q) (fun t ht => ?_) h1
      rcases List.mem_append.1 ht with ht | ht
      · exact hl t ht
      · rw [List.mem_singleton.1 ht]; exact hc
  unfold evaluateConfig at h2
  split at h2
  · cases h2; exact hm
  · cases h2; exact hm
  · obtain ⟨h3, h4⟩ := wf_evalVarsD m e (wf_items hm).2 h2
    exact .dict _ (h3 ▸ (wf_items hm).1) h4

/-- … so that OpenWrt configurations are rendered to the same text and give the same archive. -/
theorem C84_render (env : Env) (ip6 : Ip6) (sh : Val → Bool) (loads : Chars → Option Val) (dsa : Bool) (config : VDict) (ctx : Option VDict) {l m : List VDict}
    (h : Reordered l m) (hl : ∀ t ∈ l, (Val.dict t).WF) (hc : (Val.dict config).WF) {st : BState}
    (hst : construct (openwrtClass env (owValidate ip6) sh loads dsa) (some (.val (.dict config))) none (givenTemplates l) ctx = .ok st) (ht : Tidy dsa st.config) :
    ∃ st', construct (openwrtClass env (owValidate ip6) sh loads dsa) (some (.val (.dict config))) none (givenTemplates m) ctx = .ok st' ∧
      validate (openwrtClass env (owValidate ip6) sh loads dsa) st.config = validate (openwrtClass env (owValidate ip6) sh loads dsa) st'.config ∧
      (∀ files, SameOutcome (render (openwrtClass env (owValidate ip6) sh loads dsa) files st).2 (render (openwrtClass env (owValidate ip6) sh loads dsa) files st').2) ∧
      SameOutcome (generate (openwrtClass env (owValidate ip6) sh loads dsa) st).2 (generate (openwrtClass env (owValidate ip6) sh loads dsa) st').2 := by
  rcases C84_commute (openwrtClass env (owValidate ip6) sh loads dsa) config ctx h (fun t q => (hl t q).nodup) hc.nodup with ⟨s, st', h1, h2, h3, h4⟩ | ⟨e, e', h1, _⟩
  · rw [hst] at h1
    cases h1
    obtain ⟨hi, hw⟩ := construct_wf hst hl hc
    obtain ⟨hi', hw'⟩ := construct_wf h2 (fun t q => hl t ((reordered_perm h).symm.subset q)) hc
    have hs := sameJson_of_flat (sameD_flat hw.nodup hw'.nodup h3)
    obtain ⟨c, i⟩ := st
    obtain ⟨c', i'⟩ := st'
    cases hi
    cases hi'
    exact ⟨⟨c', none⟩, h2, C83_validate hs hw hw' ht, fun files => C83_render hs hw hw' ht files, C83_generate hs hw hw' ht⟩
  · rw [hst] at h1; cases h1

/-- Templates that have, two by two, no key in common can be given in any order. -/
theorem C84_any_order {l m : List VDict} (h : l.Perm m) (hd : l.Pairwise Disjoint') : Reordered l m := by
  have symm : ∀ {a b : VDict}, Disjoint' a b → Disjoint' b a := fun h k q => h k ⟨q.2, q.1⟩
  have cons : ∀ (a : VDict) {l m : List VDict}, Reordered l m → Reordered (a :: l) (a :: m) := by
    intro a l m h
    induction h with
    | refl l => exact .refl _
    | swap pre b c post hd => exact .swap (a :: pre) b c post hd
    | trans _ _ h1 h2 => exact .trans h1 h2
  induction h with
  | nil => exact .refl _
  | cons x _ ih => exact cons x (ih (List.pairwise_cons.1 hd).2)
  | swap x y l => exact .swap [] y x l ((List.pairwise_cons.1 hd).1 x List.mem_cons_self)
  | trans h1 _ ih1 ih2 => exact .trans (ih1 hd) (ih2 ((h1.pairwise_iff symm).1 hd))

end NJ
