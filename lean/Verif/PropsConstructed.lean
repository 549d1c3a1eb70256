import Verif.PropsNames
import Verif.PropsVars

/-!
# C82 from the arguments of the constructor: templates, configuration and variables
-/

namespace NJ

/-! ## Merging keeps keys unique -/

def MergeWf (m : Mergeable) : Prop := m.1.WF ∧ ∀ e r, (∀ x, e = some x → x.WF) → m.2 e = .ok r → r.WF

theorem container1_wf {sh ids i} {acc : Dict LKey Val} {l : List Val} {c} (h : container1 sh ids i acc l = .ok c)
    (ha : ValuesOk Val.WF acc) (hl : ∀ v ∈ l, v.WF) : ValuesOk Val.WF c := by
  induction l generalizing i acc with
  | nil => cases h; exact ha
  | cons v l ih =>
    obtain ⟨k, _, h⟩ := bind_ok_iff.1 h
    exact ih h (values_set ha (hl v List.mem_cons_self)) fun w hw => hl w (List.mem_cons_of_mem _ hw)

theorem container2_wf {sh ids c1 i} {acc : Dict LKey Mergeable} {l : List Mergeable} {c} (h : container2 sh ids c1 i acc l = .ok c)
    (ha : ValuesOk MergeWf acc) (hl : ∀ m ∈ l, MergeWf m) : ValuesOk MergeWf c := by
  induction l generalizing i acc with
  | nil => cases h; exact ha
  | cons v l ih =>
    rw [container2] at h
    split at h
    · exact ih h ha fun m hm => hl m (List.mem_cons_of_mem _ hm)
    · obtain ⟨k, _, h⟩ := bind_ok_iff.1 h
      exact ih h (values_set ha (hl v List.mem_cons_self)) fun m hm => hl m (List.mem_cons_of_mem _ hm)

theorem mergeContainers_wf {acc : Dict LKey Val} {l : Dict LKey Mergeable} {c} (h : mergeContainers acc l = .ok c)
    (ha : ValuesOk Val.WF acc) (hl : ValuesOk MergeWf l) : ValuesOk Val.WF c := by
  induction l generalizing acc with
  | nil => cases h; exact ha
  | cons p l ih =>
    obtain ⟨k, m⟩ := p
    obtain ⟨v, hv, h⟩ := bind_ok_iff.1 h
    have hm := hl (k, m) List.mem_cons_self
    exact ih h (values_set ha (hm.2 _ v (fun x hx => values_get ha hx) hv)) fun q hq => hl q (List.mem_cons_of_mem _ hq)

theorem mergeListWith_wf {sh ids} {l1 : List Val} {l2 : List Mergeable} {r : List Val} (h1 : ∀ v ∈ l1, v.WF) (h2 : ∀ m ∈ l2, MergeWf m)
    (h : mergeListWith sh ids l1 l2 = .ok r) : ∀ v ∈ r, v.WF := by
  obtain ⟨c1, hc1, h⟩ := bind_ok_iff.1 h
  obtain ⟨c2, hc2, h⟩ := bind_ok_iff.1 h
  obtain ⟨m, hm, h⟩ := bind_ok_iff.1 h
  cases h
  have := mergeContainers_wf hm (container1_wf hc1 (fun _ hp => nomatch hp) h1) (container2_wf hc2 (fun _ hp => nomatch hp) h2)
  intro v hv
  obtain ⟨p, hp, rfl⟩ := List.mem_map.1 hv
  exact this p hp

theorem wf_list {l : List Val} (h : (Val.list l).WF) : ∀ v ∈ l, v.WF := by cases h; assumption
theorem wf_items {d : VDict} (h : (Val.dict d).WF) : (Dict.keys d).Nodup ∧ ∀ p ∈ d, p.2.WF := by cases h; exact ⟨by assumption, by assumption⟩

mutual
theorem mergeVal_wf {sh : Val → Bool} (ids : List String) : ∀ (v : Val) (e : Option Val) (r : Val), v.WF → (∀ x, e = some x → x.WF) → mergeVal sh ids v e = .ok r → r.WF
  | .dict kvs, some (.dict t), r, hv, he, h => by
    unfold mergeVal at h
    obtain ⟨d, hd, h⟩ := bind_ok_iff.1 h
    cases h
    exact mergeKvs_wf ids kvs t d (wf_items hv).2 (he _ rfl) hd
  | .dict _, none, r, hv, _, h => by unfold mergeVal at h; cases h; exact hv
  | .dict _, some .none, r, hv, _, h => by unfold mergeVal at h; cases h; exact hv
  | .dict _, some (.bool _), r, hv, _, h => by unfold mergeVal at h; cases h; exact hv
  | .dict _, some (.int _), r, hv, _, h => by unfold mergeVal at h; cases h; exact hv
  | .dict _, some (.str _), r, hv, _, h => by unfold mergeVal at h; cases h; exact hv
  | .dict _, some (.list _), r, hv, _, h => by unfold mergeVal at h; cases h
  | .list l, some (.list t), r, hv, he, h => by
    unfold mergeVal at h
    obtain ⟨d, hd, h⟩ := bind_ok_iff.1 h
    cases h
    exact .list d (mergeListWith_wf (wf_list (he _ rfl)) (closures_wf l (wf_list hv)) hd)
  | .list _, none, r, hv, _, h => by unfold mergeVal at h; cases h; exact hv
  | .list _, some .none, r, hv, _, h => by unfold mergeVal at h; cases h; exact hv
  | .list _, some (.bool _), r, hv, _, h => by unfold mergeVal at h; cases h; exact hv
  | .list _, some (.int _), r, hv, _, h => by unfold mergeVal at h; cases h; exact hv
  | .list _, some (.str _), r, hv, _, h => by unfold mergeVal at h; cases h; exact hv
  | .list _, some (.dict _), r, hv, _, h => by unfold mergeVal at h; cases h
  | .none, _, r, hv, _, h => by unfold mergeVal at h; cases h; exact hv
  | .bool _, _, r, hv, _, h => by unfold mergeVal at h; cases h; exact hv
  | .int _, _, r, hv, _, h => by unfold mergeVal at h; cases h; exact hv
  | .str _, _, r, hv, _, h => by unfold mergeVal at h; cases h; exact hv
theorem mergeKvs_wf {sh : Val → Bool} (ids : List String) : ∀ (l : List (String × Val)) (d r : VDict), (∀ p ∈ l, p.2.WF) → (Val.dict d).WF →
    mergeKvs sh ids l d = .ok r → (Val.dict r).WF
  | [], d, r, _, hd, h => by rw [mergeKvs] at h; cases h; exact hd
  | (k, v) :: l, d, r, hl, hd, h => by
    rw [mergeKvs] at h
    obtain ⟨x, hx, h⟩ := bind_ok_iff.1 h
    have hxw := mergeVal_wf ids v _ x (hl (k, v) List.mem_cons_self) (fun y hy => hd.of_get? hy) hx
    refine mergeKvs_wf ids l _ r (fun p hp => hl p (List.mem_cons_of_mem _ hp)) ?_ h
    refine .dict _ (Dict.nodup_set (wf_items hd).1 k x) fun p hp => ?_
    rcases mem_set_or hp with hp | rfl
    · exact (wf_items hd).2 p hp
    · exact hxw
theorem closures_wf {sh : Val → Bool} : ∀ (l : List Val), (∀ v ∈ l, v.WF) → ∀ m ∈ closures sh l, MergeWf m
  | [], _, m, hm => nomatch hm
  | v :: r, hl, m, hm => by
    rw [closures] at hm
    rcases List.mem_cons.1 hm with rfl | hm
    · exact ⟨hl v List.mem_cons_self, fun e x he hx => mergeVal_wf [] v e x (hl v List.mem_cons_self) he hx⟩
    · exact closures_wf r (fun w hw => hl w (List.mem_cons_of_mem _ hw)) m hm
end

/-! ## Variables -/

section
variable {A : Char → Prop}

theorem mem_render_tok {ts : List VTok} {p : Ph} (h : .inr p ∈ ts) : ∀ c ∈ p.text, c ∈ renderToks ts := by
  intro c hc
  unfold renderToks
  exact List.mem_flatMap.2 ⟨_, h, hc⟩

theorem over_subVar {multi : Bool} {name value data : Chars} (hv : Over A value) (hb : '\\' ∉ value) (hd : Over A data) :
    Over A (subVar multi name value data) := by
  intro r h
  unfold subVar at h
  rw [compileTemplate_plain hb] at h
  cases h
  intro c hc
  obtain ⟨t, ht, hc⟩ := List.mem_flatMap.1 hc
  have hr := vtokens_render data
  cases t with
  | inl x =>
    have : c ∈ renderToks (vtokens data) := List.mem_flatMap.2 ⟨_, ht, hc⟩
    rw [hr] at this
    exact hd c this
  | inr p =>
    have hp : ∀ c ∈ p.text, A c := fun c hc => hd c (hr ▸ mem_render_tok ht c hc)
    dsimp only at hc
    split at hc
    · split at hc
      · rw [expandTemplate_lit] at hc; exact hv c hc
      · exact hp c hc
    · rw [expandTemplate_lit] at hc; exact hv c hc

/-- the texts of the variables are over `A`, and have no backslash -/
def CleanContext (A : Char → Prop) (reprC : Val → String) (ctx : VDict) : Prop :=
  ∀ k v, Dict.get? ctx k = some v → Over A (pyStr reprC v) ∧ '\\' ∉ (pyStr reprC v).toList

theorem over_evalStr {reprC : Val → String} {ctx : VDict} (hc : CleanContext A reprC ctx) {s : Chars} (hs : Over A s) : Over A (evalStr reprC ctx s) := by
  unfold evalStr
  dsimp only
  generalize findVars s = vars
  have : ∀ (l : List Chars) (m : Bool) (d : Chars), Over A d → Over A (l.foldlM (fun data var =>
      match Dict.get? ctx (String.ofList (strip var)) with
      | some v => subVar m (strip var) (pyStr reprC v).toList data
      | none => pure data) d) := by
    intro l m
    induction l with
    | nil => exact fun d hd => over_ok.2 hd
    | cons x l ih =>
      intro d hd
      rw [List.foldlM_cons]
      refine over_bind ?_ fun d' hd' => ih d' hd'
      cases hg : Dict.get? ctx (String.ofList (strip x)) with
      | none => exact over_ok.2 hd
      | some v => exact over_subVar (over_toList.2 (hc _ v hg).1) (hc _ v hg).2 hd
  exact this vars _ s hs

mutual
theorem over_evalVars {reprC : Val → String} {ctx : VDict} (hc : CleanContext A reprC ctx) : (v : Val) → Over A v → Over A (evalVars reprC ctx v)
  | .str s, h => by
    rw [evalVars]
    exact over_bind (over_evalStr hc (over_toList.2 (over_vstr.1 h))) fun r hr => over_pure.2 (over_txt.2 hr)
  | .list l, h => by
    rw [evalVars]
    exact over_bind (over_evalVarsL hc l (over_vlist.1 h)) fun r hr => over_pure.2 (over_vlist.2 hr)
  | .dict d, h => by
    rw [evalVars]
    exact over_bind (over_evalVarsD hc d (over_vdict.1 h)) fun r hr => over_pure.2 (over_vdict.2 hr)
  | .none, h => by rw [evalVars] <;> first | exact over_ok.2 h | (intros; contradiction)
  | .bool b, h => by rw [evalVars] <;> first | exact over_ok.2 h | (intros; contradiction)
  | .int i, h => by rw [evalVars] <;> first | exact over_ok.2 h | (intros; contradiction)
  termination_by structural v => v
theorem over_evalVarsL {reprC : Val → String} {ctx : VDict} (hc : CleanContext A reprC ctx) : (l : List Val) → Over A l → Over A (evalVarsL reprC ctx l)
  | [], _ => by rw [evalVarsL]; exact over_ok.2 over_nil
  | v :: r, h => by
    rw [evalVarsL]
    exact over_bind (over_evalVars hc v (over_cons.1 h).1) fun x hx => over_bind (over_evalVarsL hc r (over_cons.1 h).2) fun xs hxs => over_pure.2 (over_cons.2 ⟨hx, hxs⟩)
  termination_by structural l => l
theorem over_evalVarsD {reprC : Val → String} {ctx : VDict} (hc : CleanContext A reprC ctx) : (d : List (String × Val)) → Over A d → Over A (evalVarsD reprC ctx d)
  | [], _ => by rw [evalVarsD]; exact over_ok.2 over_nil
  | (k, v) :: r, h => by
    rw [evalVarsD]
    exact over_bind (over_evalVars hc v (over_cons.1 h).1.2) fun x hx => over_bind (over_evalVarsD hc r (over_cons.1 h).2) fun xs hxs =>
      over_pure.2 (over_cons.2 ⟨over_mk.2 ⟨(over_cons.1 h).1.1, hx⟩, hxs⟩)
  termination_by structural d => d
end

mutual
theorem wf_evalVars {reprC : Val → String} {ctx : VDict} : (v r : Val) → v.WF → evalVars reprC ctx v = .ok r → r.WF
  | .str s, r, _, h => by
    rw [evalVars] at h
    obtain ⟨t, _, h⟩ := bind_ok_iff.1 h
    cases h; exact .str _
  | .list l, r, hw, h => by
    rw [evalVars] at h
    obtain ⟨t, ht, h⟩ := bind_ok_iff.1 h
    cases h; exact .list _ (wf_evalVarsL l t (wf_list hw) ht)
  | .dict d, r, hw, h => by
    rw [evalVars] at h
    obtain ⟨t, ht, h⟩ := bind_ok_iff.1 h
    cases h
    obtain ⟨h1, h2⟩ := wf_evalVarsD d t (wf_items hw).2 ht
    exact .dict _ (h1 ▸ (wf_items hw).1) h2
  | .none, r, hw, h => by rw [evalVars] at h <;> first | (cases h; exact hw) | (intros; contradiction)
  | .bool b, r, hw, h => by rw [evalVars] at h <;> first | (cases h; exact hw) | (intros; contradiction)
  | .int i, r, hw, h => by rw [evalVars] at h <;> first | (cases h; exact hw) | (intros; contradiction)
  termination_by structural v => v
theorem wf_evalVarsL {reprC : Val → String} {ctx : VDict} : (l r : List Val) → (∀ v ∈ l, v.WF) → evalVarsL reprC ctx l = .ok r → ∀ v ∈ r, v.WF
  | [], r, _, h => by rw [evalVarsL] at h; cases h; exact fun _ h => nomatch h
  | v :: l, r, hw, h => by
    rw [evalVarsL] at h
    obtain ⟨x, hx, h⟩ := bind_ok_iff.1 h
    obtain ⟨xs, hxs, h⟩ := bind_ok_iff.1 h
    cases h
    intro w hm
    rcases List.mem_cons.1 hm with rfl | hm
    · exact wf_evalVars v _ (hw v List.mem_cons_self) hx
    · exact wf_evalVarsL l xs (fun y hy => hw y (List.mem_cons_of_mem _ hy)) hxs w hm
  termination_by structural l => l
theorem wf_evalVarsD {reprC : Val → String} {ctx : VDict} : (d r : List (String × Val)) → (∀ p ∈ d, p.2.WF) → evalVarsD reprC ctx d = .ok r →
    Dict.keys r = Dict.keys d ∧ ∀ p ∈ r, p.2.WF
  | [], r, _, h => by rw [evalVarsD] at h; cases h; exact ⟨rfl, fun _ h => nomatch h⟩
  | (k, v) :: d, r, hw, h => by
    rw [evalVarsD] at h
    obtain ⟨x, hx, h⟩ := bind_ok_iff.1 h
    obtain ⟨xs, hxs, h⟩ := bind_ok_iff.1 h
    cases h
    obtain ⟨h1, h2⟩ := wf_evalVarsD d xs (fun y hy => hw y (List.mem_cons_of_mem _ hy)) hxs
    refine ⟨by simp only [Dict.keys, List.map_cons] at h1 ⊢; rw [h1], fun w hm => ?_⟩
    rcases List.mem_cons.1 hm with rfl | hm
    · exact wf_evalVars v _ (hw (k, v) List.mem_cons_self) hx
    · exact h2 w hm
  termination_by structural d => d
end

/-! ## The constructor -/

/-- a configuration, or template, with unique keys, all texts of which are made of the characters in `A`, but for `files` -/
structure CleanTop (A : Char → Prop) (d : VDict) : Prop where
  wf : (Val.dict d).WF
  texts : ∀ k v, (k, v) ∈ d → k ≠ "files" → Over A k ∧ Over A v

theorem CleanTop.clean {d : VDict} (h : CleanTop A d) : CleanConfig A d := by
  intro k v hk hne
  obtain ⟨h1, h2⟩ := h.texts k v hk hne
  refine ⟨h1, ?_⟩
  split
  · intro l hl x hx
    subst hl
    have hw := (wf_items h.wf).2 _ hk
    have hxo := over_vdict.1 (over_vlist.1 h2 _ hx)
    exact ⟨(wf_items (wf_list hw _ hx)).1, fun p hp _ => hxo p hp, fun v hv => .inl (hxo _ (Dict.mem_of_get? hv)).2⟩
  · exact h2

theorem CleanTop.merge {sh : Val → Bool} {ids : List String} {c t r : VDict} (hc : CleanTop A c) (ht : CleanTop A t) (h : mergeConfig sh ids t c = .ok r) :
    CleanTop A r := by
  refine ⟨mergeKvs_wf ids c t r (wf_items hc.wf).2 ht.wf h, ?_⟩
  have : ∀ (c t : VDict), (∀ k v, (k, v) ∈ c → k ≠ "files" → Over A k ∧ Over A v) → (∀ k v, (k, v) ∈ t → k ≠ "files" → Over A k ∧ Over A v) →
      mergeKvs sh ids c t = .ok r → ∀ k v, (k, v) ∈ r → k ≠ "files" → Over A k ∧ Over A v := by
    intro c
    induction c with
    | nil => intro t _ ht h; rw [mergeKvs] at h; cases h; exact ht
    | cons p c ih =>
      obtain ⟨k, v⟩ := p
      intro t hc ht h
      rw [mergeKvs] at h
      obtain ⟨x, hx, h⟩ := bind_ok_iff.1 h
      refine ih _ (fun k v hk => hc k v (List.mem_cons_of_mem _ hk)) (fun k' v' hk' hne => ?_) h
      rcases mem_set_or hk' with hk' | e
      · exact ht k' v' hk' hne
      · cases e
        obtain ⟨h1, h2⟩ := hc k v List.mem_cons_self hne
        refine ⟨h1, mergeVal_over ids v _ h2 (fun y hy => (ht k y (Dict.mem_of_get? hy) hne).2) x hx⟩
  exact this c t hc.texts ht.texts h

theorem CleanTop.eval {reprC : Val → String} {ctx : Option VDict} (hx : ∀ c, ctx = some c → CleanContext A reprC c) {d r : VDict} (hd : CleanTop A d)
    (h : evaluateConfig reprC ctx d = .ok r) : CleanTop A r := by
  unfold evaluateConfig at h
  split at h
  · cases h; exact hd
  · cases h; exact hd
  · rename_i c _
    have hc := hx c rfl
    obtain ⟨h1, h2⟩ := wf_evalVarsD d r (wf_items hd.wf).2 h
    refine ⟨.dict _ (h1 ▸ (wf_items hd.wf).1) h2, ?_⟩
    have ht := hd.texts
    clear h1 h2 hd
    induction d generalizing r with
    | nil => rw [evalVarsD] at h; cases h; exact fun _ _ h => nomatch h
    | cons p d ih =>
      obtain ⟨k, v⟩ := p
      rw [evalVarsD] at h
      obtain ⟨x, hx, h⟩ := bind_ok_iff.1 h
      obtain ⟨xs, hxs, h⟩ := bind_ok_iff.1 h
      cases h
      intro k' v' hm hne
      rcases List.mem_cons.1 hm with e | hm
      · cases e
        obtain ⟨h1, h2⟩ := ht k v List.mem_cons_self hne
        exact ⟨h1, over_evalVars hc v h2 x hx⟩
      · exact ih hxs (fun k v hk => ht k v (List.mem_cons_of_mem _ hk)) k' v' hm hne

/-- C82: a configuration made by the constructor from clean configuration, templates and variables is clean. -/
theorem C82_constructed {cls : Class} {config : Arg} {templates : TemplatesArg} {native : Option Chars} {ctx : Option VDict} {st : BState}
    (hc : ∀ d, load cls config = .ok d → CleanTop A d) (ht : ∀ l t d, templates = .list l → t ∈ l → load cls t = .ok d → CleanTop A d)
    (hx : ∀ c, ctx = some c → CleanContext A cls.reprC c) (h : construct cls (some config) native templates ctx = .ok st) :
    st.inter = none ∧ CleanConfig A st.config := by
  unfold construct at h
  obtain ⟨c, h1, h⟩ := bind_ok_iff.1 h
  obtain ⟨m, h2, h⟩ := bind_ok_iff.1 h
  obtain ⟨e, h3, h⟩ := bind_ok_iff.1 h
  cases h
  refine ⟨rfl, (CleanTop.eval hx ?_ h3).clean⟩
  have hcc := hc c h1
  unfold mergeTemplates at h2
  split at h2
  · cases h2; exact hcc
  · cases h2
  · cases h2; exact hcc
  · rename_i l _ _
    have hl' : ∀ t ∈ l ++ [Arg.val (Val.dict c)], ∀ d, load cls t = .ok d → CleanTop A d := by
      intro t htm d hd
      rcases List.mem_append.1 htm with htm | htm
      · exact ht l t d rfl htm hd
      · rw [List.mem_singleton.1 htm] at hd; cases hd; exact hcc
    have : ∀ (l : List Arg) (acc : VDict), CleanTop A acc → (∀ t ∈ l, ∀ d, load cls t = .ok d → CleanTop A d) →
        l.foldlM (fun acc t => do let c ← load cls t; mergeConfig cls.sh cls.ids acc c) acc = .ok m → CleanTop A m := by
      intro l
      induction l with
      | nil => intro acc ha _ h; cases h; exact ha
      | cons t l ih =>
        intro acc ha hl h
        rw [List.foldlM_cons] at h
        obtain ⟨a, h4, h⟩ := bind_ok_iff.1 h
        obtain ⟨c', h5, h4⟩ := bind_ok_iff.1 h4
        exact ih a (CleanTop.merge (hl t List.mem_cons_self c' h5) ha h4) (fun t ht => hl t (List.mem_cons_of_mem _ ht)) h
    exact this _ [] ⟨.dict [] List.nodup_nil (fun _ h => nomatch h), fun _ _ h => nomatch h⟩ hl' h2

end

end NJ
