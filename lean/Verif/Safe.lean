import Verif.MergeLemmas2
import Verif.ConvLemmas

/-!
# No internal errors: the calculus, and merging

`Safe P x`: the computation ends with a value satisfying `P`, or raises a `ValidationError` and nothing else.
-/

namespace NJ

/-- the only exception is a `ValidationError`, and a value satisfies `P` -/
def Safe {α : Type} (P : α → Prop) : Except PyErr α → Prop
  | .ok a => P a
  | .error e => e = .validation

section
variable {α β : Type} {P : α → Prop} {Q : β → Prop}

theorem safe_ok {a : α} (h : P a) : Safe P (.ok a) := h
theorem safe_pure {a : α} (h : P a) : Safe P (pure a : Except PyErr α) := h

theorem safe_bind {x : Except PyErr β} {f : β → Except PyErr α} (h : Safe Q x) (hf : ∀ b, Q b → Safe P (f b)) : Safe P (x >>= f) := by
  cases x with
  | error e => exact h
  | ok b => exact hf b h

theorem safe_mono {P' : α → Prop} {x : Except PyErr α} (h : Safe P x) (hp : ∀ a, P a → P' a) : Safe P' x := by
  cases x with
  | error e => exact h
  | ok a => exact hp a h

theorem safe_mapM {l : List β} {f : β → Except PyErr α} (h : ∀ b ∈ l, Safe P (f b)) : Safe (fun r => ∀ a ∈ r, P a) (l.mapM f) := by
  induction l with
  | nil => exact fun a ha => nomatch ha
  | cons b bs ih =>
    rw [List.mapM_cons]
    refine safe_bind (h b List.mem_cons_self) fun x hx => ?_
    refine safe_bind (ih fun y hy => h y (List.mem_cons_of_mem _ hy)) fun r hr => ?_
    intro a ha
    rcases List.mem_cons.1 ha with rfl | ha
    · exact hx
    · exact hr a ha

theorem safe_foldlM {l : List β} {f : α → β → Except PyErr α} {a : α} (ha : P a) (h : ∀ a, P a → ∀ b ∈ l, Safe P (f a b)) :
    Safe P (l.foldlM f a) := by
  induction l generalizing a with
  | nil => exact ha
  | cons b bs ih =>
    rw [List.foldlM_cons]
    exact safe_bind (h a ha b List.mem_cons_self) fun x hx => ih hx fun y hy c hc => h y hy c (List.mem_cons_of_mem _ hc)

/-- from a success -/
theorem safe_elim {x : Except PyErr α} {a : α} (h : Safe P x) (hx : x = .ok a) : P a := by subst hx; exact h

theorem safe_error {x : Except PyErr α} {e : PyErr} (h : Safe P x) (hx : x = .error e) : e = .validation := by subst hx; exact h

end

/-! ## Shapes of values -/

/-- a text -/
def IsTxt (v : Val) : Prop := ∃ s, v = .str s
/-- a list whose elements satisfy `P` -/
def IsLst (P : Val → Prop) (v : Val) : Prop := ∃ l, v = .list l ∧ ∀ x ∈ l, P x
/-- an object satisfying `P` -/
def IsObj (P : VDict → Prop) (v : Val) : Prop := ∃ d, v = .dict d ∧ P d
/-- the key is there, with a value satisfying `P` -/
def Key (d : VDict) (k : String) (P : Val → Prop) : Prop := ∃ v, Dict.get? d k = some v ∧ P v
/-- if the key is there, its value satisfies `P` -/
def Opt (d : VDict) (k : String) (P : Val → Prop) : Prop := ∀ v, Dict.get? d k = some v → P v

/-- a section of a UCI package: its name is a text -/
def IsBlock (d : VDict) : Prop := (Dict.keys d).Nodup ∧ Key d ".name" IsTxt

/-- packages: lists of sections -/
def IsPkgs (inter : VDict) : Prop := ∀ p ∈ inter, IsLst (IsObj IsBlock) p.2

theorem safe_getKey {d : VDict} {k : String} {P : Val → Prop} (h : Key d k P) : Safe P (getKey d k) := by
  obtain ⟨v, hv, hp⟩ := h
  unfold getKey
  rw [hv]
  exact hp

theorem safe_popKey {d : VDict} {k : String} {P : Val → Prop} (h : Key d k P) :
    Safe (fun r => P r.1 ∧ r.2 = Dict.erase d k) (popKey d k) := by
  obtain ⟨v, hv, hp⟩ := h
  unfold popKey
  rw [hv]
  exact ⟨hp, rfl⟩

theorem safe_asText {v : Val} (h : IsTxt v) : Safe (fun t => v = txt t) (asText v) := by
  obtain ⟨s, rfl⟩ := h
  show Val.str s = txt s.toList
  simp [txt]

theorem safe_asDict {v : Val} {P : VDict → Prop} (h : IsObj P v) : Safe P (asDict v) := by
  obtain ⟨d, rfl, hd⟩ := h
  exact hd

theorem isTxt_txt (s : Chars) : IsTxt (txt s) := ⟨_, rfl⟩
theorem isTxt_str (s : String) : IsTxt (.str s) := ⟨_, rfl⟩

/-! ## Keys of changed dictionaries -/

theorem key_set {d : VDict} {k k' : String} {v : Val} {P : Val → Prop} (h : if k = k' then P v else Key d k' P) : Key (Dict.set d k v) k' P := by
  unfold Key
  rw [Dict.get?_set]
  split at h
  · rename_i e; rw [if_pos e]; exact ⟨v, rfl, h⟩
  · rename_i e; rw [if_neg e]; exact h

theorem key_set_self {d : VDict} {k : String} {v : Val} {P : Val → Prop} (h : P v) : Key (Dict.set d k v) k P :=
  key_set (by rw [if_pos rfl]; exact h)

theorem key_set_ne {d : VDict} {k k' : String} {v : Val} {P : Val → Prop} (hne : k ≠ k') (h : Key d k' P) : Key (Dict.set d k v) k' P :=
  key_set (by rw [if_neg hne]; exact h)

theorem key_erase {d : VDict} {k k' : String} {P : Val → Prop} (hne : k ≠ k') (h : Key d k' P) : Key (Dict.erase d k) k' P := by
  unfold Key
  rw [Dict.get?_erase, if_neg hne]
  exact h

theorem opt_set_ne {d : VDict} {k k' : String} {v : Val} {P : Val → Prop} (hne : k ≠ k') (h : Opt d k' P) : Opt (Dict.set d k v) k' P := by
  unfold Opt
  rw [Dict.get?_set, if_neg hne]
  exact h

theorem opt_erase {d : VDict} {k k' : String} {P : Val → Prop} (h : Opt d k' P) : Opt (Dict.erase d k) k' P := by
  unfold Opt
  intro v
  rw [Dict.get?_erase]
  split
  · intro h; cases h
  · exact h v

theorem key_of {d : VDict} {k : String} {P : Val → Prop} (h : Dict.has d k = true) (ho : Opt d k P) : Key d k P := by
  unfold Dict.has at h
  cases hv : Dict.get? d k with
  | none => rw [hv] at h; cases h
  | some v => exact ⟨v, hv, ho v hv⟩

theorem key_mono {d : VDict} {k : String} {P Q : Val → Prop} (h : Key d k P) (hp : ∀ v, P v → Q v) : Key d k Q := by
  obtain ⟨v, hv, h⟩ := h
  exact ⟨v, hv, hp v h⟩

theorem opt_of_key {d : VDict} {k : String} {P : Val → Prop} (h : Key d k P) : Opt d k P := by
  obtain ⟨v, hv, h⟩ := h
  intro w hw
  rw [hv] at hw
  cases hw
  exact h

/-- a key set by an update keeps being there -/
theorem key_update {d e : VDict} {k : String} {P : Val → Prop} (h : Key d k P) (he : ∀ p ∈ e, p.1 = k → P p.2) : Key (Dict.update d e) k P := by
  induction e generalizing d with
  | nil => exact h
  | cons p r ih =>
    refine ih (key_set ?_) fun q hq => he q (List.mem_cons_of_mem _ hq)
    split
    · rename_i e; exact he p List.mem_cons_self e
    · exact h

theorem key_update_new {d e : VDict} {k : String} {P : Val → Prop} (hk : k ∈ Dict.keys e) (he : ∀ p ∈ e, p.1 = k → P p.2) :
    Key (Dict.update d e) k P := by
  induction e generalizing d with
  | nil => cases hk
  | cons p r ih =>
    by_cases hp : p.1 = k
    · show Key (Dict.update (Dict.set d p.1 p.2) r) k P
      exact key_update (key_set (by rw [if_pos hp]; exact he p List.mem_cons_self hp)) fun q hq => he q (List.mem_cons_of_mem _ hq)
    · refine ih ?_ fun q hq => he q (List.mem_cons_of_mem _ hq)
      simp only [Dict.keys, List.map_cons, List.mem_cons] at hk
      rcases hk with h | h
      · exact absurd h.symm hp
      · exact h

theorem opt_update {d e : VDict} {k : String} {P : Val → Prop} (h : Opt d k P) (he : ∀ p ∈ e, p.1 = k → P p.2) : Opt (Dict.update d e) k P := by
  induction e generalizing d with
  | nil => exact h
  | cons p r ih =>
    refine ih ?_ fun q hq => he q (List.mem_cons_of_mem _ hq)
    intro v
    rw [Dict.get?_set]
    split
    · rename_i e; intro h; cases h; exact he p List.mem_cons_self e
    · exact h v

theorem block_sorted {d : VDict} (h : IsBlock d) : IsBlock (sortedDict d) := by
  refine ⟨sortedDict_nodup h.1, ?_⟩
  unfold Key
  rw [get?_sortedDict h.1]
  exact h.2

/-- a section made by setting its type and name last -/
theorem block_update {d e : VDict} (h : (Dict.keys d).Nodup) (hk : ".name" ∈ Dict.keys e) (he : ∀ p ∈ e, p.1 = ".name" → IsTxt p.2) :
    IsBlock (Dict.update d e) := ⟨Dict.nodup_update h e, key_update_new hk he⟩

theorem block_set {d : VDict} {k : String} {v : Val} (h : IsBlock d) (hk : k ≠ ".name") : IsBlock (Dict.set d k v) :=
  ⟨Dict.nodup_set h.1 _ _, key_set_ne hk h.2⟩

theorem block_erase {d : VDict} {k : String} (h : IsBlock d) (hk : k ≠ ".name") : IsBlock (Dict.erase d k) :=
  ⟨Dict.nodup_erase h.1 _, key_erase hk h.2⟩

theorem block_update' {d e : VDict} (h : IsBlock d) (he : ∀ p ∈ e, p.1 = ".name" → IsTxt p.2) : IsBlock (Dict.update d e) :=
  ⟨Dict.nodup_update h.1 e, key_update h.2 he⟩

theorem pkgs_nil : IsPkgs [] := fun _ hp => nomatch hp

theorem mem_set {κ α : Type} [DecidableEq κ] {d : Dict κ α} {k : κ} {v : α} {p : κ × α} (h : p ∈ Dict.set d k v) : p.2 = v ∨ p ∈ d := by
  induction d with
  | nil => simp only [Dict.set, List.mem_singleton] at h; left; rw [h]
  | cons q r ih =>
    simp only [Dict.set] at h
    split at h
    · rcases List.mem_cons.1 h with rfl | h
      · left; rfl
      · right; exact List.mem_cons_of_mem _ h
    · rcases List.mem_cons.1 h with rfl | h
      · right; exact List.mem_cons_self
      · rcases ih h with h | h
        · left; exact h
        · right; exact List.mem_cons_of_mem _ h

theorem pkgs_set {inter : VDict} {k : String} {l : List Val} (h : IsPkgs inter) (hl : ∀ v ∈ l, IsObj IsBlock v) :
    IsPkgs (Dict.set inter k (.list l)) := by
  intro p hp
  rcases mem_set hp with e | hp
  · rw [e]; exact ⟨l, rfl, hl⟩
  · exact h p hp

theorem pkgs_get {inter : VDict} {k : String} {v : Val} (h : IsPkgs inter) (hk : Dict.get? inter k = some v) : IsLst (IsObj IsBlock) v :=
  h _ (Dict.mem_of_get? hk)

theorem pkgs_append {inter : VDict} {k : String} {l : List Val} (h : IsPkgs inter) (hl : ∀ v ∈ l, IsObj IsBlock v) :
    IsPkgs (appendTo inter k l) := by
  unfold appendTo
  split
  · rename_i t ht
    obtain ⟨t', e, ht'⟩ := pkgs_get h ht
    cases e
    refine pkgs_set h fun v hv => ?_
    rcases List.mem_append.1 hv with hv | hv
    · exact ht' v hv
    · exact hl v hv
  · exact pkgs_set h hl

theorem obj_block {d : VDict} (h : IsBlock d) : ∀ v ∈ [Val.dict d], IsObj IsBlock v := by
  intro v hv
  rw [List.mem_singleton] at hv
  subst hv
  exact ⟨d, rfl, h⟩

/-! ## Merging -/

theorem container1_safe {sh ids} {P : Val → Prop} {l : List Val} (hl : ∀ v ∈ l, elemHashable ids v = true ∧ P v) (i : Nat)
    {acc : Dict LKey Val} (ha : ∀ p ∈ acc, P p.2) : Safe (fun r => ∀ p ∈ r, P p.2) (container1 sh ids i acc l) := by
  induction l generalizing i acc with
  | nil => exact ha
  | cons v r ih =>
    rw [container1]
    obtain ⟨k, hk⟩ := elemHashable_ok (sh := sh) (side := 1) (i := i) (hl v List.mem_cons_self).1
    rw [hk]
    refine ih (fun w hw => hl w (List.mem_cons_of_mem _ hw)) (i + 1) fun p hp => ?_
    rcases mem_set hp with e | hp
    · rw [e]; exact (hl v List.mem_cons_self).2
    · exact ha p hp

theorem container2_safe {sh ids c1} {M : Mergeable → Prop} {l : List Mergeable} (hl : ∀ m ∈ l, elemHashable ids m.1 = true ∧ M m) (i : Nat)
    {acc : Dict LKey Mergeable} (ha : ∀ p ∈ acc, M p.2) : Safe (fun r => ∀ p ∈ r, M p.2) (container2 sh ids c1 i acc l) := by
  induction l generalizing i acc with
  | nil => exact ha
  | cons v r ih =>
    rw [container2]
    split
    · exact ih (fun w hw => hl w (List.mem_cons_of_mem _ hw)) (i + 1) ha
    · obtain ⟨k, hk⟩ := elemHashable_ok (sh := sh) (side := 2) (i := i) (hl v List.mem_cons_self).1
      rw [hk]
      refine ih (fun w hw => hl w (List.mem_cons_of_mem _ hw)) (i + 1) fun p hp => ?_
      rcases mem_set hp with e | hp
      · rw [e]; exact (hl v List.mem_cons_self).2
      · exact ha p hp

theorem mergeContainers_safe {P : Val → Prop} {c : Dict LKey Mergeable}
    (hc : ∀ p ∈ c, ∀ e, (∀ x, e = some x → P x) → Safe P (p.2.2 e)) {acc : Dict LKey Val} (ha : ∀ p ∈ acc, P p.2) :
    Safe (fun r => ∀ p ∈ r, P p.2) (mergeContainers acc c) := by
  induction c generalizing acc with
  | nil => exact ha
  | cons q r ih =>
    obtain ⟨k, m⟩ := q
    rw [mergeContainers]
    refine safe_bind (hc _ List.mem_cons_self (Dict.get? acc k) fun x hx => ha _ (Dict.mem_of_get? hx)) fun v hv => ?_
    refine ih (fun p hp => hc p (List.mem_cons_of_mem _ hp)) fun p hp => ?_
    rcases mem_set hp with e | hp
    · rw [e]; exact hv
    · exact ha p hp

theorem mergeListWith_safe {sh ids} {P : Val → Prop} {t l : List Val} (ht : ∀ v ∈ t, elemHashable ids v = true ∧ P v)
    (hl : ∀ v ∈ l, elemHashable ids v = true) (hm : ∀ v ∈ l, ∀ e, (∀ x, e = some x → P x) → Safe P (mergeVal sh [] v e)) :
    Safe (fun r => ∀ v ∈ r, P v) (mergeListWith sh ids t (closures sh l)) := by
  unfold mergeListWith
  refine safe_bind (container1_safe (P := P) ht 0 (fun p hp => nomatch hp)) fun c1 h1 => ?_
  refine safe_bind (container2_safe (M := fun m => ∀ e, (∀ x, e = some x → P x) → Safe P (m.2 e)) ?_ 0 (fun p hp => nomatch hp)) fun c2 h2 => ?_
  · intro m hmem
    rw [closures_eq, List.mem_map] at hmem
    obtain ⟨v, hv, rfl⟩ := hmem
    exact ⟨hl v hv, hm v hv⟩
  · refine safe_bind (mergeContainers_safe h2 h1) fun r hr => ?_
    intro v hv
    simp only [Dict.values, List.mem_map] at hv
    obtain ⟨p, hp, rfl⟩ := hv
    exact hr p hp

/-- merging without identifiers raises nothing but `ValidationError` -/
theorem mergeVal_safe (sh : Val → Bool) (c : Val) (e : Option Val) : Safe (fun _ => True) (mergeVal sh [] c e) := by
  induction c using Val.induct generalizing e with
  | hl l ih =>
    cases e with
    | none => rw [mergeVal_none]; trivial
    | some w =>
      cases w with
      | list t =>
        rw [mergeVal]
        refine safe_bind (mergeListWith_safe (P := fun _ => True) (fun v _ => ⟨elemHashable_nil v, trivial⟩) (fun v _ => elemHashable_nil v)
          fun v hv e _ => ih v hv e) fun r _ => trivial
      | dict t => rw [mergeVal]; rfl
      | _ => rw [mergeVal_existing_scalar _ rfl]; trivial
  | hd d ih =>
    cases e with
    | none => rw [mergeVal_none]; trivial
    | some w =>
      cases w with
      | dict t =>
        rw [mergeVal]
        refine safe_bind (Q := fun _ => True) ?_ fun r _ => trivial
        induction d generalizing t with
        | nil => trivial
        | cons p r ihr =>
          obtain ⟨k, v⟩ := p
          rw [mergeKvs]
          refine safe_bind (ih _ List.mem_cons_self _) fun x _ => ihr (fun q hq => ih q (List.mem_cons_of_mem _ hq)) _
      | list t => rw [mergeVal]; rfl
      | _ => rw [mergeVal_existing_scalar _ rfl]; trivial
  | _ => rw [mergeVal_scalar rfl]; trivial

/-- merging a section into a section gives a section -/
theorem mergeBlock_safe (sh : Val → Bool) {c : Val} (hc : IsObj IsBlock c) {e : Option Val} (he : ∀ x, e = some x → IsObj IsBlock x) :
    Safe (IsObj IsBlock) (mergeVal sh [] c e) := by
  cases hr : mergeVal sh [] c e with
  | error x => exact safe_error (mergeVal_safe sh c e) hr
  | ok r =>
    cases e with
    | none => rw [mergeVal_none] at hr; cases hr; exact hc
    | some t =>
      obtain ⟨d, rfl, hd⟩ := hc
      obtain ⟨t, rfl, ht⟩ := he t rfl
      rw [mergeVal_dict_dict] at hr
      obtain ⟨m, hm, rfl⟩ := hr
      refine ⟨m, rfl, mergeKvs_nodup ht.1 hm, ?_⟩
      obtain ⟨n, hn, htx⟩ := hd.2
      obtain ⟨x, hx, hg⟩ := mergeKvs_get?_mem hd.1 hm hn
      obtain ⟨s, rfl⟩ := htx
      rw [mergeVal_scalar rfl] at hx
      cases hx
      exact ⟨_, hg, s, rfl⟩

theorem block_hashable {v : Val} (h : IsObj IsBlock v) (more : List String) : elemHashable (".name" :: more) v = true := by
  obtain ⟨d, rfl, -, n, hn, s, rfl⟩ := h
  simp [elemHashable, identValue, hn, hashKey, scalarKey, Except.toOption]

/-- merging lists of sections by name gives a list of sections -/
theorem mergeBlocks_safe (sh : Val → Bool) (more : List String) {t l : List Val} (ht : ∀ v ∈ t, IsObj IsBlock v) (hl : ∀ v ∈ l, IsObj IsBlock v) :
    Safe (fun r => ∀ v ∈ r, IsObj IsBlock v) (mergeList sh (".name" :: more) t l) :=
  mergeListWith_safe (fun v hv => ⟨block_hashable (ht v hv) more, ht v hv⟩) (fun v hv => block_hashable (hl v hv) more)
    fun v hv _ he => mergeBlock_safe sh (hl v hv) he

/-- merging packages gives packages -/
theorem mergePkgs_safe (sh : Val → Bool) {inter value : VDict} (hi : IsPkgs inter) (hv : IsPkgs value) :
    Safe IsPkgs (mergeConfig sh [".name"] inter value) := by
  unfold mergeConfig
  induction value generalizing inter with
  | nil => exact hi
  | cons p r ih =>
    obtain ⟨k, v⟩ := p
    obtain ⟨l, rfl, hl⟩ := hv _ List.mem_cons_self
    rw [mergeKvs]
    refine safe_bind (Q := IsLst (IsObj IsBlock)) ?_ fun x hx => ih ?_ fun q hq => hv q (List.mem_cons_of_mem _ hq)
    · cases hg : Dict.get? inter k with
      | none => rw [mergeVal_none]; exact ⟨l, rfl, hl⟩
      | some w =>
        obtain ⟨t, rfl, ht⟩ := pkgs_get hi hg
        rw [mergeVal]
        exact safe_bind (mergeBlocks_safe sh [] ht hl) fun r hr => ⟨r, rfl, hr⟩
    · obtain ⟨l', rfl, hl'⟩ := hx
      exact pkgs_set hi hl'

end NJ
