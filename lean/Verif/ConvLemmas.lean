import Verif.PropsUciRound
import Verif.Conv

/-!
# Lemmas for the converters: dictionaries, what UCI text keeps of a block, type casts
-/

namespace NJ

/-! ## Dictionaries -/

namespace Dict
variable {κ α : Type} [DecidableEq κ]

theorem get?_perm {a b : Dict κ α} (ha : (keys a).Nodup) (h : a.Perm b) (k : κ) : get? a k = get? b k := by
  have hb : (keys b).Nodup := (h.map Prod.fst).nodup_iff.1 ha
  cases hk : get? b k with
  | none =>
    rw [get?_eq_none_iff] at hk ⊢
    intro hm
    exact hk ((h.map Prod.fst).mem_iff.1 hm)
  | some v => exact get?_of_mem ha (h.mem_iff.2 (mem_of_get? hk))

theorem nodup_update {d : Dict κ α} (h : (keys d).Nodup) (e : Dict κ α) : (keys (update d e)).Nodup := by
  unfold update
  induction e generalizing d with
  | nil => exact h
  | cons p r ih => exact ih (nodup_set h p.1 p.2)

theorem update_nil (d : Dict κ α) : update d [] = d := rfl
theorem update_cons (d : Dict κ α) (k : κ) (v : α) (r : Dict κ α) : update d ((k, v) :: r) = update (set d k v) r := rfl

theorem get?_some_iff {d : Dict κ α} (h : (keys d).Nodup) {k : κ} {v : α} : get? d k = some v ↔ (k, v) ∈ d :=
  ⟨mem_of_get?, get?_of_mem h⟩

/-- `get?_set` with the key asked for on the left of the test -/
theorem get?_set' (d : Dict κ α) (k k' : κ) (v : α) : get? (set d k v) k' = if k' = k then some v else get? d k' := by
  rw [get?_set]
  by_cases h : k = k'
  · subst h; simp
  · rw [if_neg h, if_neg (fun e => h e.symm)]

theorem get?_erase' (d : Dict κ α) (k k' : κ) : get? (erase d k) k' = if k' = k then none else get? d k' := by
  rw [get?_erase]
  by_cases h : k = k'
  · subst h; simp
  · rw [if_neg h, if_neg (fun e => h e.symm)]

theorem has_eq (d : Dict κ α) (k : κ) : has d k = (get? d k).isSome := rfl

theorem erase_set_comm (d : Dict κ α) {k k' : κ} (h : k ≠ k') (v : α) : erase (set d k v) k' = set (erase d k') k v := by
  unfold erase
  induction d with
  | nil => simp [set, h]
  | cons p r ih =>
    obtain ⟨k2, w⟩ := p
    by_cases e : k2 = k
    · subst e; simp [set, h]
    · by_cases e2 : k2 = k'
      · subst e2; simpa [set, e] using ih
      · simpa [set, e, e2] using ih

omit [DecidableEq κ] in
theorem mem_keys {d : Dict κ α} {p : κ × α} (h : p ∈ d) : p.1 ∈ keys d := List.mem_map.2 ⟨p, h, rfl⟩

theorem get?_map_val {β : Type} (d : Dict κ α) (f : κ × α → β) (k : κ) :
    get? (d.map (fun p => (p.1, f p))) k = (get? d k).map (fun v => f (k, v)) := by
  induction d with
  | nil => rfl
  | cons p r ih =>
    obtain ⟨k2, v⟩ := p
    simp only [List.map_cons, get?_cons, ih]
    split
    · next h => subst h; rfl
    · rfl

end Dict

/-- two dictionaries with the same items -/
def SameItems (a b : VDict) : Prop := ∀ k, Dict.get? a k = Dict.get? b k

/-- the same, for values -/
def SameDict (a b : Val) : Prop := ∃ x y, a = .dict x ∧ b = .dict y ∧ SameItems x y

theorem sortedDict_nodup {d : VDict} (h : (Dict.keys d).Nodup) : (Dict.keys (sortedDict d)).Nodup :=
  ((C33_sorting_keeps d).map Prod.fst).nodup_iff.2 h

theorem get?_sortedDict {d : VDict} (h : (Dict.keys d).Nodup) (k : String) : Dict.get? (sortedDict d) k = Dict.get? d k :=
  Dict.get?_perm (sortedDict_nodup h) (C33_sorting_keeps d) k

theorem popKey_ok {d : VDict} {k : String} {v : Val} (h : Dict.get? d k = some v) : popKey d k = .ok (v, Dict.erase d k) := by
  unfold popKey; rw [h]

theorem getKey_ok {d : VDict} {k : String} {v : Val} (h : Dict.get? d k = some v) : getKey d k = .ok v := by
  unfold getKey; rw [h]

/-! ## What UCI text keeps of a block -/

/-- text that UCI text can hold: no line break, no quotes, no four blanks in a row -/
def PlainText (s : Chars) : Prop := (∀ c ∈ s, c ≠ '\n' ∧ c ≠ '\'' ∧ c ≠ '"') ∧ ¬ [' ', ' ', ' ', ' '] <:+: s

instance (s : Chars) : Decidable (PlainText s) := inferInstanceAs (Decidable (_ ∧ _))

/-- values UCI text can hold -/
def PlainVal : Val → Prop
  | .str s => PlainText s.toList
  | .list l => ∀ v ∈ l, ∃ s, v = .str s ∧ PlainText s.toList
  | .dict _ => False
  | _ => True

/-- a value as it is read back from UCI text: nothing is left of `''`, `None` and `[]`; numbers and booleans become text -/
def readVal : Val → Option Val
  | .none => none
  | .str s => if s = "" then none else some (.str s)
  | .int i => some (.str (String.ofList (showInt i)))
  | .bool b => some (.str (if b then "1" else "0"))
  | .list [] => none
  | .list l => some (.list l)
  | .dict d => some (.dict d)

/-- a block with a type, a name, and options that UCI text can hold -/
structure PlainBlock (b : VDict) : Prop where
  nodup : (Dict.keys b).Nodup
  type : ∃ t, Dict.get? b ".type" = some (.str t) ∧ IsWord t.toList ∧ t ≠ "device" ∧ t ≠ "bridge-vlan"
  name : ∃ n, Dict.get? b ".name" = some (.str n) ∧ IsWord n.toList
  options : ∀ k v, Dict.get? b k = some v → k ≠ ".type" → k ≠ ".name" → IsWord k.toList ∧ k.toList.head? ≠ some '.' ∧ PlainVal v

/-- the same, maybe of a device -/
structure PlainData (b : VDict) : Prop where
  nodup : (Dict.keys b).Nodup
  type : ∃ t, Dict.get? b ".type" = some (.str t) ∧ IsWord t.toList
  name : ∃ n, Dict.get? b ".name" = some (.str n) ∧ IsWord n.toList
  options : ∀ k v, Dict.get? b k = some v → k ≠ ".type" → k ≠ ".name" → IsWord k.toList ∧ k.toList.head? ≠ some '.' ∧ PlainVal v

theorem PlainBlock.data {b : VDict} (h : PlainBlock b) : PlainData b := by
  obtain ⟨t, h1, h2, _⟩ := h.type
  exact ⟨h.nodup, ⟨t, h1, h2⟩, h.name, h.options⟩

theorem noBlanks_sep {a b : Chars} {c : Char} (hc : c ≠ ' ') (ha : ¬ [' ', ' ', ' ', ' '] <:+: a) (hb : ¬ [' ', ' ', ' ', ' '] <:+: b) :
    ¬ [' ', ' ', ' ', ' '] <:+: a ++ c :: b := by
  rintro ⟨s, t, h⟩
  rw [List.append_assoc] at h
  rcases List.append_eq_append_iff.1 h with ⟨u, h1, h2⟩ | ⟨u, h1, h2⟩
  · -- a = s ++ u, sp4 ++ t = u ++ c :: b
    have : [' ', ' ', ' ', ' '] <+: u := by
      match u, h2 with
      | [], h2 => simp at h2; exact absurd h2.1.symm hc
      | [x], h2 => simp at h2; exact absurd h2.2.1.symm hc
      | [x, y], h2 => simp at h2; exact absurd h2.2.2.1.symm hc
      | [x, y, z], h2 => simp at h2; exact absurd h2.2.2.2.1.symm hc
      | x :: y :: z :: w :: r, h2 =>
        simp at h2
        obtain ⟨rfl, rfl, rfl, rfl, _⟩ := h2
        exact ⟨r, rfl⟩
    apply ha
    rw [h1]
    obtain ⟨r, hr⟩ := this
    exact ⟨s, r, by rw [List.append_assoc, hr]⟩
  · -- s = a ++ u, c :: b = u ++ sp4 ++ t
    cases u with
    | nil => simp at h2; exact hc h2.1
    | cons x u =>
      simp only [List.cons_append, List.cons.injEq] at h2
      exact hb ⟨u, t, by rw [List.append_assoc]; exact h2.2.symm⟩

theorem noBlanks_word {s : Chars} (h : IsWord s) : ¬ [' ', ' ', ' ', ' '] <:+: s := by
  intro hi
  have : ' ' ∈ s := hi.subset (by simp)
  exact absurd (h.2 ' ' this).1 (by decide)

theorem word_nonl {s : Chars} (h : IsWord s) : '\n' ∉ s := fun hm => absurd (h.2 _ hm).1 (by decide)

/-- a keyword, a word, and a quoted text make a clean line -/
theorem cleanLine_stmt {kw k v : Chars} (hkw : ' ' ∉ kw ∧ '\n' ∉ kw) (hk : IsWord k) (hv : PlainText v) :
    CleanLine (kw ++ [' '] ++ k ++ [' ', '\''] ++ v ++ ['\'']) := by
  refine ⟨?_, ?_⟩
  · have h1 := word_nonl hk
    have h2 : '\n' ∉ v := fun h => (hv.1 _ h).1 rfl
    simp [hkw.2, h1, h2]
  · obtain ⟨x, xs, hx⟩ : ∃ x xs, k = x :: xs := by
      cases k with
      | nil => exact absurd rfl hk.1
      | cons x xs => exact ⟨x, xs, rfl⟩
    have hxs : x ≠ ' ' := by
      rintro rfl
      have := (hk.2 ' ' (by simp [hx])).1
      exact absurd this (by decide)
    have ha : ¬ [' ', ' ', ' ', ' '] <:+: kw ++ [' '] := by
      rintro ⟨s, t, h⟩
      have hlen := congrArg (List.count ' ') h
      simp only [List.count_append, List.count_eq_zero_of_not_mem hkw.1] at hlen
      have : List.count ' ' [' ', ' ', ' ', ' '] = 4 := by decide
      have h1 : List.count ' ' [' '] = 1 := by decide
      omega
    have hk2 : ¬ [' ', ' ', ' ', ' '] <:+: xs ++ [' '] := by
      rintro ⟨s, t, h⟩
      have hn : ' ' ∉ xs := by
        intro hm
        have := (hk.2 ' ' (by simp [hx, hm])).1
        exact absurd this (by decide)
      have hlen := congrArg (List.count ' ') h
      simp only [List.count_append, List.count_eq_zero_of_not_mem hn] at hlen
      have : List.count ' ' [' ', ' ', ' ', ' '] = 4 := by decide
      have h1 : List.count ' ' [' '] = 1 := by decide
      omega
    have e : kw ++ [' '] ++ k ++ [' ', '\''] ++ v ++ ['\''] = (kw ++ [' ']) ++ x :: ((xs ++ [' ']) ++ '\'' :: (v ++ '\'' :: [])) := by
      simp [hx]
    rw [e]
    refine noBlanks_sep hxs ha (noBlanks_sep (by decide) hk2 (noBlanks_sep (by decide) hv.2 (by decide)))

theorem digit_plain {s : Chars} (h : ∀ c ∈ s, isDigit c = true ∨ c = '-') : PlainText s := by
  have hd : ∀ c, isDigit c = true ∨ c = '-' → c ≠ '\n' ∧ c ≠ '\'' ∧ c ≠ '"' ∧ c ≠ ' ' := by
    intro c hc
    rcases hc with hc | hc
    · refine ⟨?_, ?_, ?_, ?_⟩ <;> (rintro rfl; exact absurd hc (by decide))
    · subst hc; decide
  refine ⟨fun c hc => ?_, fun hi => ?_⟩
  · obtain ⟨h1, h2, h3, _⟩ := hd c (h c hc); exact ⟨h1, h2, h3⟩
  · exact (hd ' ' (h ' ' (hi.subset (by simp)))).2.2.2 rfl

theorem showInt_plain (i : Int) : PlainText (showInt i) := by
  apply digit_plain
  intro c hc
  cases i with
  | ofNat n => exact .inl (showNat_digits n c hc)
  | negSucc n =>
    rcases List.mem_cons.1 hc with rfl | hc
    · exact .inr rfl
    · exact .inl (showNat_digits _ c hc)

theorem valueTexts_plain {reprC : Val → String} {v : Val} (h : PlainVal v) (hn : v ≠ .none) : ∀ t ∈ valueTexts reprC v, PlainText t.toList := by
  cases v with
  | none => exact absurd rfl hn
  | bool b => cases b <;> simp [valueTexts] <;> decide
  | int i => simp [valueTexts, pyStr]; exact showInt_plain i
  | str s => simp only [valueTexts, pyStr, List.mem_singleton, forall_eq]; exact h
  | list l =>
    simp only [valueTexts, List.mem_map]
    rintro t ⟨v, hv, rfl⟩
    obtain ⟨s, rfl, hs⟩ := h v hv
    exact hs
  | dict d => exact absurd h (by simp [PlainVal])

theorem optionLines_clean {reprC : Val → String} {k : String} {v : Val} (hk : IsWord k.toList) (h : PlainVal v) (hn : v ≠ .none) :
    ∀ l ∈ optionLines reprC (k, v), CleanLine l := by
  intro l hl
  rw [optionLines_eq] at hl
  obtain ⟨l', hl', rfl⟩ := List.mem_map.1 hl
  rw [cleanLine_tab]
  have hv := valueTexts_plain (reprC := reprC) h hn
  have ho : ' ' ∉ kwOption ∧ '\n' ∉ kwOption := by decide
  have hli : ' ' ∉ kwList ∧ '\n' ∉ kwList := by decide
  cases v with
  | none => exact absurd rfl hn
  | bool b =>
    simp only [flatOption, List.mem_singleton] at hl'
    subst hl'
    exact cleanLine_stmt ho hk (by cases b <;> decide)
  | int i =>
    simp only [flatOption, List.mem_singleton] at hl'
    subst hl'
    exact cleanLine_stmt ho hk (hv _ (by simp [valueTexts]))
  | str s =>
    simp only [flatOption, List.mem_singleton] at hl'
    subst hl'
    exact cleanLine_stmt ho hk (hv _ (by simp [valueTexts]))
  | list x =>
    simp only [flatOption, List.mem_map] at hl'
    obtain ⟨y, hy, rfl⟩ := hl'
    exact cleanLine_stmt hli hk (hv _ (by simp only [valueTexts, List.mem_map]; exact ⟨y, hy, rfl⟩))
  | dict d => exact absurd h (by simp [PlainVal])

theorem isWord_plain {s : Chars} (h : IsWord s) : PlainText s :=
  ⟨fun c hc => ⟨fun e => word_nonl h (e ▸ hc), (h.2 c hc).2⟩, noBlanks_word h⟩

theorem shown_mem {b : VDict} {p : String × Val} (h : p ∈ shownOptions b) : p ∈ b ∧ p.2 ≠ .str "" ∧ p.2 ≠ .none ∧ p.1.toList.head? ≠ some '.' := by
  have := List.mem_filter.1 h
  simpa using this

theorem PlainData.opt {b : VDict} (h : PlainData b) {p : String × Val} (hp : p ∈ shownOptions b) :
    IsWord p.1.toList ∧ PlainVal p.2 ∧ p.2 ≠ .none := by
  obtain ⟨hm, h1, h2, h3⟩ := shown_mem hp
  have := h.options p.1 p.2 (Dict.get?_of_mem h.nodup hm) (fun e => h3 (by rw [e]; decide)) (fun e => h3 (by rw [e]; decide))
  exact ⟨this.1, this.2.2, h2⟩

theorem PlainBlock.opt {b : VDict} (h : PlainBlock b) {p : String × Val} (hp : p ∈ shownOptions b) :
    IsWord p.1.toList ∧ PlainVal p.2 ∧ p.2 ≠ .none := h.data.opt hp

theorem PlainBlock.field {b : VDict} {k t : String} (reprC : Val → String) (h : Dict.get? b k = some (.str t)) : fieldText reprC b k = t.toList := by
  unfold fieldText; rw [h]; rfl

theorem PlainData.round {b : VDict} (reprC : Val → String) (h : PlainData b) : DataBlock reprC b := by
  obtain ⟨t, ht, ht1⟩ := h.type
  obtain ⟨n, hn, hn1⟩ := h.name
  refine ⟨?_, ?_, ?_, ?_, ?_⟩
  · rw [PlainBlock.field reprC ht]; exact ht1
  · rw [PlainBlock.field reprC hn]; exact hn1
  · exact h.nodup.sublist (List.Sublist.map _ List.filter_sublist)
  · exact fun p hp => (h.opt hp).1
  · intro p hp t ht c hc
    exact (valueTexts_plain (h.opt hp).2.1 (h.opt hp).2.2 t ht).1 c hc

theorem PlainBlock.round {b : VDict} (reprC : Val → String) (h : PlainBlock b) : RoundBlock reprC b := by
  obtain ⟨t, ht, ht1, ht2, ht3⟩ := h.type
  refine ⟨h.data.round reprC, ?_⟩
  rw [PlainBlock.field reprC ht]
  exact ⟨fun e => ht2 (String.ext e), fun e => ht3 (String.ext e)⟩

theorem PlainData.clean {b : VDict} (reprC : Val → String) (h : PlainData b) : ∀ l ∈ blockLines reprC b, CleanLine l := by
  obtain ⟨t, ht, ht1⟩ := h.type
  obtain ⟨n, hn, hn1⟩ := h.name
  intro l hl
  rcases List.mem_cons.1 hl with rfl | hl
  · rw [PlainBlock.field reprC ht, PlainBlock.field reprC hn]
    have := cleanLine_stmt (kw := kwConfig) (by decide) ht1 (isWord_plain hn1)
    obtain ⟨e1, _, e3, e4⟩ := kw_lines
    rw [e1, e3, e4]; exact this
  · obtain ⟨p, hp, hl⟩ := List.mem_flatMap.1 hl
    exact optionLines_clean (h.opt hp).1 (h.opt hp).2.1 (h.opt hp).2.2 l hl

/-- packages of plain blocks survive as text -/
theorem plain_data (reprC : Val → String) (data : List (String × List VDict)) (hn : (data.map Prod.fst).Nodup)
    (hw : ∀ p ∈ data, IsWord p.1.toList) (hb : ∀ p ∈ data, ∀ b ∈ p.2, PlainData b) : DataUci reprC data := by
  refine ⟨?_, hn, ?_, ?_⟩
  · intro p hp l hl
    rcases List.mem_cons.1 hl with rfl | hl
    · rw [kw_lines.2.1]
      refine ⟨?_, ?_⟩
      · have := word_nonl (hw p hp)
        have h2 : '\n' ∉ kwPackage := by decide
        simp [this, h2]
      · obtain ⟨x, xs, hx⟩ : ∃ x xs, p.1.toList = x :: xs := by
          cases h : p.1.toList with
          | nil => exact absurd h (hw p hp).1
          | cons x xs => exact ⟨x, xs, rfl⟩
        have hwp := hw p hp
        rw [hx] at hwp ⊢
        have hkp : ¬ [' ', ' ', ' ', ' '] <:+: kwPackage ++ [' '] := by decide +kernel
        refine noBlanks_sep (a := kwPackage ++ [' ']) (c := x) (b := xs) ?_ hkp ?_
        · rintro rfl; exact absurd (hwp.2 ' ' (by simp)).1 (by decide)
        · intro hi
          have : ' ' ∈ xs := hi.subset (by simp)
          exact absurd (hwp.2 ' ' (by simp [this])).1 (by decide)
    · rcases List.mem_cons.1 hl with rfl | hl
      · exact cleanLine_nil
      · obtain ⟨b, hb', hl⟩ := List.mem_flatMap.1 hl
        rcases List.mem_append.1 hl with hl | hl
        · exact (hb p hp b hb').clean reprC l hl
        · simp at hl; subst hl; exact cleanLine_nil
  · exact fun p hp => ⟨(hw p hp).1, fun c hc => ((hw p hp).2 c hc).1⟩
  · exact fun p hp b hb' => (hb p hp b hb').round reprC

theorem plain_round (reprC : Val → String) (data : List (String × List VDict)) (hn : (data.map Prod.fst).Nodup)
    (hw : ∀ p ∈ data, IsWord p.1.toList) (hb : ∀ p ∈ data, ∀ b ∈ p.2, PlainBlock b) : RoundUci reprC data := by
  have h := plain_data reprC data hn hw (fun p hp b hb' => (hb p hp b hb').data)
  exact ⟨h.clean, h.names, h.nameWords, fun p hp b hb' => (hb p hp b hb').round reprC⟩

theorem readBack_eq {reprC : Val → String} {k : String} {v : Val} (h : PlainVal v) (hn : v ≠ .none) (he : v ≠ .str "") :
    readBack reprC (k, v) = (match readVal v with | some r => [(k, r)] | none => []) := by
  cases v with
  | none => exact absurd rfl hn
  | bool b => simp [readBack, valueTexts, readVal]
  | int i => simp [readBack, valueTexts, readVal, pyStr]
  | str s =>
    have : s ≠ "" := fun e => he (by rw [e])
    simp [readBack, valueTexts, readVal, pyStr, this]
  | list l =>
    cases l with
    | nil => rfl
    | cons x xs =>
      simp only [readBack, valueTexts, readVal, List.map_map]
      have : ∀ l : List Val, (∀ v ∈ l, ∃ s, v = .str s ∧ PlainText s.toList) → l.map (Val.str ∘ pyStr reprC) = l := by
        intro l hl
        induction l with
        | nil => rfl
        | cons y ys ih =>
          obtain ⟨s, rfl, _⟩ := hl y (by simp)
          rw [List.map_cons, ih (fun v hv => hl v (by simp [hv]))]
          rfl
      rw [this _ h]
  | dict d => exact absurd h (by simp [PlainVal])

theorem nodup_flatMap_readBack {reprC : Val → String} (l : VDict) (h : (Dict.keys l).Nodup)
    (hp : ∀ p ∈ l, PlainVal p.2 ∧ p.2 ≠ .none ∧ p.2 ≠ .str "") :
    (Dict.keys (l.flatMap (readBack reprC))).Nodup ∧ (∀ k ∈ Dict.keys (l.flatMap (readBack reprC)), k ∈ Dict.keys l) ∧
      ∀ k, Dict.get? (l.flatMap (readBack reprC)) k = (Dict.get? l k).bind readVal := by
  induction l with
  | nil => simp
  | cons p r ih =>
    obtain ⟨k0, v⟩ := p
    rw [Dict.keys_cons, List.nodup_cons] at h
    obtain ⟨i1, i2, i3⟩ := ih h.2 (fun p hp' => hp p (by simp [hp']))
    obtain ⟨p1, p2, p3⟩ := hp (k0, v) (by simp)
    rw [List.flatMap_cons, readBack_eq p1 p2 p3]
    cases hr : readVal v with
    | none =>
      refine ⟨i1, fun k hk => by simp [i2 k hk], ?_⟩
      intro k
      simp only [List.nil_append, i3, Dict.get?_cons]
      split
      · next e => subst e; simp [hr, (Dict.get?_eq_none_iff r k0).2 h.1]
      · rfl
    | some x =>
      refine ⟨?_, ?_, ?_⟩
      · rw [List.singleton_append, Dict.keys_cons, List.nodup_cons]
        exact ⟨fun hm => h.1 (i2 _ hm), i1⟩
      · intro k hk
        rw [List.singleton_append, Dict.keys_cons] at hk
        rcases List.mem_cons.1 hk with rfl | hk
        · simp
        · simp [i2 k hk]
      · intro k
        simp only [List.singleton_append, Dict.get?_cons, i3]
        split
        · next e => subst e; simp [hr]
        · rfl

theorem get?_shown {b : VDict} (hn : (Dict.keys b).Nodup) (k : String) :
    Dict.get? (shownOptions b) k = (Dict.get? b k).filter (fun v => decide (v ≠ .str "" ∧ v ≠ .none ∧ k.toList.head? ≠ some '.')) := by
  have hn' : (Dict.keys (shownOptions b)).Nodup := hn.sublist (List.Sublist.map _ List.filter_sublist)
  cases h : Dict.get? b k with
  | none =>
    rw [Dict.get?_eq_none_iff] at h
    rw [Option.filter_none, Dict.get?_eq_none_iff]
    intro hm
    obtain ⟨p, hp, rfl⟩ := List.mem_map.1 hm
    exact h (Dict.mem_keys (shown_mem hp).1)
  | some v =>
    by_cases hv : v ≠ .str "" ∧ v ≠ .none ∧ k.toList.head? ≠ some '.'
    · rw [Option.filter_some, if_pos (by simpa using hv)]
      apply Dict.get?_of_mem hn'
      exact List.mem_filter.2 ⟨Dict.mem_of_get? h, by simpa using hv⟩
    · rw [Option.filter_some, if_neg (by simpa using hv), Dict.get?_eq_none_iff]
      intro hm
      obtain ⟨p, hp, rfl⟩ := List.mem_map.1 hm
      obtain ⟨h1, h2⟩ := shown_mem hp
      rw [Dict.get?_of_mem hn h1] at h
      cases h
      exact hv h2

theorem get?_dotless {b : VDict} (h : PlainBlock b) {k : String} (hk : k.toList.head? = some '.') (h1 : k ≠ ".type") (h2 : k ≠ ".name") :
    Dict.get? b k = none := by
  cases hv : Dict.get? b k with
  | none => rfl
  | some v => exact absurd hk (h.options k v hv h1 h2).2.1

/-- the items of a plain block read back -/
theorem rawBack_nodup {b : VDict} (reprC : Val → String) (h : PlainData b) : (Dict.keys (rawBack reprC b)).Nodup := by
  have hsn : (Dict.keys (shownOptions b)).Nodup := h.nodup.sublist (List.Sublist.map _ List.filter_sublist)
  obtain ⟨i1, i2, i3⟩ := nodup_flatMap_readBack (reprC := reprC) (shownOptions b) hsn
    (fun p hp => ⟨(h.opt hp).2.1, (h.opt hp).2.2, (shown_mem hp).2.1⟩)
  have hdot : ∀ k : String, k.toList.head? = some '.' → k ∉ Dict.keys ((shownOptions b).flatMap (readBack reprC)) := by
    intro k hk hm
    obtain ⟨p, hp, rfl⟩ := List.mem_map.1 (i2 k hm)
    exact (shown_mem hp).2.2.2 hk
  unfold rawBack
  simp only [List.cons_append, List.nil_append, Dict.keys_cons, List.nodup_cons]
  refine ⟨?_, hdot _ (by decide), i1⟩
  intro hm
  rcases List.mem_cons.1 hm with e | hm
  · exact absurd e (by decide)
  · exact hdot _ (by decide) hm

theorem get?_rawBack {b : VDict} (reprC : Val → String) (h : PlainData b) (k : String) :
    Dict.get? (rawBack reprC b) k = if k = ".type" ∨ k = ".name" then Dict.get? b k else (Dict.get? b k).bind readVal := by
  obtain ⟨t, ht, ht1⟩ := h.type
  obtain ⟨n, hn, hn1⟩ := h.name
  have hsn : (Dict.keys (shownOptions b)).Nodup := h.nodup.sublist (List.Sublist.map _ List.filter_sublist)
  obtain ⟨i1, i2, i3⟩ := nodup_flatMap_readBack (reprC := reprC) (shownOptions b) hsn
    (fun p hp => ⟨(h.opt hp).2.1, (h.opt hp).2.2, (shown_mem hp).2.1⟩)
  unfold rawBack
  rw [PlainBlock.field reprC ht, PlainBlock.field reprC hn]
  simp only [String.ofList_toList, List.cons_append, List.nil_append, Dict.get?_cons]
  by_cases e1 : k = ".type"
  · subst e1; simp [ht]
  · by_cases e2 : k = ".name"
    · subst e2; simp [hn]
    · have e1' : ¬ ".type" = k := fun e => e1 e.symm
      have e2' : ¬ ".name" = k := fun e => e2 e.symm
      simp only [e1, e2, e1', e2', if_false, or_self, i3, get?_shown h.nodup]
      cases hb : Dict.get? b k with
      | none => rfl
      | some v =>
        obtain ⟨o1, o2, o3⟩ := h.options k v hb e1 e2
        simp only [Option.filter_some]
        by_cases hv : v = .str "" ∨ v = .none
        · rcases hv with rfl | rfl <;> simp [readVal]
        · rw [if_pos]
          simp only [decide_eq_true_eq]
          exact ⟨fun e => hv (.inl e), fun e => hv (.inr e), o2⟩

theorem get?_blockBack {b : VDict} (reprC : Val → String) (h : PlainBlock b) (k : String) :
    Dict.get? (blockBack reprC b) k = if k = ".type" ∨ k = ".name" then Dict.get? b k else (Dict.get? b k).bind readVal := by
  unfold blockBack
  rw [get?_sortedDict (rawBack_nodup reprC h.data), get?_rawBack reprC h.data]

theorem blockBack_nodup {b : VDict} (reprC : Val → String) (h : PlainBlock b) : (Dict.keys (blockBack reprC b)).Nodup :=
  sortedDict_nodup (rawBack_nodup reprC h.data)

theorem setBlockType_nodup {b : VDict} (h : (Dict.keys b).Nodup) : (Dict.keys (setBlockType b)).Nodup := by
  unfold setBlockType
  dsimp only
  split
  · apply Dict.nodup_set
    repeat' split
    all_goals first | assumption | exact Dict.nodup_set (Dict.nodup_set h _ _) _ _ | exact Dict.nodup_set h _ _
  · exact h

/-- what the parser makes of the type of a device -/
def deviceType (ty : Option Val) : Val := if (ty.getD .none).truthy then ty.getD .none else .str "device"

/-- the items of a device read back -/
theorem get?_blockRead_device {b : VDict} (reprC : Val → String) (h : PlainData b) (ht : Dict.get? b ".type" = some (.str "device")) (k : String) :
    Dict.get? (blockRead reprC b) k = if k = ".type" then some (.str "interface") else if k = ".name" then Dict.get? b k
      else if k = "bridge_21" ∧ (Dict.get? b "type").bind readVal ∈ [some (.str "bridge"), some (.str "8021q"), some (.str "8021ad")] then some (.bool true)
      else if k = "type" then some (deviceType ((Dict.get? b "type").bind readVal)) else (Dict.get? b k).bind readVal := by
  have hn := rawBack_nodup reprC h
  have g := get?_rawBack reprC h
  unfold blockRead
  rw [get?_sortedDict (setBlockType_nodup hn)]
  have g1 : Dict.get? (rawBack reprC b) ".type" = some (.str "device") := by rw [g, if_pos (.inl rfl), ht]
  have g2 : Dict.get? (rawBack reprC b) "type" = (Dict.get? b "type").bind readVal := by rw [g, if_neg (by decide)]
  unfold setBlockType
  dsimp only
  rw [g1, g2, if_pos (.inl rfl), if_neg (show ¬ (some (Val.str "device") = some (Val.str "bridge-vlan")) by decide)]
  generalize hty : (Dict.get? b "type").bind readVal = ty
  have hm : (ty = some (.str "bridge") ∨ ty = some (.str "8021q") ∨ ty = some (.str "8021ad") ∨
      (some (Val.str "device") = some (Val.str "bridge-vlan"))) ↔ ty ∈ [some (.str "bridge"), some (.str "8021q"), some (.str "8021ad")] := by
    simp
  simp only [hm]
  rw [Dict.get?_set']
  by_cases e1 : k = ".type"
  · rw [if_pos e1, if_pos e1]
  rw [if_neg e1, if_neg e1]
  have e2 : (if k = ".type" ∨ k = ".name" then Dict.get? b k else (Dict.get? b k).bind readVal) =
      if k = ".name" then Dict.get? b k else (Dict.get? b k).bind readVal := by simp [e1]
  have base : ∀ m : Bool, Dict.get? (if m then Dict.set (rawBack reprC b) "bridge_21" (.bool true) else rawBack reprC b) k =
      if k = "bridge_21" ∧ m = true then some (.bool true) else if k = ".name" then Dict.get? b k else (Dict.get? b k).bind readVal := by
    intro m
    cases m
    · simp only [Bool.false_eq_true, if_false, and_false, g, e2]
    · simp only [if_true, and_true, Dict.get?_set', g, e2]
  have base := base (decide (ty ∈ [some (Val.str "bridge"), some (Val.str "8021q"), some (Val.str "8021ad")]))
  simp only [decide_eq_true_eq] at base
  unfold deviceType
  by_cases ht : (ty.getD .none).truthy = true
  · rw [ht, if_neg (by simp), if_pos rfl, base]
    by_cases e3 : k = ".name"
    · subst e3; simp
    by_cases e4 : k = "type"
    · subst e4
      rw [if_neg (by simp), if_neg (by decide), if_neg (by decide), if_neg (by simp), if_pos rfl, hty]
      cases ty with
      | none => exact absurd ht (by decide)
      | some v => rfl
    · simp only [e3, e4, if_false]
  · rw [Bool.not_eq_true] at ht
    rw [ht, if_pos rfl, Dict.get?_set', base]
    simp only [Bool.false_eq_true, if_false]
    by_cases e3 : k = ".name"
    · subst e3; simp
    by_cases e4 : k = "type"
    · subst e4; simp
    · simp only [e3, e4, if_false]

theorem blockRead_nodup {b : VDict} (reprC : Val → String) (h : PlainData b) : (Dict.keys (blockRead reprC b)).Nodup :=
  sortedDict_nodup (setBlockType_nodup (rawBack_nodup reprC h))

/-- the items of anything else -/
theorem get?_blockRead {b : VDict} (reprC : Val → String) (h : PlainBlock b) (k : String) :
    Dict.get? (blockRead reprC b) k = if k = ".type" ∨ k = ".name" then Dict.get? b k else (Dict.get? b k).bind readVal := by
  rw [blockRead_eq (h.round reprC), get?_blockBack reprC h]

/-! ## Type casts -/

theorem typeCast_nil (props : Dict String JType) : typeCast props [] = .ok [] := rfl

/-- when every option is cast to what `f` says -/
theorem typeCast_ok (props : Dict String JType) (f : String × Val → Val) (item : VDict)
    (h : ∀ p ∈ item, castValue (Dict.get? props p.1) p.2 = .ok (f p)) :
    typeCast props item = .ok (item.map (fun p => (p.1, f p))) := by
  unfold typeCast
  induction item with
  | nil => rfl
  | cons p r ih =>
    rw [mapM_ok_cons]
    exact ⟨_, _, by rw [h p (by simp)]; rfl, ih (fun q hq => h q (by simp [hq])), rfl⟩

/-- Values that survive being written as UCI text and cast back to the type of the schema. -/
def Survives (t : Option JType) : Val → Prop
  | .str s => s ≠ "" ∧ PlainText s.toList ∧ t ≠ some .integer ∧ t ≠ some .boolean
  | .int _ => t = some .integer
  | .bool _ => t = some .boolean
  | .list l => l ≠ [] ∧ (∀ v ∈ l, ∃ s, v = .str s ∧ PlainText s.toList) ∧ t ≠ some .integer ∧ t ≠ some .boolean
  | _ => False

theorem castValue_other {t : Option JType} (h1 : t ≠ some .integer) (h2 : t ≠ some .boolean) (v : Val) : castValue t v = .ok v := by
  cases t with
  | none => rfl
  | some t => cases t <;> first | rfl | exact absurd rfl h1 | exact absurd rfl h2

theorem survives_plain {t : Option JType} {v : Val} (h : Survives t v) : PlainVal v := by
  cases v with
  | none => exact absurd h (by simp [Survives])
  | bool b => trivial
  | int i => trivial
  | str s => exact h.2.1
  | list l => exact h.2.1
  | dict d => exact absurd h (by simp [Survives])

/-- `Survives` means what it says -/
theorem survives_spec {t : Option JType} {v : Val} (h : Survives t v) : ∃ r, readVal v = some r ∧ castValue t r = .ok v := by
  cases v with
  | none => exact absurd h (by simp [Survives])
  | bool b =>
    simp only [Survives] at h
    subst h
    refine ⟨_, rfl, ?_⟩
    cases b <;> rfl
  | int i =>
    simp only [Survives] at h
    subst h
    refine ⟨_, rfl, ?_⟩
    simp [castValue, pyInt, parseInt_showInt]
  | str s =>
    obtain ⟨h1, h2, h3, h4⟩ := h
    exact ⟨.str s, by simp [readVal, h1], castValue_other h3 h4 _⟩
  | list l =>
    obtain ⟨h1, h2, h3, h4⟩ := h
    refine ⟨.list l, ?_, castValue_other h3 h4 _⟩
    cases l with
    | nil => exact absurd rfl h1
    | cons x xs => rfl
  | dict d => exact absurd h (by simp [Survives])

/-- If every item of `item` is the text of an item of `want` that survives, then `type_cast` gives exactly the items of `want`. -/
theorem typeCast_back (props : Dict String JType) (item want : VDict) (hn : (Dict.keys item).Nodup)
    (hs : ∀ k v, Dict.get? want k = some v → Survives (Dict.get? props k) v)
    (he : ∀ k, Dict.get? item k = (Dict.get? want k).bind readVal) :
    ∃ out, typeCast props item = .ok out ∧ SameItems out want := by
  have hcast : ∀ p ∈ item, castValue (Dict.get? props p.1) p.2 = .ok ((Dict.get? want p.1).getD .none) := by
    intro p hp
    have hg := Dict.get?_of_mem hn (k := p.1) (v := p.2) hp
    rw [he] at hg
    cases hw : Dict.get? want p.1 with
    | none => rw [hw] at hg; simp at hg
    | some v =>
      obtain ⟨r, h1, h2⟩ := survives_spec (hs _ _ hw)
      rw [hw] at hg
      simp only [Option.bind_some, h1, Option.some.injEq] at hg
      rw [← hg, h2]; rfl
  refine ⟨_, typeCast_ok props _ item hcast, ?_⟩
  intro k
  rw [Dict.get?_map_val, he]
  cases hw : Dict.get? want k with
  | none => rfl
  | some v =>
    obtain ⟨r, h1, h2⟩ := survives_spec (hs _ _ hw)
    simp [h1, hw]

end NJ
