import Verif.PropsUciParse

/-!
# Properties of the UCI parser: C33 (round trip) and C38 (quotes)
-/

namespace NJ

/-! ## C38 -/

/-- a statement without its layout -/
def Stmt.bare (s : Stmt) : Bool × Chars × Chars := (s.isList, s.key, s.value)

/-- a block without its layout: type, name, statements -/
def SBlock.bare (b : SBlock) : Chars × Option Chars × List (Bool × Chars × Chars) :=
  (b.ty, b.name.map Prod.fst, b.stmts.map Stmt.bare)

/-- a package without its layout -/
def SPkg.bare (p : SPkg) : Chars × List (Chars × Option Chars × List (Bool × Chars × Chars)) := (p.name, p.blocks.map SBlock.bare)

/-- C38: every document (any indentation, quotes and number of blank lines) is parsed to its meaning. -/
theorem C38_parsed (ps : List SPkg) (h : ∀ p ∈ ps, p.OK) : parseUci (docText ps) = docMeaning [] ps := parseUci_doc ps h

theorem stmts_bare : ∀ (a b : List Stmt), a.map Stmt.bare = b.map Stmt.bare → ∀ d, a.foldlM Stmt.meaning d = b.foldlM Stmt.meaning d
  | [], [], _, _ => rfl
  | [], _ :: _, h, _ => by simp at h
  | _ :: _, [], h, _ => by simp at h
  | s :: a, t :: b, h, d => by
    simp only [List.map_cons, List.cons.injEq] at h
    obtain ⟨h1, h2⟩ := h
    have hm : s.meaning d = t.meaning d := by
      simp only [Stmt.bare, Prod.mk.injEq] at h1
      obtain ⟨e1, e2, e3⟩ := h1
      unfold Stmt.meaning
      rw [e1, e2, e3]
    rw [List.foldlM_cons, List.foldlM_cons, hm]
    cases t.meaning d with
    | error e => rfl
    | ok d' => exact stmts_bare a b h2 d'

theorem block_bare {a b : SBlock} (h : a.bare = b.bare) (i : Nat) : a.meaning i = b.meaning i := by
  obtain ⟨ta, qa, na, sa, ka⟩ := a
  obtain ⟨tb, qb, nb, sb, kb⟩ := b
  simp only [SBlock.bare, Prod.mk.injEq] at h
  obtain ⟨rfl, h2, h3⟩ := h
  unfold SBlock.meaning
  cases na with
  | none =>
    cases nb with
    | none => simp only [stmts_bare _ _ h3]
    | some y => simp at h2
  | some x =>
    cases nb with
    | none => simp at h2
    | some y =>
      simp only [Option.map_some, Option.some.injEq] at h2
      simp only [stmts_bare _ _ h3, h2]

theorem blocks_bare : ∀ (a b : List SBlock), a.map SBlock.bare = b.map SBlock.bare → ∀ i, blocksMeaning i a = blocksMeaning i b
  | [], [], _, _ => rfl
  | [], _ :: _, h, _ => by simp at h
  | _ :: _, [], h, _ => by simp at h
  | s :: a, t :: b, h, i => by
    simp only [List.map_cons, List.cons.injEq] at h
    rw [blocksMeaning, blocksMeaning, block_bare h.1, blocks_bare a b h.2]

theorem doc_bare : ∀ (a b : List SPkg), a.map SPkg.bare = b.map SPkg.bare → ∀ acc, docMeaning acc a = docMeaning acc b
  | [], [], _, _ => rfl
  | [], _ :: _, h, _ => by simp at h
  | _ :: _, [], h, _ => by simp at h
  | s :: a, t :: b, h, i => by
    simp only [List.map_cons, List.cons.injEq, SPkg.bare, Prod.mk.injEq] at h
    rw [docMeaning, docMeaning, blocks_bare _ _ h.1.2, h.1.1]
    congr 1
    funext x
    exact doc_bare a b h.2 _

/-- C38: two documents that differ only in quotes, indentation and blank lines are parsed alike. -/
theorem C38_layout_irrelevant (ps qs : List SPkg) (hp : ∀ p ∈ ps, p.OK) (hq : ∀ q ∈ qs, q.OK) (h : ps.map SPkg.bare = qs.map SPkg.bare) :
    parseUci (docText ps) = parseUci (docText qs) := by
  rw [parseUci_doc ps hp, parseUci_doc qs hq, doc_bare _ _ h]

/-! ## C33: specification -/

/-- the texts of a value, one per line -/
def valueTexts (reprC : Val → String) : Val → List String
  | .list l => l.map (pyStr reprC)
  | .dict d => Dict.keys d
  | .bool b => [if b then "1" else "0"]
  | v => [pyStr reprC v]

/-- an option as it is read back: lists as lists of texts, anything else as its text; an empty list leaves nothing -/
def readBack (reprC : Val → String) (p : String × Val) : VDict :=
  match p.2 with
  | .list [] => []
  | .dict [] => []
  | .list _ => [(p.1, .list ((valueTexts reprC p.2).map .str))]
  | .dict _ => [(p.1, .list ((valueTexts reprC p.2).map .str))]
  | v => (valueTexts reprC v).map (fun t => (p.1, .str t))

/-- the items of a block as they are read back -/
def rawBack (reprC : Val → String) (b : VDict) : VDict :=
  [(".type", .str (String.ofList (fieldText reprC b ".type"))), (".name", .str (String.ofList (fieldText reprC b ".name")))] ++
    (shownOptions b).flatMap (readBack reprC)

/-- a block as it is read back -/
def blockBack (reprC : Val → String) (b : VDict) : VDict := sortedDict (rawBack reprC b)

/-- a block that survives, maybe of a device: names and keys are words, the keys are distinct, texts have no line breaks and quotes -/
structure DataBlock (reprC : Val → String) (b : VDict) : Prop where
  type : IsWord (fieldText reprC b ".type")
  name : IsWord (fieldText reprC b ".name")
  keys : (Dict.keys (shownOptions b)).Nodup
  words : ∀ p ∈ shownOptions b, IsWord p.1.toList
  texts : ∀ p ∈ shownOptions b, ∀ t ∈ valueTexts reprC p.2, ∀ c ∈ t.toList, c ≠ '\n' ∧ c ≠ '\'' ∧ c ≠ '"'

/-- a block that survives and is no device -/
structure RoundBlock (reprC : Val → String) (b : VDict) : Prop extends DataBlock reprC b where
  typeNot : fieldText reprC b ".type" ≠ "device".toList ∧ fieldText reprC b ".type" ≠ "bridge-vlan".toList

/-- a block as it is read back, also of a device: devices become interfaces with marks (parser.py l.88-103) -/
def blockRead (reprC : Val → String) (b : VDict) : VDict := sortedDict (setBlockType (rawBack reprC b))

/-- data that survives: as above, with distinct package names that are words, and no four blanks in a row -/
structure DataUci (reprC : Val → String) (data : List (String × List VDict)) : Prop where
  clean : CleanUci reprC data
  names : (data.map Prod.fst).Nodup
  nameWords : ∀ p ∈ data, p.1.toList ≠ [] ∧ ∀ c ∈ p.1.toList, isSpace c = false
  datas : ∀ p ∈ data, ∀ b ∈ p.2, DataBlock reprC b

/-- the same, without devices -/
structure RoundUci (reprC : Val → String) (data : List (String × List VDict)) : Prop where
  clean : CleanUci reprC data
  names : (data.map Prod.fst).Nodup
  nameWords : ∀ p ∈ data, p.1.toList ≠ [] ∧ ∀ c ∈ p.1.toList, isSpace c = false
  blocks : ∀ p ∈ data, ∀ b ∈ p.2, RoundBlock reprC b

theorem RoundUci.data {reprC : Val → String} {data : List (String × List VDict)} (h : RoundUci reprC data) : DataUci reprC data :=
  ⟨h.clean, h.names, h.nameWords, fun p hp b hb => (h.blocks p hp b hb).toDataBlock⟩

/-! ## Rendered data as a document -/

def optionStmts (reprC : Val → String) (p : String × Val) : List Stmt :=
  (valueTexts reprC p.2).map (fun t => ⟨['\t'], p.2.isList || p.2.isDict, p.1.toList, .plain, .single, t.toList⟩)

def blockDoc (reprC : Val → String) (b : VDict) : SBlock :=
  ⟨fieldText reprC b ".type", .plain, some (fieldText reprC b ".name", .single), (shownOptions b).flatMap (optionStmts reprC), 1⟩

def pkgDoc (reprC : Val → String) (p : String × List VDict) : SPkg := ⟨p.1.toList, 1, p.2.map (blockDoc reprC)⟩

theorem optionStmts_lines (reprC : Val → String) (p : String × Val) : (optionStmts reprC p).map Stmt.line = optionLines reprC p := by
  obtain ⟨k, v⟩ := p
  have h1 : "1".toList = ['1'] := by decide
  have h0 : "0".toList = ['0'] := by decide
  cases v with
  | list l => simp [optionStmts, valueTexts, optionLines, Stmt.line, quoted, Val.isList]
  | dict d => simp [optionStmts, valueTexts, optionLines, Stmt.line, quoted, Val.isList, Val.isDict, Dict.keys]
  | bool b => cases b <;> simp [optionStmts, valueTexts, optionLines, Stmt.line, quoted, Val.isList, Val.isDict, h1, h0]
  | none => simp [optionStmts, valueTexts, optionLines, Stmt.line, quoted, Val.isList, Val.isDict]
  | int i => simp [optionStmts, valueTexts, optionLines, Stmt.line, quoted, Val.isList, Val.isDict]
  | str s => simp [optionStmts, valueTexts, optionLines, Stmt.line, quoted, Val.isList, Val.isDict]

theorem blockDoc_lines (reprC : Val → String) (b : VDict) : (blockDoc reprC b).lines = blockLines reprC b ++ [[]] := by
  unfold SBlock.lines blockLines
  rw [List.cons_append]
  congr 1
  · simp only [blockDoc, SBlock.head, quoted]
    have e1 : "config ".toList = "config".toList ++ [' '] := by decide
    have e2 : " '".toList = [' ', '\''] := by decide
    have e3 : "'".toList = ['\''] := by decide
    rw [e1, e2, e3]; simp
  · simp only [blockDoc, List.replicate_one]
    congr 1
    rw [List.map_flatMap]
    congr 1
    funext p
    exact optionStmts_lines reprC p

theorem pkgDoc_lines (reprC : Val → String) (p : String × List VDict) : (pkgDoc reprC p).lines = packageLines reprC p := by
  unfold SPkg.lines packageLines
  have e1 : "package ".toList = "package".toList ++ [' '] := by decide
  rw [e1]
  simp only [pkgDoc, List.replicate_one, List.flatMap_map]
  congr 1
  rw [List.singleton_append]
  congr 2
  funext b
  exact blockDoc_lines reprC b

/-- rendered clean data is a document -/
theorem renderUci_doc (reprC : Val → String) (data : List (String × List VDict)) (hne : data ≠ []) (h : CleanUci reprC data) :
    renderUci reprC data = docText (data.map (pkgDoc reprC)) := by
  rw [C34_exact_lines reprC data hne h]
  unfold docText
  rw [List.flatMap_map]
  congr 2
  funext p
  exact (pkgDoc_lines reprC p).symm

theorem pkgDoc_ok {reprC : Val → String} {data : List (String × List VDict)} (h : DataUci reprC data) :
    ∀ p ∈ data.map (pkgDoc reprC), p.OK := by
  intro p hp
  obtain ⟨q, hq, rfl⟩ := List.mem_map.1 hp
  refine ⟨h.nameWords q hq, ?_⟩
  intro b hb
  obtain ⟨b, hb', rfl⟩ := List.mem_map.1 hb
  have hr := h.datas q hq b hb'
  refine ⟨hr.type, ?_, ?_⟩
  · intro n q' hn
    simp only [blockDoc, Option.some.injEq, Prod.mk.injEq] at hn
    rw [← hn.1]; exact hr.name
  · intro s hs
    obtain ⟨o, ho, hs⟩ := List.mem_flatMap.1 hs
    obtain ⟨t, ht, rfl⟩ := List.mem_map.1 hs
    refine ⟨?_, hr.words o ho, hr.texts o ho t ht, ?_⟩
    · intro c hc; simp at hc; subst hc; decide
    · intro e; cases e

/-! ## Reading the statements -/

theorem str_ofList_toList (s : String) : String.ofList s.toList = s := by simp

theorem dict_set_set (d : VDict) (k : String) (a b : Val) : Dict.set (Dict.set d k a) k b = Dict.set d k b := by
  induction d with
  | nil => simp [Dict.set]
  | cons p r ih =>
    obtain ⟨k2, w⟩ := p
    by_cases h : k2 = k
    · simp [Dict.set, h]
    · simp [Dict.set, h, ih]

theorem list_meaning (k : Chars) (ts : List String) (d : VDict) (l : List Val) (hk : Dict.get? d (String.ofList k) = some (.list l)) :
    (ts.map (fun t => (⟨['\t'], true, k, .plain, .single, t.toList⟩ : Stmt))).foldlM Stmt.meaning d =
      .ok (Dict.set d (String.ofList k) (.list (l ++ ts.map .str))) := by
  induction ts generalizing d l with
  | nil => simp only [List.map_nil, List.foldlM_nil, List.append_nil, Dict.set_eq_self hk]; rfl
  | cons t ts ih =>
    rw [List.map_cons, List.foldlM_cons]
    have : Stmt.meaning d ⟨['\t'], true, k, .plain, .single, t.toList⟩ = .ok (Dict.set d (String.ofList k) (.list (l ++ [.str t]))) := by
      simp [Stmt.meaning, hk]
    rw [this]
    refine (ih (Dict.set d (String.ofList k) (.list (l ++ [.str t]))) (l ++ [.str t]) (Dict.get?_set_self _ _ _)).trans ?_
    rw [dict_set_set]; simp

theorem option_meaning (reprC : Val → String) (p : String × Val) (d : VDict) (hk : p.1 ∉ Dict.keys d) :
    (optionStmts reprC p).foldlM Stmt.meaning d = .ok (d ++ readBack reprC p) := by
  obtain ⟨k, v⟩ := p
  have hget : Dict.get? d k = none := (Dict.get?_eq_none_iff _ _).2 hk
  have hscalar : ∀ t : String, List.foldlM (m := Except PyErr) Stmt.meaning d [⟨['\t'], false, k.toList, .plain, .single, t.toList⟩] = .ok (d ++ [(k, .str t)]) := by
    intro t
    rw [List.foldlM_cons]
    have : Stmt.meaning d ⟨['\t'], false, k.toList, .plain, .single, t.toList⟩ = .ok (d ++ [(k, .str t)]) := by
      simp [Stmt.meaning, Dict.set_not_mem d k _ hk]
    rw [this]; rfl
  have hlist : ∀ (t : String) (ts : List String),
      List.foldlM (m := Except PyErr) Stmt.meaning d ((t :: ts).map (fun t => ⟨['\t'], true, k.toList, .plain, .single, t.toList⟩)) =
        .ok (d ++ [(k, .list ((t :: ts).map .str))]) := by
    intro t ts
    rw [List.map_cons, List.foldlM_cons]
    have : Stmt.meaning d ⟨['\t'], true, k.toList, .plain, .single, t.toList⟩ = .ok (Dict.set d k (.list [.str t])) := by
      simp [Stmt.meaning, hget]
    rw [this]
    show List.foldlM (m := Except PyErr) _ _ _ = _
    rw [list_meaning k.toList ts _ [.str t] (by simp [Dict.get?_set_self])]
    simp only [String.ofList_toList]
    rw [dict_set_set, Dict.set_not_mem d k _ hk]; simp
  cases v with
  | list l =>
    cases l with
    | nil => simp [optionStmts, valueTexts, readBack]; rfl
    | cons x xs => exact hlist _ _
  | dict l =>
    cases l with
    | nil => simp [optionStmts, valueTexts, readBack, Dict.keys]; rfl
    | cons x xs => exact hlist _ _
  | bool b => exact hscalar _
  | none => exact hscalar _
  | int i => exact hscalar _
  | str s => exact hscalar _

theorem readBack_keys (reprC : Val → String) (p : String × Val) : ∀ k ∈ Dict.keys (readBack reprC p), k = p.1 := by
  intro k hk
  obtain ⟨k', v⟩ := p
  cases v with
  | list l => cases l <;> simp [readBack, Dict.keys] at hk; exact hk
  | dict l => cases l <;> simp [readBack, Dict.keys] at hk; exact hk
  | bool b => simpa [readBack, valueTexts, Dict.keys] using hk
  | none => simpa [readBack, valueTexts, Dict.keys] using hk
  | int i => simpa [readBack, valueTexts, Dict.keys] using hk
  | str s => simpa [readBack, valueTexts, Dict.keys] using hk

theorem options_meaning (reprC : Val → String) (ps : VDict) (d : VDict) (hn : (Dict.keys ps).Nodup) (hd : ∀ k ∈ Dict.keys ps, k ∉ Dict.keys d) :
    (ps.flatMap (optionStmts reprC)).foldlM Stmt.meaning d = .ok (d ++ ps.flatMap (readBack reprC)) := by
  induction ps generalizing d with
  | nil => simp; rfl
  | cons p ps ih =>
    obtain ⟨k, v⟩ := p
    rw [Dict.keys_cons, List.nodup_cons] at hn
    rw [List.flatMap_cons, List.foldlM_append, option_meaning reprC (k, v) d (hd k (by simp))]
    show List.foldlM (m := Except PyErr) _ _ _ = _
    rw [ih _ hn.2]
    · simp
    · intro k' hk' hmem
      rw [Dict.keys_append, List.mem_append] at hmem
      rcases hmem with h | h
      · exact hd k' (by simp [hk']) h
      · have := readBack_keys reprC (k, v) k' h
        simp only at this
        subst this
        exact hn.1 hk'

theorem shown_dot {b : VDict} {p : String × Val} (h : p ∈ shownOptions b) : p.1.toList.head? ≠ some '.' := by
  have := (List.mem_filter.1 h).2
  simp only [decide_eq_true_eq] at this
  exact this.2.2

theorem get?_type_append (v : Val) (rest : VDict) : Dict.get? ((".type", v) :: rest) ".type" = some v := by simp

theorem blockRead_eq {reprC : Val → String} {b : VDict} (h : RoundBlock reprC b) : blockRead reprC b = blockBack reprC b := by
  unfold blockRead blockBack
  congr 1
  unfold setBlockType rawBack
  simp only [List.cons_append, get?_type_append]
  rw [if_neg]
  rintro (e | e)
  · have : fieldText reprC b ".type" = "device".toList := by
      simp only [Option.some.injEq, Val.str.injEq] at e
      rw [← e]; simp
    exact h.typeNot.1 this
  · have : fieldText reprC b ".type" = "bridge-vlan".toList := by
      simp only [Option.some.injEq, Val.str.injEq] at e
      rw [← e]; simp
    exact h.typeNot.2 this

theorem blockDoc_meaning {reprC : Val → String} {b : VDict} (h : DataBlock reprC b) (i : Nat) :
    (blockDoc reprC b).meaning i = .ok (blockRead reprC b) := by
  unfold SBlock.meaning blockDoc
  simp only []
  rw [options_meaning reprC _ _ h.keys]
  · rfl
  · intro k hk hmem
    obtain ⟨p, hp, rfl⟩ := List.mem_map.1 hk
    have := shown_dot hp
    simp only [Dict.keys_cons, Dict.keys_nil, List.mem_cons, List.not_mem_nil, or_false] at hmem
    rcases hmem with e | e
    · rw [e] at this; exact this (by decide)
    · rw [e] at this; exact this (by decide)

theorem blocks_back {reprC : Val → String} (bs : List VDict) (h : ∀ b ∈ bs, DataBlock reprC b) (i : Nat) :
    blocksMeaning i (bs.map (blockDoc reprC)) = .ok (bs.map (fun b => .dict (blockRead reprC b))) := by
  induction bs generalizing i with
  | nil => rfl
  | cons b bs ih =>
    rw [List.map_cons, blocksMeaning, blockDoc_meaning (h b (by simp)), ih (fun x hx => h x (by simp [hx]))]
    rfl

theorem doc_back {reprC : Val → String} (data : List (String × List VDict)) (acc : VDict)
    (hn : (data.map Prod.fst).Nodup) (hd : ∀ k ∈ data.map Prod.fst, k ∉ Dict.keys acc) (h : ∀ p ∈ data, ∀ b ∈ p.2, DataBlock reprC b) :
    docMeaning acc (data.map (pkgDoc reprC)) = .ok (acc ++ data.map (fun p => (p.1, .list (p.2.map (fun b => .dict (blockRead reprC b)))))) := by
  induction data generalizing acc with
  | nil => simp [docMeaning]
  | cons p data ih =>
    rw [List.map_cons, List.nodup_cons] at hn
    rw [List.map_cons, docMeaning]
    simp only [pkgDoc] at *
    rw [blocks_back _ (h p (by simp))]
    show docMeaning _ _ = _
    simp only [String.ofList_toList]
    rw [Dict.set_not_mem _ _ _ (hd p.1 (by simp)), ih _ hn.2]
    · simp
    · intro k hk hmem
      rw [Dict.keys_append, List.mem_append] at hmem
      rcases hmem with h' | h'
      · exact hd k (by simp only [List.map_cons, List.mem_cons]; exact .inr hk) h'
      · simp at h'; subst h'; exact hn.1 hk
    · exact fun q hq => h q (by simp only [List.mem_cons]; exact .inr hq)

/-! ## C33 -/

/-- C33, also for devices: these are read as interfaces with marks -/
theorem C33_devices (reprC : Val → String) (data : List (String × List VDict)) (h : DataUci reprC data) :
    parseUci (renderUci reprC data) = .ok (data.map (fun p => (p.1, .list (p.2.map (fun b => .dict (blockRead reprC b)))))) := by
  by_cases hne : data = []
  · subst hne
    rfl
  rw [renderUci_doc reprC data hne h.clean, parseUci_doc _ (pkgDoc_ok h),
    doc_back data [] h.names (by simp) h.datas]
  rfl

/-- C33: reading the rendered text gives back the same packages in order, with the same blocks in order, with the same
type, name, options and lists of each block, written as text, with sorted keys. -/
theorem C33_round_trip (reprC : Val → String) (data : List (String × List VDict)) (h : RoundUci reprC data) :
    parseUci (renderUci reprC data) = .ok (data.map (fun p => (p.1, .list (p.2.map (fun b => .dict (blockBack reprC b)))))) := by
  rw [C33_devices reprC data h.data]
  congr 1
  refine List.map_congr_left fun p hp => ?_
  congr 2
  exact List.map_congr_left fun b hb => by rw [blockRead_eq (h.blocks p hp b hb)]

theorem insertKey_perm (p : String × Val) (d : VDict) : (insertKey p d).Perm (p :: d) := by
  induction d with
  | nil => exact List.Perm.refl _
  | cons q r ih =>
    rw [insertKey]
    split
    · exact List.Perm.refl _
    · exact (ih.cons q).trans (List.Perm.swap _ _ _)

/-- sorting keeps the items -/
theorem C33_sorting_keeps (d : VDict) : (sortedDict d).Perm d := by
  induction d with
  | nil => exact List.Perm.refl _
  | cons p r ih => exact (insertKey_perm p _).trans (ih.cons p)

theorem charsLe_total : ∀ a b : Chars, charsLe a b = true ∨ charsLe b a = true
  | [], _ => .inl rfl
  | _ :: _, [] => .inr rfl
  | a :: as, b :: bs => by
    rw [charsLe, charsLe]
    by_cases h : a = b
    · subst h; simp only [if_true]; exact charsLe_total as bs
    · have h' : ¬ b = a := fun e => h e.symm
      have hne : a.toNat ≠ b.toNat := fun e => h (Char.ext (UInt32.toNat_inj.1 e))
      simp only [h, h', if_false, decide_eq_true_eq]
      omega

theorem charsLe_trans : ∀ a b c : Chars, charsLe a b = true → charsLe b c = true → charsLe a c = true
  | [], _, _, _, _ => rfl
  | _ :: _, [], _, h, _ => by simp [charsLe] at h
  | _ :: _, _ :: _, [], _, h => by simp [charsLe] at h
  | a :: as, b :: bs, c :: cs, h1, h2 => by
    rw [charsLe] at *
    by_cases hab : a = b
    · subst hab
      simp only [if_true] at h1
      by_cases hac : a = c
      · subst hac; simp only [if_true] at h2 ⊢; exact charsLe_trans as bs cs h1 h2
      · simp only [hac, if_false] at h2 ⊢; exact h2
    · simp only [hab, if_false, decide_eq_true_eq] at h1
      by_cases hbc : b = c
      · subst hbc; simp only [hab, if_false, decide_eq_true_eq]; exact h1
      · simp only [hbc, if_false, decide_eq_true_eq] at h2
        have : ¬ a = c := by rintro rfl; omega
        simp only [this, if_false, decide_eq_true_eq]; omega

theorem insertKey_sorted (p : String × Val) (d : VDict) (h : d.Pairwise (fun a b => charsLe a.1.toList b.1.toList = true)) :
    (insertKey p d).Pairwise (fun a b => charsLe a.1.toList b.1.toList = true) := by
  induction d with
  | nil => simp [insertKey]
  | cons q r ih =>
    rw [insertKey]
    rw [List.pairwise_cons] at h
    split
    · next hle =>
      rw [List.pairwise_cons]
      refine ⟨?_, List.pairwise_cons.2 h⟩
      intro x hx
      rcases List.mem_cons.1 hx with rfl | hx
      · exact hle
      · exact charsLe_trans _ _ _ hle (h.1 x hx)
    · next hle =>
      rw [List.pairwise_cons]
      refine ⟨?_, ih h.2⟩
      intro x hx
      rcases List.mem_cons.1 ((insertKey_perm p r).mem_iff.1 hx) with rfl | hx
      · exact (charsLe_total _ _).resolve_left hle
      · exact h.1 x hx

/-- sorting sorts the keys by code point -/
theorem C33_sorting_sorts (d : VDict) : (sortedDict d).Pairwise (fun a b => charsLe a.1.toList b.1.toList = true) := by
  induction d with
  | nil => exact List.Pairwise.nil
  | cons p r ih => exact insertKey_sorted p _ ih

/-- C33 needs values without quotes: they are lost. -/
theorem C33_needs_no_quotes :
    parseUci (renderUci (fun _ => "") [("p", [[(".type", .str "t"), (".name", .str "n"), ("o", .str "it's")]])]) =
      .ok [("p", .list [.dict [(".name", .str "n"), (".type", .str "t"), ("o", .str "its")]])] := by decide +kernel

/-- C33 needs values without four blanks in a row: they are lost. -/
theorem C33_needs_no_blank_runs :
    parseUci (renderUci (fun _ => "") [("p", [[(".type", .str "t"), (".name", .str "n"), ("o", .str "a    b")]])]) =
      .ok [("p", .list [.dict [(".name", .str "n"), (".type", .str "t"), ("o", .str "ab")]])] := by decide +kernel

/-- C33 needs values without line breaks: a value can forge options. -/
theorem C33_needs_no_line_breaks :
    parseUci (renderUci (fun _ => "") [("p", [[(".type", .str "t"), (".name", .str "n"), ("o", .str "a'\n\toption evil 'yes")]])]) =
      .ok [("p", .list [.dict [(".name", .str "n"), (".type", .str "t"), ("evil", .str "yes"), ("o", .str "a")]])] := by decide +kernel

/-! ## Examples -/

instance (s : Chars) : Decidable (IsWord s) := inferInstanceAs (Decidable (_ ∧ _))

/-- the conditions of `RoundBlock`, computed -/
def roundBlockB (reprC : Val → String) (b : VDict) : Bool :=
  decide (IsWord (fieldText reprC b ".type")) && decide (fieldText reprC b ".type" ≠ "device".toList ∧ fieldText reprC b ".type" ≠ "bridge-vlan".toList) &&
  decide (IsWord (fieldText reprC b ".name")) && decide (Dict.keys (shownOptions b)).Nodup &&
  (shownOptions b).all (fun p => decide (IsWord p.1.toList) &&
    (valueTexts reprC p.2).all (fun t => t.toList.all (fun c => decide (c ≠ '\n' ∧ c ≠ '\'' ∧ c ≠ '"'))))

theorem roundBlockB_sound {reprC : Val → String} {b : VDict} (h : roundBlockB reprC b = true) : RoundBlock reprC b := by
  simp only [roundBlockB, Bool.and_eq_true, decide_eq_true_eq, List.all_eq_true] at h
  obtain ⟨⟨⟨⟨h1, h2⟩, h3⟩, h4⟩, h5⟩ := h
  exact ⟨⟨h1, h3, h4, fun p hp => (h5 p hp).1, fun p hp => (h5 p hp).2⟩, h2⟩

theorem sampleUci_round : RoundUci (fun _ => "") sampleUci where
  clean := by decide +kernel
  names := by decide +kernel
  nameWords := by decide +kernel
  blocks := by
    have h : sampleUci.all (fun p => p.2.all (roundBlockB (fun _ => ""))) = true := by decide +kernel
    intro p hp b hb
    exact roundBlockB_sound (List.all_eq_true.1 (List.all_eq_true.1 h p hp) b hb)

example := C33_round_trip _ _ sampleUci_round

example : parseUci "package a\n\nconfig 'x' \"y\"\n  option k v\n\tlist l \"1 2\"\nlist l '3'\n\nconfig z\n".toList =
    .ok [("a", .list [.dict [(".name", .str "y"), (".type", .str "x"), ("k", .str "v"), ("l", .list [.str "1 2", .str "3"])],
      .dict [(".name", .str "z_2"), (".type", .str "z")]])] := by decide +kernel

end NJ
