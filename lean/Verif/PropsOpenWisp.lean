import Verif.OpenWisp
import Verif.PropsArchive
import Verif.ConvLemmas

/-!
# C65: the OpenWISP 1.x backend, text and archive members
-/

namespace NJ

/-! ## Specification -/

/-- the lines of one option: `option 'key' 'value'` or one `list 'key' 'item'` per item -/
def owOptionLines (reprC : Val → String) (p : String × Val) : List Chars :=
  let line (kw : String) (v : Chars) : Chars := '\t' :: kw.toList ++ " '".toList ++ p.1.toList ++ "' '".toList ++ v ++ "'".toList
  match p.2 with
  | .list l => l.map (fun v => line "list" (pyStr reprC v).toList)
  | .dict d => d.map (fun q => line "list" q.1.toList)
  | .bool true => [line "option" ['1']]
  | .bool false => [line "option" ['0']]
  | v => [line "option" (pyStr reprC v).toList]

/-- the lines of a block -/
def owBlockLines (reprC : Val → String) (b : VDict) : List Chars :=
  ("config '".toList ++ fieldText reprC b ".type" ++ "' '".toList ++ fieldText reprC b ".name" ++ "'".toList) ::
    (shownOptions b).flatMap (owOptionLines reprC)

/-- the lines of the blocks of a package -/
def owBlocksLines (reprC : Val → String) (p : String × List VDict) : List Chars := p.2.flatMap (fun b => owBlockLines reprC b ++ [[]])

/-- the lines of a package -/
def owPackageLines (reprC : Val → String) (p : String × List VDict) : List Chars :=
  ("package ".toList ++ p.1.toList) :: [] :: owBlocksLines reprC p

/-- every block has a type -/
def Typed (data : List (String × List VDict)) : Prop := ∀ p ∈ data, ∀ b ∈ p.2, (Dict.get? b ".type").isSome

/-- all lines are clean -/
def CleanOw (reprC : Val → String) (data : List (String × List VDict)) : Prop := ∀ p ∈ data, ∀ l ∈ owPackageLines reprC p, CleanLine l

/-! ## The text is that of OpenWrt for data with quotes added -/

def owItem (reprC : Val → String) (p : String × Val) : String × Val :=
  if p.1 = ".type" then (".type", .str (String.ofList (inQuotes (pyStr reprC p.2).toList)))
  else if isRendered p then (String.ofList (inQuotes p.1.toList), p.2) else p

def owB (reprC : Val → String) (b : VDict) : VDict := b.map (owItem reprC)

def owData (reprC : Val → String) (data : List (String × List VDict)) : List (String × List VDict) := data.map (fun p => (p.1, p.2.map (owB reprC)))

theorem quoted_key_ne (k : String) {d : String} (h : d.toList.head? = some '.') : String.ofList (inQuotes k.toList) ≠ d := by
  intro e
  rw [← e, String.toList_ofList] at h
  simp [inQuotes] at h

theorem owB_type (reprC : Val → String) (b : VDict) :
    Dict.get? (owB reprC b) ".type" = (Dict.get? b ".type").map (fun v => .str (String.ofList (inQuotes (pyStr reprC v).toList))) := by
  induction b with
  | nil => rfl
  | cons p b ih =>
    obtain ⟨k, v⟩ := p
    unfold owB at *
    rw [List.map_cons]
    by_cases h : k = ".type"
    · subst h; simp [owItem]
    · by_cases h2 : isRendered (k, v) = true
      · have := quoted_key_ne k (d := ".type") (by decide)
        simp [owItem, h, h2, Dict.get?_cons, this, ih]
      · simp [owItem, h, h2, Dict.get?_cons, ih]

theorem owB_name (reprC : Val → String) (b : VDict) : Dict.get? (owB reprC b) ".name" = Dict.get? b ".name" := by
  induction b with
  | nil => rfl
  | cons p b ih =>
    obtain ⟨k, v⟩ := p
    unfold owB at *
    rw [List.map_cons]
    by_cases h : k = ".type"
    · subst h; simp [owItem, Dict.get?_cons, ih]
    · by_cases h2 : isRendered (k, v) = true
      · have h3 := quoted_key_ne k (d := ".name") (by decide)
        have h4 : k ≠ ".name" := by
          intro e; subst e
          simp [isRendered] at h2
        simp [owItem, h, h2, Dict.get?_cons, h3, h4, ih]
      · simp [owItem, h, h2, Dict.get?_cons, ih]

theorem isRendered_quoted (p : String × Val) (h : isRendered p = true) : isRendered (String.ofList (inQuotes p.1.toList), p.2) = true := by
  obtain ⟨h1, h2, _⟩ := (isRendered_iff p).1 h
  refine (isRendered_iff _).2 ⟨h1, h2, ?_⟩
  rw [String.toList_ofList]; simp [inQuotes]

theorem type_not_rendered (v : Val) : isRendered (".type", v) = false := by
  simp [isRendered]

theorem owRawOption_eq (reprC : Val → String) (p : String × Val) : owRawOption reprC p = rawOption reprC (owItem reprC p) := by
  obtain ⟨k, v⟩ := p
  unfold owRawOption rawOption owItem
  by_cases h : k = ".type"
  · subst h
    simp [type_not_rendered]
  · by_cases h2 : isRendered (k, v) = true
    · simp [h, h2, isRendered_quoted _ h2]
    · simp [h, h2]

theorem fieldText_type (reprC : Val → String) {b : VDict} (h : (Dict.get? b ".type").isSome) :
    fieldText reprC (owB reprC b) ".type" = inQuotes (fieldText reprC b ".type") := by
  unfold fieldText
  rw [owB_type]
  obtain ⟨v, hv⟩ := Option.isSome_iff_exists.1 h
  simp [hv, pyStr]

theorem fieldText_name (reprC : Val → String) (b : VDict) : fieldText reprC (owB reprC b) ".name" = fieldText reprC b ".name" := by
  unfold fieldText
  rw [owB_name]

theorem owRawBlock_eq (reprC : Val → String) {b : VDict} (h : (Dict.get? b ".type").isSome) : owRawBlock reprC b = rawBlock reprC (owB reprC b) := by
  unfold owRawBlock rawBlock
  rw [fieldText_type reprC h, fieldText_name]
  congr 3
  unfold owB
  rw [List.flatMap_map]
  exact congrArg (fun f => List.flatMap f b) (funext (owRawOption_eq reprC))

theorem owText_eq (reprC : Val → String) (data : List (String × List VDict)) (h : Typed data) :
    owText reprC data = renderUci reprC (owData reprC data) := by
  unfold owText renderUci rawUci owData
  rw [List.flatMap_map]
  congr 1
  refine List.flatMap_congr ?_
  intro p hp
  unfold owRawPackage rawPackage
  congr 2
  rw [List.flatMap_map]
  exact List.flatMap_congr (fun b hb => owRawBlock_eq reprC (h p hp b hb))

theorem shown_owB (reprC : Val → String) (b : VDict) :
    shownOptions (owB reprC b) = (shownOptions b).map (fun p => (String.ofList (inQuotes p.1.toList), p.2)) := by
  induction b with
  | nil => rfl
  | cons p b ih =>
    obtain ⟨k, v⟩ := p
    have e : owB reprC ((k, v) :: b) = owItem reprC (k, v) :: owB reprC b := rfl
    rw [e]
    by_cases h : k = ".type"
    · subst h
      have e1 : ¬ isRendered (".type", v) = true := by simp [type_not_rendered]
      have e2 : ¬ isRendered (owItem reprC (".type", v)) = true := by unfold owItem; simp [type_not_rendered]
      rw [shown_cons_neg e1, shown_cons_neg e2, ih]
    · by_cases h2 : isRendered (k, v) = true
      · have e2 : owItem reprC (k, v) = (String.ofList (inQuotes k.toList), v) := by simp [owItem, h, h2]
        rw [shown_cons_pos h2, e2, shown_cons_pos (isRendered_quoted _ h2), ih, List.map_cons]
      · have e2 : owItem reprC (k, v) = (k, v) := by simp [owItem, h, h2]
        rw [shown_cons_neg h2, e2, shown_cons_neg h2, ih]

theorem ow_words : (" '".toList = [' ', '\'']) ∧ ("' '".toList = ['\'', ' ', '\'']) ∧ ("config '".toList = kwConfig ++ [' ', '\'']) := by
  refine ⟨?_, ?_, ?_⟩ <;> decide

theorem owOptionLines_eq (reprC : Val → String) (p : String × Val) :
    owOptionLines reprC p = optionLines reprC (String.ofList (inQuotes p.1.toList), p.2) := by
  obtain ⟨k, v⟩ := p
  have e : ∀ (kw : String) (x : Chars), '\t' :: kw.toList ++ " '".toList ++ k.toList ++ "' '".toList ++ x ++ "'".toList =
      '\t' :: kw.toList ++ [' '] ++ (String.ofList (inQuotes k.toList)).toList ++ [' ', '\''] ++ x ++ ['\''] := by
    intro kw x
    rw [ow_words.1, ow_words.2.1, kw_lines.2.2.2, String.toList_ofList]
    simp [inQuotes]
  cases v with
  | bool b => cases b <;> (simp only [owOptionLines, optionLines]; rw [e])
  | list l => simp only [owOptionLines, optionLines, e]
  | dict d => simp only [owOptionLines, optionLines, e]
  | none => simp only [owOptionLines, optionLines, e]
  | int i => simp only [owOptionLines, optionLines, e]
  | str s => simp only [owOptionLines, optionLines, e]

theorem owBlockLines_eq (reprC : Val → String) {b : VDict} (h : (Dict.get? b ".type").isSome) :
    owBlockLines reprC b = blockLines reprC (owB reprC b) := by
  unfold owBlockLines blockLines
  rw [fieldText_type reprC h, fieldText_name, shown_owB, List.flatMap_map]
  congr 1
  · rw [ow_words.2.1, ow_words.2.2, kw_lines.1, kw_lines.2.2.1]
    simp [inQuotes]
  · exact congrArg (fun f => List.flatMap f (shownOptions b)) (funext (owOptionLines_eq reprC))

theorem owPackageLines_eq (reprC : Val → String) {p : String × List VDict} (h : ∀ b ∈ p.2, (Dict.get? b ".type").isSome) :
    owPackageLines reprC p = packageLines reprC (p.1, p.2.map (owB reprC)) := by
  unfold owPackageLines packageLines owBlocksLines
  congr 2
  rw [List.flatMap_map]
  exact List.flatMap_congr (fun b hb => by rw [owBlockLines_eq reprC (h b hb)])

theorem owLines_eq (reprC : Val → String) {data : List (String × List VDict)} (h : Typed data) :
    data.flatMap (owPackageLines reprC) = (owData reprC data).flatMap (packageLines reprC) := by
  unfold owData
  rw [List.flatMap_map]
  exact List.flatMap_congr (fun p hp => owPackageLines_eq reprC (h p hp))

theorem clean_owData {reprC : Val → String} {data : List (String × List VDict)} (h : Typed data) (hc : CleanOw reprC data) :
    CleanUci reprC (owData reprC data) := by
  intro q hq
  obtain ⟨p, hp, rfl⟩ := List.mem_map.1 hq
  rw [← owPackageLines_eq reprC (h p hp)]
  exact hc p hp

/-- **C65.** The text holds exactly the lines `package NAME`, `config 'TYPE' 'NAME'`, `option 'KEY' 'VALUE'` and `list 'KEY' 'ITEM'`, in
the order of the data, with blank lines between blocks. -/
theorem C65_exact_lines (reprC : Val → String) (data : List (String × List VDict)) (hne : data ≠ []) (ht : Typed data) (hc : CleanOw reprC data) :
    owText reprC data = joinWith ['\n'] (data.flatMap (owPackageLines reprC)) := by
  rw [owText_eq reprC data ht, C34_exact_lines reprC _ (by unfold owData; simpa using hne) (clean_owData ht hc), owLines_eq reprC ht]

/-! ## The text means what that of OpenWrt means -/

/-- a text without `x` that occurs in `a x b` occurs in `a` or in `b` -/
theorem infix_split {w a b : Chars} {x : Char} (hx : x ∉ w) (h : w <:+: a ++ x :: b) : w <:+: a ∨ w <:+: b := by
  obtain ⟨s, t, h⟩ := h
  rcases List.append_eq_append_iff.1 h with ⟨u, h1, _⟩ | ⟨u, h1, h2⟩
  · exact .inl ⟨s, u, h1.symm⟩
  · cases u with
    | nil => exact .inl ⟨s, [], by simpa using h1⟩
    | cons y u =>
      obtain ⟨rfl, rfl⟩ : x = y ∧ b = u ++ t := by simpa using h2
      rcases List.append_eq_append_iff.1 h1 with ⟨v, _, h4⟩ | ⟨v, _, h4⟩
      · exact absurd (by rw [h4]; simp) hx
      · cases v with
        | nil => exact absurd (by rw [List.nil_append] at h4; rw [← h4]; simp) hx
        | cons z v =>
          obtain ⟨rfl, rfl⟩ : x = z ∧ u = v ++ w := by simpa using h4
          exact .inr ⟨v, t, rfl⟩

def No4 (s : Chars) : Prop := ¬ [' ', ' ', ' ', ' '] <:+: s

theorem No4.quote {a b : Chars} (ha : No4 a) (hb : No4 b) : No4 (a ++ '\'' :: b) := by
  intro h
  rcases infix_split (by decide) h with h | h
  · exact ha h
  · exact hb h

theorem No4.word {a : Chars} (h : IsWord a) : No4 a := by
  intro hi
  have := (h.2 ' ' (hi.subset (by simp))).1
  exact absurd this (by decide)

theorem word_nl {a : Chars} (h : IsWord a) : '\n' ∉ a := by
  intro hi
  have := (h.2 '\n' hi).1
  exact absurd this (by decide)

/-- the statements of an option, in quotes -/
def owStmts (reprC : Val → String) (p : String × Val) : List Stmt :=
  (valueTexts reprC p.2).map (fun t => ⟨['\t'], p.2.isList || p.2.isDict, p.1.toList, .single, .single, t.toList⟩)

def owBlockDoc (reprC : Val → String) (b : VDict) : SBlock :=
  ⟨fieldText reprC b ".type", .single, some (fieldText reprC b ".name", .single), (shownOptions b).flatMap (owStmts reprC), 1⟩

def owPkgDoc (reprC : Val → String) (p : String × List VDict) : SPkg := ⟨p.1.toList, 1, p.2.map (owBlockDoc reprC)⟩

theorem owStmts_lines (reprC : Val → String) (p : String × Val) : (owStmts reprC p).map Stmt.line = owOptionLines reprC p := by
  obtain ⟨k, v⟩ := p
  have h1 : "1".toList = ['1'] := by decide
  have h0 : "0".toList = ['0'] := by decide
  have h2 := ow_words.1
  have h3 := ow_words.2.1
  have h4 := kw_lines.2.2.2
  cases v with
  | list l => simp [owStmts, valueTexts, owOptionLines, Stmt.line, quoted, Val.isList, h2, h3, h4]
  | dict d => simp [owStmts, valueTexts, owOptionLines, Stmt.line, quoted, Val.isList, Val.isDict, Dict.keys, h2, h3, h4]
  | bool b => cases b <;> simp [owStmts, valueTexts, owOptionLines, Stmt.line, quoted, Val.isList, Val.isDict, h1, h0, h2, h3, h4]
  | none => simp [owStmts, valueTexts, owOptionLines, Stmt.line, quoted, Val.isList, Val.isDict, h2, h3, h4]
  | int i => simp [owStmts, valueTexts, owOptionLines, Stmt.line, quoted, Val.isList, Val.isDict, h2, h3, h4]
  | str s => simp [owStmts, valueTexts, owOptionLines, Stmt.line, quoted, Val.isList, Val.isDict, h2, h3, h4]

theorem owBlockDoc_lines (reprC : Val → String) (b : VDict) : (owBlockDoc reprC b).lines = owBlockLines reprC b ++ [[]] := by
  unfold SBlock.lines owBlockLines
  rw [List.cons_append]
  congr 1
  · simp only [owBlockDoc, SBlock.head, quoted]
    have e1 : "config".toList = kwConfig := rfl
    rw [ow_words.2.2, ow_words.2.1, kw_lines.2.2.2, e1]; simp
  · simp only [owBlockDoc, List.replicate_one]
    congr 1
    rw [List.map_flatMap]
    exact congrArg (fun f => List.flatMap f (shownOptions b)) (funext (owStmts_lines reprC))

theorem owPkgDoc_lines (reprC : Val → String) (p : String × List VDict) : (owPkgDoc reprC p).lines = owPackageLines reprC p := by
  unfold SPkg.lines owPackageLines owBlocksLines
  have e1 : "package ".toList = "package".toList ++ [' '] := by decide
  rw [e1]
  simp only [owPkgDoc, List.replicate_one, List.flatMap_map]
  congr 1
  rw [List.singleton_append]
  exact congrArg (fun f => [] :: List.flatMap f p.2) (funext (owBlockDoc_lines reprC))

theorem typed_of_data {reprC : Val → String} {data : List (String × List VDict)} (h : DataUci reprC data) : Typed data := by
  intro p hp b hb
  have := (h.datas p hp b hb).type.1
  unfold fieldText at this
  cases hg : Dict.get? b ".type" with
  | none => rw [hg] at this; exact absurd rfl this
  | some v => rfl

theorem cleanOw_of_data {reprC : Val → String} {data : List (String × List VDict)} (h : DataUci reprC data) : CleanOw reprC data := by
  intro p hp l hl
  have hc := h.clean p hp
  unfold owPackageLines at hl
  rcases List.mem_cons.1 hl with rfl | hl
  · exact hc _ (by unfold packageLines; simp)
  rcases List.mem_cons.1 hl with rfl | hl
  · exact cleanLine_nil
  obtain ⟨b, hb, hl⟩ := List.mem_flatMap.1 hl
  have hd := h.datas p hp b hb
  rcases List.mem_append.1 hl with hl | hl
  · unfold owBlockLines at hl
    rcases List.mem_cons.1 hl with rfl | hl
    · rw [ow_words.2.2, ow_words.2.1, kw_lines.2.2.2]
      have e : kwConfig ++ [' ', '\''] ++ fieldText reprC b ".type" ++ ['\'', ' ', '\''] ++ fieldText reprC b ".name" ++ ['\''] =
          (kwConfig ++ [' ']) ++ '\'' :: (fieldText reprC b ".type" ++ '\'' :: ([' '] ++ '\'' :: (fieldText reprC b ".name" ++ '\'' :: []))) := by simp
      rw [e]
      refine ⟨?_, ?_⟩
      · have := word_nl hd.type
        have := word_nl hd.name
        simp [kwConfig, *]
      · exact No4.quote (by unfold No4; decide +kernel) ((No4.word hd.type).quote (No4.quote (by unfold No4; decide +kernel) ((No4.word hd.name).quote (by unfold No4; decide +kernel))))
    · obtain ⟨o, ho, hl⟩ := List.mem_flatMap.1 hl
      rw [← owStmts_lines] at hl
      obtain ⟨s, hs, rfl⟩ := List.mem_map.1 hl
      obtain ⟨t, ht, rfl⟩ := List.mem_map.1 hs
      have hbase : CleanLine (Stmt.line ⟨['\t'], o.2.isList || o.2.isDict, o.1.toList, .plain, .single, t.toList⟩) := by
        refine hc _ ?_
        unfold packageLines
        simp only [List.mem_cons, List.mem_flatMap, List.mem_append]
        refine .inr (.inr ⟨b, hb, .inl ?_⟩)
        unfold blockLines
        refine List.mem_cons_of_mem _ (List.mem_flatMap.2 ⟨o, ho, ?_⟩)
        rw [← optionStmts_lines]
        exact List.mem_map.2 ⟨_, List.mem_map.2 ⟨t, ht, rfl⟩, rfl⟩
      have hk := hd.words o ho
      have hn := word_nl hk
      have htl := hd.texts o ho t ht
      have hnt : '\n' ∉ t.toList := fun hm => (htl _ hm).1 rfl
      have h4 : No4 t.toList := by
        intro hi
        refine hbase.2 (hi.trans ?_)
        refine ⟨['\t'] ++ ((if o.2.isList || o.2.isDict then "list".toList else "option".toList) ++ ' ' :: (o.1.toList ++ [' ', '\''])), ['\''], ?_⟩
        simp [Stmt.line, quoted]
      have e : Stmt.line ⟨['\t'], o.2.isList || o.2.isDict, o.1.toList, .single, .single, t.toList⟩ =
          (['\t'] ++ (if o.2.isList || o.2.isDict then "list".toList else "option".toList) ++ [' ']) ++ '\'' :: (o.1.toList ++ '\'' :: ([' '] ++ '\'' :: (t.toList ++ '\'' :: []))) := by
        simp [Stmt.line, quoted]
      rw [e]
      refine ⟨?_, ?_⟩
      · cases (o.2.isList || o.2.isDict) <;> simp [hn, hnt]
      · refine No4.quote ?_ ((No4.word hk).quote (No4.quote (by unfold No4; decide +kernel) (h4.quote (by unfold No4; decide +kernel))))
        cases (o.2.isList || o.2.isDict) <;> (unfold No4; decide +kernel)
  · simp at hl; subst hl; exact cleanLine_nil

theorem owPkgDoc_ok {reprC : Val → String} {data : List (String × List VDict)} (h : DataUci reprC data) : ∀ p ∈ data.map (owPkgDoc reprC), p.OK := by
  intro p hp
  obtain ⟨q, hq, rfl⟩ := List.mem_map.1 hp
  refine ⟨h.nameWords q hq, ?_⟩
  intro b hb
  obtain ⟨b, hb', rfl⟩ := List.mem_map.1 hb
  have hr := h.datas q hq b hb'
  refine ⟨hr.type, ?_, ?_⟩
  · intro n q' hn
    simp only [owBlockDoc, Option.some.injEq, Prod.mk.injEq] at hn
    rw [← hn.1]; exact hr.name
  · intro s hs
    obtain ⟨o, ho, hs⟩ := List.mem_flatMap.1 hs
    obtain ⟨t, ht, rfl⟩ := List.mem_map.1 hs
    refine ⟨?_, hr.words o ho, hr.texts o ho t ht, ?_⟩
    · intro c hc; simp at hc; subst hc; decide
    · intro e; cases e

/-- **C65.** The text of this backend and that of the OpenWrt backend are parsed alike: they are the same UCI configuration. -/
theorem C65_same_meaning (reprC : Val → String) (data : List (String × List VDict)) (h : DataUci reprC data) :
    parseUci (owText reprC data) = parseUci (renderUci reprC data) := by
  by_cases hne : data = []
  · subst hne; rfl
  rw [C65_exact_lines reprC data hne (typed_of_data h) (cleanOw_of_data h), renderUci_doc reprC data hne h.clean]
  have e : joinWith ['\n'] (data.flatMap (owPackageLines reprC)) = docText (data.map (owPkgDoc reprC)) := by
    unfold docText
    rw [List.flatMap_map]
    congr 1
    exact congrArg (fun f => List.flatMap f data) (funext (fun p => (owPkgDoc_lines reprC p).symm))
  rw [e]
  refine C38_layout_irrelevant _ _ (owPkgDoc_ok h) (pkgDoc_ok h) ?_
  simp only [List.map_map]
  refine List.map_congr_left ?_
  intro p _
  simp only [Function.comp, SPkg.bare, owPkgDoc, pkgDoc, List.map_map]
  congr 1
  refine List.map_congr_left ?_
  intro b _
  simp only [Function.comp, SBlock.bare, owBlockDoc, blockDoc, Option.map_some, List.map_flatMap]
  congr 2
  refine List.flatMap_congr ?_
  intro o _
  simp [owStmts, optionStmts, Stmt.bare]

/-! ## The members for the packages -/

theorem consHead_ne_nil (c : Chars) (l : List Chars) : consHead c l ≠ [] := by cases l <;> simp [consHead]

theorem splitLit_ne_nil (w : Chars) : ∀ (k : Nat) (s : Chars), splitLit w k s ≠ []
  | _, [] => by simp [splitLit]
  | 0, c :: cs => by
    rw [splitLit]
    split
    · simp
    · exact consHead_ne_nil _ _
  | k + 1, _ :: cs => by rw [splitLit]; exact splitLit_ne_nil w k cs

theorem splitLit_skip (w s : Chars) : ∀ t : Chars, splitLit w t.length (t ++ s) = splitLit w 0 s
  | [] => rfl
  | c :: t => by
    rw [List.length_cons, List.cons_append, splitLit]
    exact splitLit_skip w s t

theorem splitLit_match (w : Chars) (hne : w ≠ []) (s : Chars) : splitLit w 0 (w ++ s) = [] :: splitLit w 0 s := by
  cases w with
  | nil => exact absurd rfl hne
  | cons c t =>
    rw [List.cons_append, splitLit, if_pos ⟨s, by simp⟩]
    congr 1
    rw [List.length_cons, Nat.add_sub_cancel]
    exact splitLit_skip _ s t

/-- inside a text without the word, ending with a line break, nothing is split -/
theorem splitLit_piece (w : Chars) (hw : '\n' ∉ w) (hne : w ≠ []) (p s : Chars) (hp : ¬ w <:+: p) (hl : s = [] ∨ p = [] ∨ p.getLast? = some '\n') :
    splitLit w 0 (p ++ s) = consHead p (splitLit w 0 s) := by
  induction p with
  | nil =>
    cases h : splitLit w 0 s with
    | nil => exact absurd h (splitLit_ne_nil _ _ _)
    | cons x xs => simp [h, consHead]
  | cons c cs ih =>
    have hnp : ¬ w <+: c :: (cs ++ s) := by
      intro hpre
      rw [← List.cons_append] at hpre
      obtain ⟨t, ht⟩ := hpre
      rcases List.append_eq_append_iff.1 ht with ⟨u, h1, _⟩ | ⟨u, h1, h2⟩
      · exact hp ⟨[], u, h1.symm⟩
      · rcases hl with rfl | hl | hl
        · have : u = [] := (List.append_eq_nil_iff.1 h2.symm).1
          subst this
          rw [List.append_nil] at h1
          exact hp (h1 ▸ List.infix_refl _)
        · cases hl
        · exact hw (by rw [h1]; exact List.mem_append_left _ (List.mem_of_getLast? hl))
    rw [List.cons_append, splitLit, if_neg hnp, ih (fun h => hp (h.trans (List.suffix_cons _ _).isInfix)) (by
      rcases hl with h | h | h
      · exact .inl h
      · cases h
      · cases cs with
        | nil => exact .inr (.inl rfl)
        | cons d ds => rw [List.getLast?_cons_cons] at h; exact .inr (.inr h))]
    rw [consHead_append _ _ _ (splitLit_ne_nil _ _ _)]
    rfl

theorem not_infix_lines {w x : Chars} {ls : List Chars} (hw : '\n' ∉ w) (hx : ¬ w <:+: x) (hl : ∀ l ∈ ls, ¬ w <:+: l) : ¬ w <:+: x ++ nlLines ls := by
  induction ls generalizing x with
  | nil => simpa [nlLines] using hx
  | cons l ls ih =>
    rw [nlLines_cons]
    intro h
    rcases infix_split hw h with h | h
    · exact hx h
    · exact ih (hl l (by simp)) (fun y hy => hl y (by simp [hy])) h

theorem splitLit_groups (w : Chars) (hne : w ≠ []) (hw : '\n' ∉ w) (g : Chars × List Chars) (gs : List (Chars × List Chars))
    (h : ∀ g' ∈ g :: gs, ¬ w <:+: g'.1 ∧ ∀ l ∈ g'.2, ¬ w <:+: l) :
    splitLit w 0 (joinWith ['\n'] ((g :: gs).flatMap (fun g => (w ++ g.1) :: g.2))) = [] :: groupPieces (g :: gs) := by
  induction gs generalizing g with
  | nil =>
    obtain ⟨x, ls⟩ := g
    obtain ⟨h1, h2⟩ := h (x, ls) (by simp)
    simp only [List.flatMap_cons, List.flatMap_nil, List.append_nil]
    rw [joinWith_cons, List.append_assoc, splitLit_match w hne]
    have := splitLit_piece w hw hne (x ++ nlLines ls) [] (not_infix_lines hw h1 h2) (.inl rfl)
    rw [List.append_nil] at this
    rw [this]
    simp [splitLit, consHead, groupPieces]
  | cons g2 gs ih =>
    obtain ⟨x, ls⟩ := g
    obtain ⟨h1, h2⟩ := h (x, ls) (by simp)
    have ih := ih g2 (fun g' hg' => h g' (by simp only [List.mem_cons]; right; simpa using hg'))
    have e : joinWith ['\n'] (((x, ls) :: g2 :: gs).flatMap (fun g => (w ++ g.1) :: g.2)) =
        w ++ ((x ++ nlLines ls ++ ['\n']) ++ joinWith ['\n'] ((g2 :: gs).flatMap (fun g => (w ++ g.1) :: g.2))) := by
      have e2 : (g2 :: gs).flatMap (fun g => (w ++ g.1) :: g.2) = (w ++ g2.1) :: (g2.2 ++ gs.flatMap (fun g => (w ++ g.1) :: g.2)) := by simp
      rw [List.flatMap_cons, e2, List.cons_append, joinWith_cons, joinWith_cons, nlLines_append, nlLines_cons]
      simp
    rw [e, splitLit_match w hne, splitLit_piece w hw hne (x ++ nlLines ls ++ ['\n']) _ (by
      rw [show x ++ nlLines ls ++ ['\n'] = x ++ nlLines (ls ++ [[]]) by rw [nlLines_append]; simp [nlLines]]
      refine not_infix_lines hw h1 ?_
      intro l hl
      rcases List.mem_append.1 hl with hl | hl
      · exact h2 l hl
      · simp at hl; subst hl
        intro hc; exact hne (List.infix_nil.1 hc)) (.inr (.inr (by simp))), ih]
    simp [consHead, groupPieces]

/-- the contents of the member for a package -/
def owContents (reprC : Val → String) (p : String × List VDict) : Chars :=
  "package ".toList ++ p.1.toList ++ ['\n', '\n'] ++ joinWith ['\n'] (owBlocksLines reprC p)

/-- a member of the archive for a package: `uci/NAME.conf`, mode 0644, the package as UCI text (possibly followed by a line break) -/
def IsOwMember (reprC : Val → String) (p : String × List VDict) (m : Member) : Prop :=
  m.name = "uci/".toList ++ p.1.toList ++ ".conf".toList ∧ m.mode = 0o644 ∧
    (m.data = utf8 (owContents reprC p) ∨ m.data = utf8 (owContents reprC p ++ ['\n']))

/-- every character written is ASCII, and the word `package ` appears nowhere but at the beginning of the packages -/
def PlainOw (reprC : Val → String) (data : List (String × List VDict)) : Prop :=
  ∀ p ∈ data, (∀ l ∈ owPackageLines reprC p, ∀ c ∈ l, c.toNat < 128) ∧ ∀ l ∈ p.1.toList :: owBlocksLines reprC p, ¬ "package ".toList <:+: l

theorem owPiece_eq {reprC : Val → String} {p : String × List VDict} (hc : ∀ l ∈ owPackageLines reprC p, CleanLine l)
    (ha : ∀ l ∈ owPackageLines reprC p, ∀ c ∈ l, c.toNat < 128) (tail : List Chars) (ht : tail = [] ∨ tail = [[]]) :
    owPiece (p.1.toList ++ nlLines ([] :: owBlocksLines reprC p ++ tail)) =
      .ok ⟨"uci/".toList ++ p.1.toList ++ ".conf".toList, 0o644,
        utf8 (packageWord ++ p.1.toList ++ ['\n', '\n'] ++ joinWith ['\n'] (owBlocksLines reprC p ++ tail))⟩ := by
  have hn : '\n' ∉ p.1.toList := by
    have := (hc _ List.mem_cons_self).1
    intro hm; exact this (by simp [hm])
  have hlines : splitOn '\n' (p.1.toList ++ nlLines ([] :: owBlocksLines reprC p ++ tail)) = p.1.toList :: ([] :: owBlocksLines reprC p ++ tail) := by
    rw [← joinWith_cons, splitOn_joinWith _ (by simp)]
    intro l hl
    rcases List.mem_cons.1 hl with rfl | hl
    · exact hn
    · rcases List.mem_append.1 hl with hl | hl
      · exact (hc l (by unfold owPackageLines; exact List.mem_cons_of_mem _ hl)).1
      · rcases ht with rfl | rfl
        · cases hl
        · simp at hl; subst hl; simp
  have hascii : ∀ c ∈ packageWord ++ p.1.toList ++ ['\n', '\n'] ++ joinWith ['\n'] (owBlocksLines reprC p ++ tail), c.toNat < 128 := by
    intro c hcm
    rcases List.mem_append.1 hcm with hcm | hcm
    · rcases List.mem_append.1 hcm with hcm | hcm
      · exact ha ("package ".toList ++ p.1.toList) (by unfold owPackageLines; simp) c hcm
      · simp at hcm; subst hcm; decide
    rcases mem_joinWith hcm with hcm | ⟨l, hl, hcm⟩
    · simp at hcm; subst hcm; decide
    · rcases List.mem_append.1 hl with hl | hl
      · exact ha l (by unfold owPackageLines; exact List.mem_cons_of_mem _ (List.mem_cons_of_mem _ hl)) c hcm
      · rcases ht with rfl | rfl
        · cases hl
        · simp at hl; subst hl; cases hcm
  unfold owPiece addFile
  rw [hlines, mode0644]
  show Except.ok _ = _
  simp only [List.headD_cons, List.cons_append, List.drop_succ_cons, List.drop_zero]
  rw [utf8_ascii hascii]

theorem ow_pieces {reprC : Val → String} (data : List (String × List VDict)) (hc : CleanOw reprC data) (ha : PlainOw reprC data) :
    ∃ ms, (groupPieces (data.map (fun p => (p.1.toList, [] :: owBlocksLines reprC p)))).mapM owPiece = .ok ms ∧
      List.Forall₂ (fun p m => ∃ tail, (tail = [] ∨ tail = [[]]) ∧
        m = ⟨"uci/".toList ++ p.1.toList ++ ".conf".toList, 0o644,
          utf8 (packageWord ++ p.1.toList ++ ['\n', '\n'] ++ joinWith ['\n'] (owBlocksLines reprC p ++ tail))⟩) data ms := by
  induction data with
  | nil => exact ⟨[], rfl, .nil⟩
  | cons p data ih =>
    have hcp := hc p (by simp)
    have hap := (ha p (by simp)).1
    cases data with
    | nil =>
      have h1 := owPiece_eq hcp hap [] (.inl rfl)
      rw [List.append_nil, List.append_nil] at h1
      refine ⟨[_], ?_, .cons ⟨[], .inl rfl, rfl⟩ .nil⟩
      simp only [List.map_cons, List.map_nil, groupPieces, List.mapM_cons, List.mapM_nil]
      rw [h1, List.append_nil]; rfl
    | cons q data =>
      have h1 := owPiece_eq hcp hap [[]] (.inr rfl)
      obtain ⟨ms, h2, h3⟩ := ih (fun x hx => hc x (by simp only [List.mem_cons] at hx ⊢; exact .inr hx)) (fun x hx => ha x (by simp only [List.mem_cons] at hx ⊢; exact .inr hx))
      refine ⟨_ :: ms, ?_, .cons ⟨[[]], .inr rfl, rfl⟩ h3⟩
      simp only [List.map_cons, groupPieces, List.mapM_cons] at h2 ⊢
      rw [nlLines_append, ← List.append_assoc] at h1
      have h1' : owPiece (p.1.toList ++ nlLines ([] :: owBlocksLines reprC p) ++ ['\n']) = _ := h1
      rw [h1']
      rw [h2]
      rfl

/-- **C65.** The archive has one member per package of the rendered text, in order, named `uci/NAME.conf` and holding that package. -/
theorem C65_one_member_per_package (reprC : Val → String) (data : List (String × List VDict)) (ht : Typed data) (hc : CleanOw reprC data)
    (ha : PlainOw reprC data) : ∃ ms, owSplit (owText reprC data) = .ok ms ∧ List.Forall₂ (IsOwMember reprC) data ms := by
  cases data with
  | nil => exact ⟨[], by rw [show owText reprC [] = [] from rfl]; decide +kernel, .nil⟩
  | cons p data =>
    obtain ⟨ms, h1, h2⟩ := ow_pieces (p :: data) hc ha
    refine ⟨ms, ?_, ?_⟩
    · have e : (p :: data).flatMap (owPackageLines reprC) =
          ((p :: data).map (fun p => (p.1.toList, [] :: owBlocksLines reprC p))).flatMap (fun g => (packageWord ++ g.1) :: g.2) := by
        rw [List.flatMap_map]; rfl
      unfold owSplit
      rw [C65_exact_lines reprC _ (by simp) ht hc, e, List.map_cons, splitLit_groups packageWord (by decide) (by decide)]
      · exact h1
      · intro g hg
        replace hg : g ∈ (p :: data).map (fun p => (p.1.toList, [] :: owBlocksLines reprC p)) := hg
        obtain ⟨q, hq, rfl⟩ := List.mem_map.1 hg
        have := (ha q hq).2
        refine ⟨this _ (by simp), ?_⟩
        intro l hl
        rcases List.mem_cons.1 hl with rfl | hl
        · decide +kernel
        · exact this l (by simp [hl])
    · refine List.Forall₂.imp ?_ h2
      rintro p m ⟨tail, ht, rfl⟩
      refine ⟨rfl, rfl, ?_⟩
      unfold owContents
      rcases ht with rfl | rfl
      · left; rw [List.append_nil]; rfl
      · rcases joinWith_tail (owBlocksLines reprC p) with h | h
        · left; simp only [h]; rfl
        · right; simp only [h]; rw [← List.append_assoc]; rfl

/-- **C65, limit.** The word `package ` inside a value makes a member of what follows it. -/
theorem C65_needs_no_package_word :
    (owSplit (owText (fun _ => "") [("system", [[(".type", .str "system"), (".name", .str "a"), ("notes", .str "my package x")]])])).map
      (fun ms => ms.map (fun m => String.ofList m.name)) = .ok ["uci/system.conf", "uci/x'.conf"] := by decide +kernel

end NJ
