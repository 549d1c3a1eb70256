import Verif.PropsUciRender

/-!
# Properties of the UCI parser: C33, C38

A UCI document is given as a structure (packages, blocks, statements) together with the way it is written
(indentation, blank lines, quotes).
-/

namespace NJ

/-! ## Documents -/

/-- how a word is quoted -/
inductive Quote where
  | plain | single | double

def quoted : Quote → Chars → Chars
  | .plain, v => v
  | .single, v => '\'' :: v ++ ['\'']
  | .double, v => '"' :: v ++ ['"']

/-- a line `option key value` or `list key value` -/
structure Stmt where
  indent : Chars
  isList : Bool
  key : Chars
  keyQuote : Quote
  quote : Quote
  value : Chars

/-- `config type name` and its statements, followed by blank lines -/
structure SBlock where
  ty : Chars
  tyQuote : Quote
  name : Option (Chars × Quote)
  stmts : List Stmt
  blanks : Nat

/-- `package name`, blank lines, blocks -/
structure SPkg where
  name : Chars
  blanks : Nat
  blocks : List SBlock

def Stmt.line (s : Stmt) : Chars :=
  s.indent ++ ((if s.isList then "list".toList else "option".toList) ++ ' ' :: (quoted s.keyQuote s.key ++ ' ' :: quoted s.quote s.value))

/-- what follows `config ` -/
def SBlock.head (b : SBlock) : Chars :=
  match b.name with
  | none => quoted b.tyQuote b.ty
  | some (n, q) => quoted b.tyQuote b.ty ++ ' ' :: quoted q n

def SBlock.lines (b : SBlock) : List Chars :=
  ("config".toList ++ [' '] ++ b.head) :: (b.stmts.map Stmt.line ++ List.replicate b.blanks [])

def SPkg.lines (p : SPkg) : List Chars :=
  ("package".toList ++ [' '] ++ p.name) :: (List.replicate p.blanks [] ++ p.blocks.flatMap SBlock.lines)

/-- the text of a document -/
def docText (ps : List SPkg) : Chars := joinWith ['\n'] (ps.flatMap SPkg.lines)

/-- a word: not empty, without white space and quotes -/
def IsWord (s : Chars) : Prop := s ≠ [] ∧ ∀ c ∈ s, isSpace c = false ∧ c ≠ '\'' ∧ c ≠ '"'

structure Stmt.OK (s : Stmt) : Prop where
  indent : ∀ c ∈ s.indent, isSpace c = true ∧ c ≠ '\n'
  key : IsWord s.key
  value : ∀ c ∈ s.value, c ≠ '\n' ∧ c ≠ '\'' ∧ c ≠ '"'
  /-- without quotes the value is not empty and neither begins nor ends with white space -/
  plain : s.quote = .plain → ∃ c d, s.value.head? = some c ∧ isSpace c = false ∧ s.value.getLast? = some d ∧ isSpace d = false

structure SBlock.OK (b : SBlock) : Prop where
  ty : IsWord b.ty
  name : ∀ n q, b.name = some (n, q) → IsWord n
  stmts : ∀ s ∈ b.stmts, s.OK

structure SPkg.OK (p : SPkg) : Prop where
  name : p.name ≠ [] ∧ ∀ c ∈ p.name, isSpace c = false
  blocks : ∀ b ∈ p.blocks, b.OK

/-! ## What a document means, independently of how it is written -/

/-- an option sets its key, a list statement appends to its key (an error when the key is not a list) -/
def Stmt.meaning (d : VDict) (s : Stmt) : Except PyErr VDict :=
  let key := String.ofList s.key
  let value := Val.str (String.ofList s.value)
  if s.isList then
    match Dict.get? d key with
    | none => .ok (Dict.set d key (.list [value]))
    | some (.list l) => .ok (Dict.set d key (.list (l ++ [value])))
    | some _ => .error .typeError
  else .ok (Dict.set d key value)

/-- the block number `i` of its package: unnamed blocks are named after their type and number; keys are sorted -/
def SBlock.meaning (i : Nat) (b : SBlock) : Except PyErr VDict := do
  let name := match b.name with
    | some (n, _) => n
    | none => b.ty ++ ['_'] ++ showNat i
  let d ← b.stmts.foldlM Stmt.meaning [(".type", .str (String.ofList b.ty)), (".name", .str (String.ofList name))]
  pure (sortedDict (setBlockType d))

def blocksMeaning : Nat → List SBlock → Except PyErr (List Val)
  | _, [] => .ok []
  | i, b :: bs => do
    let d ← b.meaning (i + 1)
    let r ← blocksMeaning (i + 1) bs
    pure (.dict d :: r)

def docMeaning (acc : VDict) : List SPkg → Except PyErr VDict
  | [] => .ok acc
  | p :: ps => do
    let bs ← blocksMeaning 0 p.blocks
    docMeaning (Dict.set acc (String.ofList p.name) (.list bs)) ps

/-! ## One statement -/

theorem getLast?_append_ne {α} (a b : List α) (h : b ≠ []) : (a ++ b).getLast? = b.getLast? := by
  rw [List.getLast?_append]
  cases b with
  | nil => exact absurd rfl h
  | cons x xs =>
    have : (x :: xs).getLast? ≠ none := by simp
    cases hb : (x :: xs).getLast? with
    | none => exact absurd hb this
    | some y => rfl

theorem quoted_last {q : Quote} {v : Chars} (h : q = .plain → ∃ c d, v.head? = some c ∧ isSpace c = false ∧ v.getLast? = some d ∧ isSpace d = false) :
    ∃ c d, (quoted q v).head? = some c ∧ isSpace c = false ∧ (quoted q v).getLast? = some d ∧ isSpace d = false := by
  cases q with
  | plain => exact h rfl
  | single => exact ⟨'\'', '\'', rfl, by decide, getLast?_append_ne ('\'' :: v) ['\''] (by simp), by decide⟩
  | double => exact ⟨'"', '"', rfl, by decide, getLast?_append_ne ('"' :: v) ['"'] (by simp), by decide⟩

theorem IsWord.ends {v : Chars} (h : IsWord v) : ∃ c d, v.head? = some c ∧ isSpace c = false ∧ v.getLast? = some d ∧ isSpace d = false := by
  obtain ⟨hne, hall⟩ := h
  cases v with
  | nil => exact absurd rfl hne
  | cons c v =>
    refine ⟨c, (c :: v).getLast (by simp), rfl, (hall c (by simp)).1, List.getLast?_eq_getLast_of_ne_nil (by simp), ?_⟩
    exact (hall _ (List.getLast_mem _)).1

theorem stripQuotes_quoted {q : Quote} {v : Chars} (h : ∀ c ∈ v, c ≠ '\'' ∧ c ≠ '"') : stripQuotes (quoted q v) = v := by
  have hv : v.filter (fun c => c != '\'' && c != '"') = v := by
    rw [List.filter_eq_self]
    intro c hc
    obtain ⟨h1, h2⟩ := h c hc
    simp [h1, h2]
  cases q with
  | plain => exact hv
  | single => simp [stripQuotes, quoted, List.filter_append, hv]
  | double => simp [stripQuotes, quoted, List.filter_append, hv]

theorem strip_core {a b : Chars} (ha : ∀ c ∈ a, isSpace c = true) (hb : ∃ c d, b.head? = some c ∧ isSpace c = false ∧ b.getLast? = some d ∧ isSpace d = false) :
    strip (a ++ b) = b := by
  obtain ⟨c, d, h1, h2, h3, h4⟩ := hb
  unfold strip
  rw [lstrip_append_space ha]
  cases b with
  | nil => cases h1
  | cons x b =>
    simp at h1; subst h1
    rw [lstrip_cons h2, rstrip_of_last]
    intro e he
    rw [h3] at he; cases he; exact h4

theorem quoted_ne {q : Quote} {v : Chars} (h : v ≠ []) : quoted q v ≠ [] := by cases q <;> simp [quoted, h]

theorem quoted_nospace {q : Quote} {v : Chars} (h : ∀ c ∈ v, isSpace c = false) : ∀ c ∈ quoted q v, isSpace c = false := by
  intro c hc
  cases q with
  | plain => exact h c hc
  | single =>
    simp only [quoted, List.cons_append, List.mem_cons, List.mem_append, List.not_mem_nil, or_false] at hc
    rcases hc with rfl | hc | rfl
    · decide
    · exact h c hc
    · decide
  | double =>
    simp only [quoted, List.cons_append, List.mem_cons, List.mem_append, List.not_mem_nil, or_false] at hc
    rcases hc with rfl | hc | rfl
    · decide
    · exact h c hc
    · decide

theorem parseRest_eq {key qv : Chars} (hk : key ≠ [] ∧ ∀ c ∈ key, isSpace c = false) (hq : ∃ c d, qv.head? = some c ∧ isSpace c = false ∧ qv.getLast? = some d ∧ isSpace d = false) :
    parseRest (' ' :: (key ++ ' ' :: qv)) = (key, qv) := by
  have h1 : lstrip (' ' :: (key ++ ' ' :: qv)) = key ++ ' ' :: qv := by
    cases key with
    | nil => exact absurd rfl hk.1
    | cons x key =>
      have h2 := hk.2 x (by simp)
      have := lstrip_append_space (s := [' ']) (t := x :: (key ++ ' ' :: qv)) (by simp; decide)
      rw [show ' ' :: (x :: key ++ ' ' :: qv) = [' '] ++ x :: (key ++ ' ' :: qv) from rfl, this]
      exact lstrip_cons h2 _
  have h2 : (key ++ ' ' :: qv).takeWhile (fun c => !isSpace c) = key := by
    rw [List.takeWhile_append_of_pos (by intro c hc; simp [hk.2 c hc])]
    rw [List.takeWhile_cons_of_neg (by simp [show isSpace ' ' = true by decide])]
    simp
  have h3 : (key ++ ' ' :: qv).dropWhile (fun c => !isSpace c) = ' ' :: qv := by
    rw [List.dropWhile_append_of_pos (by intro c hc; simp [hk.2 c hc])]
    rw [List.dropWhile_cons_of_neg (by simp [show isSpace ' ' = true by decide])]
  have h4 : lstrip (' ' :: qv) = qv := by
    obtain ⟨c, d, h1, h2, _⟩ := hq
    cases qv with
    | nil => cases h1
    | cons x qv =>
      simp at h1; subst h1
      have := lstrip_append_space (s := [' ']) (t := x :: qv) (by simp; decide)
      rw [show ' ' :: x :: qv = [' '] ++ x :: qv from rfl, this]
      exact lstrip_cons h2 _
  unfold parseRest
  simp only [h1, h2, h3, h4]

theorem Stmt.ends {s : Stmt} (h : s.OK) : ∃ c d, ((if s.isList then kwList else kwOption) ++ ' ' :: (quoted s.keyQuote s.key ++ ' ' :: quoted s.quote s.value)).head? = some c ∧
    isSpace c = false ∧ ((if s.isList then kwList else kwOption) ++ ' ' :: (quoted s.keyQuote s.key ++ ' ' :: quoted s.quote s.value)).getLast? = some d ∧ isSpace d = false := by
  obtain ⟨c, d, h1, h2, h3, h4⟩ := quoted_last h.plain
  have hne : quoted s.quote s.value ≠ [] := by intro e; rw [e] at h1; cases h1
  refine ⟨if s.isList then 'l' else 'o', d, ?_, ?_, ?_, h4⟩
  · split <;> rfl
  · split <;> decide
  · rw [show (if s.isList then kwList else kwOption) ++ ' ' :: (quoted s.keyQuote s.key ++ ' ' :: quoted s.quote s.value) =
      ((if s.isList then kwList else kwOption) ++ ' ' :: (quoted s.keyQuote s.key ++ [' '])) ++ quoted s.quote s.value by simp]
    rw [getLast?_append_ne _ _ hne, h3]

theorem parseLine_stmt {s : Stmt} (h : s.OK) : parseLine s.line = some (s.isList, quoted s.keyQuote s.key, quoted s.quote s.value) := by
  have hl : s.line = s.indent ++ ((if s.isList then kwList else kwOption) ++ ' ' :: (quoted s.keyQuote s.key ++ ' ' :: quoted s.quote s.value)) := rfl
  have hs := strip_core (fun c hc => (h.indent c hc).1) (Stmt.ends h)
  unfold parseLine
  simp only [hl, hs]
  have hr := parseRest_eq (key := quoted s.keyQuote s.key) ⟨quoted_ne h.key.1, quoted_nospace (fun c hc => (h.key.2 c hc).1)⟩ (quoted_last h.plain)
  cases hi : s.isList with
  | false =>
    have e : stripPrefix kwOption (kwOption ++ ' ' :: (quoted s.keyQuote s.key ++ ' ' :: quoted s.quote s.value)) = some (' ' :: (quoted s.keyQuote s.key ++ ' ' :: quoted s.quote s.value)) :=
      stripPrefix_some.2 rfl
    simp only [Bool.false_eq_true, if_false, e, hr]
  | true =>
    have e1 : stripPrefix kwOption (kwList ++ ' ' :: (quoted s.keyQuote s.key ++ ' ' :: quoted s.quote s.value)) = none := rfl
    have e2 : stripPrefix kwList (kwList ++ ' ' :: (quoted s.keyQuote s.key ++ ' ' :: quoted s.quote s.value)) = some (' ' :: (quoted s.keyQuote s.key ++ ' ' :: quoted s.quote s.value)) :=
      stripPrefix_some.2 rfl
    simp only [if_true, e1, e2, hr]

theorem parseLines_stmts (ss : List Stmt) (h : ∀ s ∈ ss, s.OK) (d : VDict) : parseLines d (ss.map Stmt.line) = ss.foldlM Stmt.meaning d := by
  induction ss generalizing d with
  | nil => rfl
  | cons s ss ih =>
    have hs := h s (by simp)
    rw [List.map_cons, parseLines, parseLine_stmt hs, List.foldlM_cons]
    have : addStmt d s.isList (quoted s.keyQuote s.key) (quoted s.quote s.value) = s.meaning d := by
      unfold addStmt Stmt.meaning
      rw [stripQuotes_quoted (fun c hc => (h s (by simp)).value c hc |>.2)]
      have hk : stripQuotes (quoted s.keyQuote s.key) = s.key := stripQuotes_quoted (fun c hc => (hs.key.2 c hc).2)
      rw [hk]
      simp only []
      split
      · split <;> simp_all
      · rfl
    simp only [this]
    cases hm : s.meaning d with
    | error e => rfl
    | ok d' => exact ih (fun x hx => h x (by simp [hx])) d'

/-! ## Words -/

theorem wordsAux_word {a : Chars} (h : ∀ c ∈ a, isSpace c = false) (cur s : Chars) : wordsAux cur (a ++ s) = wordsAux (cur ++ a) s := by
  induction a generalizing cur with
  | nil => simp
  | cons c a ih =>
    rw [List.cons_append, wordsAux, if_neg (by simp [h c (by simp)]), ih (fun x hx => h x (by simp [hx]))]
    simp

theorem wordsAux_end {cur : Chars} (h : cur ≠ []) : wordsAux cur [] = [cur] := by
  cases cur with
  | nil => exact absurd rfl h
  | cons c cs => rfl

theorem words_one {a : Chars} (hne : a ≠ []) (h : ∀ c ∈ a, isSpace c = false) : words a = [a] := by
  have := wordsAux_word h [] []
  rw [List.append_nil] at this
  unfold words
  rw [this, List.nil_append, wordsAux_end hne]

theorem words_two {a b : Chars} (hne : a ≠ []) (h : ∀ c ∈ a, isSpace c = false) (hne' : b ≠ []) (h' : ∀ c ∈ b, isSpace c = false) :
    words (a ++ ' ' :: b) = [a, b] := by
  unfold words
  rw [wordsAux_word h, List.nil_append, wordsAux, if_pos (by decide)]
  have he : a.isEmpty = false := by cases a <;> simp_all
  rw [he]
  simp only [Bool.false_eq_true, if_false]
  congr 1
  exact words_one hne' h'

theorem quoted_ne_nil {q : Quote} {v : Chars} (h : v ≠ []) : quoted q v ≠ [] := by
  cases q <;> simp [quoted, h]

/-! ## One block -/

theorem nl_of_nospace {v : Chars} (h : ∀ c ∈ v, isSpace c = false) : '\n' ∉ v := by
  intro hc
  have := h _ hc
  exact absurd this (by decide)

theorem Stmt.nonl {s : Stmt} (h : s.OK) : '\n' ∉ s.line := by
  have h1 : '\n' ∉ s.indent := fun hc => (h.indent _ hc).2 rfl
  have h2 := nl_of_nospace (quoted_nospace (q := s.keyQuote) (fun c hc => (h.key.2 c hc).1))
  have h3 : '\n' ∉ quoted s.quote s.value := by
    have : '\n' ∉ s.value := fun hc => (h.value _ hc).1 rfl
    cases s.quote <;> simp [quoted, this]
  have hl : s.line = s.indent ++ ((if s.isList then kwList else kwOption) ++ ' ' :: (quoted s.keyQuote s.key ++ ' ' :: quoted s.quote s.value)) := rfl
  have h4 : '\n' ∉ (if s.isList then kwList else kwOption) := by split <;> decide
  rw [hl]
  simp [h1, h2, h3, h4]

theorem SBlock.head_nonl {b : SBlock} (h : b.OK) : '\n' ∉ b.head := by
  have h1 := nl_of_nospace (quoted_nospace (q := b.tyQuote) (fun c hc => (h.ty.2 c hc).1))
  unfold SBlock.head
  split
  · exact h1
  · next n q hn =>
    have h2 := nl_of_nospace (quoted_nospace (q := q) (fun c hc => ((h.name n q hn).2 c hc).1))
    simp [h1, h2]

theorem SBlock.head_ends {b : SBlock} (h : b.OK) : ∃ c d, b.head.head? = some c ∧ isSpace c = false ∧ b.head.getLast? = some d ∧ isSpace d = false := by
  obtain ⟨c, d, h1, h2, h3, h4⟩ := quoted_last (q := b.tyQuote) (fun _ => h.ty.ends)
  unfold SBlock.head
  split
  · exact ⟨c, d, h1, h2, h3, h4⟩
  · next n q hn =>
    obtain ⟨c', d', h1', h2', h3', h4'⟩ := quoted_last (q := q) (fun _ => (h.name n q hn).ends)
    have hne : quoted q n ≠ [] := by intro e; rw [e] at h1'; cases h1'
    refine ⟨c, d', ?_, h2, ?_, h4'⟩
    · cases hq : quoted b.tyQuote b.ty with
      | nil => rw [hq] at h1; cases h1
      | cons x xs => rw [hq] at h1; exact h1
    · rw [show quoted b.tyQuote b.ty ++ ' ' :: quoted q n = (quoted b.tyQuote b.ty ++ [' ']) ++ quoted q n by simp,
        getLast?_append_ne _ _ hne, h3']

theorem Stmt.line_ends {s : Stmt} (h : s.OK) : ∃ d, s.line.getLast? = some d ∧ isSpace d = false := by
  obtain ⟨c, d, h1, h2, h3, h4⟩ := Stmt.ends h
  have hl : s.line = s.indent ++ ((if s.isList then kwList else kwOption) ++ ' ' :: (quoted s.keyQuote s.key ++ ' ' :: quoted s.quote s.value)) := rfl
  rw [hl]
  refine ⟨d, ?_, h4⟩
  rw [getLast?_append_ne, h3]
  intro e; rw [e] at h3; cases h3

theorem nlLines_last {ls : List Chars} {x : Chars} (hx : x ≠ []) (a : Chars) : (a ++ nlLines (ls ++ [x])).getLast? = x.getLast? := by
  rw [nlLines_append, nlLines_cons]
  rw [show a ++ (nlLines ls ++ '\n' :: (x ++ nlLines [])) = (a ++ nlLines ls ++ ['\n']) ++ x by simp [nlLines]]
  exact getLast?_append_ne _ _ hx

theorem joinWith_ends {x : Chars} {ls : List Chars} (hx : ∃ c d, x.head? = some c ∧ isSpace c = false ∧ x.getLast? = some d ∧ isSpace d = false)
    (hl : ∀ l ∈ ls, ∃ d, l.getLast? = some d ∧ isSpace d = false) :
    ∃ c d, (joinWith ['\n'] (x :: ls)).head? = some c ∧ isSpace c = false ∧ (joinWith ['\n'] (x :: ls)).getLast? = some d ∧ isSpace d = false := by
  obtain ⟨c, d, h1, h2, h3, h4⟩ := hx
  rw [joinWith_cons]
  have hh : (x ++ nlLines ls).head? = some c := by
    cases x with
    | nil => cases h1
    | cons y ys => exact h1
  rcases List.eq_nil_or_concat ls with rfl | ⟨init, last, rfl⟩
  · exact ⟨c, d, hh, h2, by simpa [nlLines] using h3, h4⟩
  · obtain ⟨e, he, hs⟩ := hl last (by simp)
    refine ⟨c, e, hh, h2, ?_, hs⟩
    rw [List.concat_eq_append, nlLines_last (by intro e'; rw [e'] at he; cases he), he]

theorem joinWith_blanks (x : Chars) (ls : List Chars) (n : Nat) :
    joinWith ['\n'] (x :: (ls ++ List.replicate n [])) = joinWith ['\n'] (x :: ls) ++ List.replicate n '\n' := by
  rw [joinWith_cons, joinWith_cons, nlLines_append, List.append_assoc]
  congr 2
  induction n with
  | zero => rfl
  | succ n ih => rw [List.replicate_succ, nlLines_cons, ih]; rfl

theorem block_text {b : SBlock} (h : b.OK) : strip (joinWith ['\n'] (b.head :: (b.stmts.map Stmt.line ++ List.replicate b.blanks []))) =
    joinWith ['\n'] (b.head :: b.stmts.map Stmt.line) := by
  rw [joinWith_blanks, strip_append_breaks]
  have := strip_core (a := []) (by simp) (joinWith_ends (SBlock.head_ends h) (ls := b.stmts.map Stmt.line) (by
    intro l hl
    obtain ⟨s, hs, rfl⟩ := List.mem_map.1 hl
    exact Stmt.line_ends (h.stmts s hs)))
  rwa [List.nil_append] at this

theorem parseBlock_text {b : SBlock} (h : b.OK) (i : Nat) : parseBlock (joinWith ['\n'] (b.head :: b.stmts.map Stmt.line)) i = b.meaning i := by
  unfold parseBlock
  have hsplit : splitOn '\n' (joinWith ['\n'] (b.head :: b.stmts.map Stmt.line)) = b.head :: b.stmts.map Stmt.line := by
    apply splitOn_joinWith _ (by simp)
    intro w hw
    rcases List.mem_cons.1 hw with rfl | hw
    · exact SBlock.head_nonl h
    · obtain ⟨s, hs, rfl⟩ := List.mem_map.1 hw
      exact Stmt.nonl (h.stmts s hs)
  have htype : stripQuotes (quoted b.tyQuote b.ty) = b.ty := stripQuotes_quoted (fun c hc => (h.ty.2 c hc).2)
  have hty := quoted_nospace (q := b.tyQuote) (fun c hc => (h.ty.2 c hc).1)
  have htne := quoted_ne_nil (q := b.tyQuote) h.ty.1
  rw [hsplit]
  unfold SBlock.meaning
  cases hn : b.name with
  | none =>
    have hw : words b.head = [quoted b.tyQuote b.ty] := by
      have e : b.head = quoted b.tyQuote b.ty := by unfold SBlock.head; rw [hn]
      rw [e]; exact words_one htne hty
    simp only [List.headD_cons, List.tail_cons, hw, htype]
    rw [parseLines_stmts _ h.stmts]
  | some nq =>
    obtain ⟨n, q⟩ := nq
    have hwn := h.name n q hn
    have hw : words b.head = [quoted b.tyQuote b.ty, quoted q n] := by
      have e : b.head = quoted b.tyQuote b.ty ++ ' ' :: quoted q n := by unfold SBlock.head; rw [hn]
      rw [e]; exact words_two htne hty (quoted_ne_nil hwn.1) (quoted_nospace (fun c hc => (hwn.2 c hc).1))
    have hname : stripQuotes (quoted q n) = n := stripQuotes_quoted (fun c hc => (hwn.2 c hc).2)
    simp only [List.headD_cons, List.tail_cons, hw, htype, hname]
    rw [parseLines_stmts _ h.stmts]

/-! ## Chunks of documents -/

theorem stripPrefix_none {w l : Chars} (h : ¬ w <+: l) : stripPrefix w l = none := by
  cases hs : stripPrefix w l with
  | none => rfl
  | some r => exact absurd ⟨r, (stripPrefix_some.1 hs).symm⟩ h

theorem chunks_plain (w : Chars) (pre ls : List Chars) (h : ∀ l ∈ pre, ¬ (w ++ [' ']) <+: l) :
    chunks w (pre ++ ls) = (pre ++ (chunks w ls).1, (chunks w ls).2) := by
  induction pre with
  | nil => rfl
  | cons l pre ih =>
    rw [List.cons_append, chunks, stripPrefix_none (h l (by simp)), ih (fun x hx => h x (by simp [hx]))]
    rfl

theorem chunks_groups {α} (w : Chars) (xs : List α) (f : α → Chars) (g : α → List Chars)
    (h : ∀ x ∈ xs, ∀ l ∈ g x, ¬ (w ++ [' ']) <+: l) :
    chunks w (xs.flatMap (fun x => (w ++ [' '] ++ f x) :: g x)) = ([], xs.map (fun x => f x :: g x)) := by
  induction xs with
  | nil => rfl
  | cons x xs ih =>
    have ih := ih (fun y hy => h y (by simp [hy]))
    rw [List.flatMap_cons, List.cons_append, chunks]
    have e : stripPrefix (w ++ [' ']) (w ++ [' '] ++ f x) = some (f x) := stripPrefix_some.2 rfl
    rw [e, chunks_plain w _ _ (h x (by simp)), ih]
    simp

theorem strip_idem (s : Chars) : strip (strip s) = strip s := by
  have hlast : ∀ t : Chars, ∀ c, (rstrip t).getLast? = some c → isSpace c = false := by
    intro t c hc
    unfold rstrip at hc
    rw [List.getLast?_reverse] at hc
    have := List.head?_dropWhile_not isSpace t.reverse
    rw [hc] at this
    simpa using this
  apply strip_eq_self
  · intro c hc
    have h1 : rstrip (lstrip s) <+: lstrip s := by
      unfold rstrip
      rw [← List.reverse_suffix, List.reverse_reverse]
      exact List.dropWhile_suffix _
    have h2 : (lstrip s).head? = some c := by
      obtain ⟨t, ht⟩ := h1
      unfold strip at hc
      cases hr : rstrip (lstrip s) with
      | nil => rw [hr] at hc; cases hc
      | cons x xs => rw [hr] at hc ht; rw [← ht]; exact hc
    have := List.head?_dropWhile_not isSpace s
    unfold lstrip at h2
    rw [h2] at this
    simpa using this
  · exact hlast _

theorem parseBlocks_strip (n : Nat) (rs : List Chars) : parseBlocks n rs = parseBlocks n (rs.map strip) := by
  induction rs generalizing n with
  | nil => rfl
  | cons r rs ih => rw [List.map_cons, parseBlocks, parseBlocks, strip_idem, ← ih, ← ih]

theorem parsePackages_strip (acc : VDict) (rs : List Chars) : parsePackages acc rs = parsePackages acc (rs.map strip) := by
  induction rs generalizing acc with
  | nil => rfl
  | cons r rs ih =>
    rw [List.map_cons, parsePackages, parsePackages, strip_idem]
    simp only [← ih]

theorem not_prefix_head {w l : Chars} (hne : w ≠ []) (h : l.head? ≠ w.head?) : ¬ w <+: l := by
  rintro ⟨t, rfl⟩
  cases w with
  | nil => exact hne rfl
  | cons x w => exact h rfl

theorem goodLine_head {w l : Chars} (hne : w ≠ []) (hn : '\n' ∉ l) (h : l.head? ≠ w.head?) : GoodLine w l :=
  ⟨hn, fun hp => absurd hp (not_prefix_head hne h)⟩

theorem prefix_kw {w l : Chars} (h : ¬ w <+: l) : ¬ (w ++ [' ']) <+: l := fun ⟨t, ht⟩ => h ⟨[' '] ++ t, by rw [← ht]; simp⟩

theorem Stmt.head {s : Stmt} (h : s.OK) : s.line.head? ≠ some 'p' ∧ s.line.head? ≠ some 'c' := by
  have hl : s.line = s.indent ++ ((if s.isList then kwList else kwOption) ++ ' ' :: (quoted s.keyQuote s.key ++ ' ' :: quoted s.quote s.value)) := rfl
  rw [hl]
  cases hi : s.indent with
  | nil =>
    cases s.isList <;> exact ⟨by simp [kwList, kwOption], by simp [kwList, kwOption]⟩
  | cons c cs =>
    have := (h.indent c (by rw [hi]; simp)).1
    simp only [List.cons_append, List.head?_cons]
    constructor
    · intro e; cases e; exact absurd this (by decide)
    · intro e; cases e; exact absurd this (by decide)

/-- the lines of a block, apart from the first, start neither a block nor a package -/
theorem SBlock.rest_head {b : SBlock} (h : b.OK) (l : Chars) (hl : l ∈ b.stmts.map Stmt.line ++ List.replicate b.blanks []) :
    l.head? ≠ some 'p' ∧ l.head? ≠ some 'c' ∧ '\n' ∉ l := by
  rcases List.mem_append.1 hl with hl | hl
  · obtain ⟨s, hs, rfl⟩ := List.mem_map.1 hl
    exact ⟨(Stmt.head (h.stmts s hs)).1, (Stmt.head (h.stmts s hs)).2, Stmt.nonl (h.stmts s hs)⟩
  · rw [List.eq_of_mem_replicate hl]; simp

theorem kwConfig_eq : "config".toList = kwConfig := rfl
theorem kwPackage_eq : "package".toList = kwPackage := rfl

theorem SBlock.lines_eq (b : SBlock) : b.lines = (kwConfig ++ [' '] ++ b.head) :: (b.stmts.map Stmt.line ++ List.replicate b.blanks []) := rfl

theorem uciBlocks_lines (k : Nat) (bs : List SBlock) (h : ∀ b ∈ bs, b.OK) (ls : List Chars) (n : Nat)
    (hls : ls ++ List.replicate n [] = List.replicate k [] ++ bs.flatMap SBlock.lines) :
    uciBlocks (joinWith ['\n'] ls) = blocksMeaning 0 bs := by
  have hgood : ∀ l ∈ ls, GoodLine kwConfig l := by
    intro l hl
    have : l ∈ List.replicate k [] ++ bs.flatMap SBlock.lines := by rw [← hls]; exact List.mem_append_left _ hl
    rcases List.mem_append.1 this with hl | hl
    · rw [List.eq_of_mem_replicate hl]
      exact goodLine_head kwc.2.1 (by simp) (by simp [kwc.1])
    · obtain ⟨b, hb, hl⟩ := List.mem_flatMap.1 hl
      rw [SBlock.lines_eq] at hl
      rcases List.mem_cons.1 hl with rfl | hl
      · refine ⟨?_, fun _ => ⟨b.head, rfl⟩⟩
        have := SBlock.head_nonl (h b hb)
        simp [this, kwc.2.2]
      · obtain ⟨_, h2, h3⟩ := SBlock.rest_head (h b hb) l hl
        exact goodLine_head kwc.2.1 h3 (by rw [kwc.1]; exact h2)
  unfold uciBlocks
  rw [parseBlocks_strip, splitKw_strip kwConfig kwc.2.1 kwc.2.2 ls hgood, ← chunkTexts_blanks kwConfig ls n, hls]
  unfold chunkTexts
  have hc : chunks kwConfig (List.replicate k [] ++ bs.flatMap SBlock.lines) =
      (List.replicate k [], bs.map (fun b => b.head :: (b.stmts.map Stmt.line ++ List.replicate b.blanks []))) := by
    rw [chunks_plain]
    · have := chunks_groups kwConfig bs SBlock.head (fun b => b.stmts.map Stmt.line ++ List.replicate b.blanks []) (by
        intro b hb l hl
        obtain ⟨_, h2, _⟩ := SBlock.rest_head (h b hb) l hl
        exact prefix_kw (not_prefix_head kwc.2.1 (by rw [kwc.1]; exact h2)))
      have e : bs.flatMap SBlock.lines = bs.flatMap (fun b => (kwConfig ++ [' '] ++ b.head) :: (b.stmts.map Stmt.line ++ List.replicate b.blanks [])) := rfl
      rw [e, this]
      simp
    · intro l hl
      rw [List.eq_of_mem_replicate hl]
      exact prefix_kw (not_prefix_head kwc.2.1 (by simp [kwc.1]))
  rw [hc]
  have h0 : strip (joinWith ['\n'] (List.replicate k [])) = [] := by
    apply strip_space
    intro c hc
    cases k with
    | zero => simp [joinWith] at hc
    | succ k =>
      have := joinWith_blanks [] [] k
      rw [List.nil_append] at this
      rw [List.replicate_succ, this] at hc
      simp only [joinWith, List.nil_append] at hc
      rw [List.eq_of_mem_replicate hc]; decide
  simp only [h0]
  rw [parseBlocks]
  simp only [show strip [] = [] from rfl, List.isEmpty_nil, if_true]
  clear hc h0 hgood hls
  generalize 0 = i
  induction bs generalizing i with
  | nil => rfl
  | cons b bs ih =>
    have hb := h b (by simp)
    rw [List.map_cons, List.map_cons, parseBlocks, strip_idem, block_text hb, blocksMeaning]
    have hne : (joinWith ['\n'] (b.head :: b.stmts.map Stmt.line)).isEmpty = false := by
      obtain ⟨c, d, h1, _⟩ := SBlock.head_ends hb
      rw [joinWith_cons]
      cases hh : b.head with
      | nil => rw [hh] at h1; cases h1
      | cons x xs => rfl
    rw [hne, parseBlock_text hb]
    simp only [Bool.false_eq_true, if_false]
    rw [ih (fun x hx => h x (by simp [hx]))]

/-! ## Packages -/

/-- blank lines at the end can be told apart -/
theorem trailing_blanks (ls : List Chars) : ∃ ls' n, ls = ls' ++ List.replicate n [] ∧ (ls' = [] ∨ ∃ a x, ls' = a ++ [x] ∧ x ≠ []) := by
  induction ls with
  | nil => exact ⟨[], 0, rfl, .inl rfl⟩
  | cons x l ih =>
    obtain ⟨l', n, h1, h2⟩ := ih
    rcases h2 with rfl | ⟨a, y, rfl, hy⟩
    · cases x with
      | nil => exact ⟨[], n + 1, by rw [h1, List.replicate_succ]; rfl, .inl rfl⟩
      | cons c cs => exact ⟨[c :: cs], n, by rw [h1]; rfl, .inr ⟨[], c :: cs, rfl, by simp⟩⟩
    · exact ⟨x :: (a ++ [y]), n, by rw [h1]; simp, .inr ⟨x :: a, y, rfl, hy⟩⟩

theorem SBlock.line_ends {b : SBlock} (h : b.OK) (l : Chars) (hl : l ∈ b.lines) : l = [] ∨ ∃ d, l.getLast? = some d ∧ isSpace d = false := by
  rw [SBlock.lines_eq] at hl
  rcases List.mem_cons.1 hl with rfl | hl
  · obtain ⟨c, d, h1, _, h3, h4⟩ := SBlock.head_ends h
    right
    refine ⟨d, ?_, h4⟩
    rw [getLast?_append_ne, h3]
    intro e; rw [e] at h1; cases h1
  · rcases List.mem_append.1 hl with hl | hl
    · obtain ⟨s, hs, rfl⟩ := List.mem_map.1 hl
      exact .inr (Stmt.line_ends (h.stmts s hs))
    · left; exact List.eq_of_mem_replicate hl

theorem pkg_text {p : SPkg} (h : p.OK) : ∃ ls n, ls ++ List.replicate n [] = List.replicate p.blanks [] ++ p.blocks.flatMap SBlock.lines ∧
    strip (joinWith ['\n'] (p.name :: (List.replicate p.blanks [] ++ p.blocks.flatMap SBlock.lines))) = p.name ++ nlLines ls := by
  obtain ⟨ls, n, h1, h2⟩ := trailing_blanks (List.replicate p.blanks [] ++ p.blocks.flatMap SBlock.lines)
  refine ⟨ls, n, h1.symm, ?_⟩
  have hall : ∀ l ∈ ls, l = [] ∨ ∃ d, l.getLast? = some d ∧ isSpace d = false := by
    intro l hl
    have : l ∈ List.replicate p.blanks [] ++ p.blocks.flatMap SBlock.lines := by rw [h1]; exact List.mem_append_left _ hl
    rcases List.mem_append.1 this with hl | hl
    · left; exact List.eq_of_mem_replicate hl
    · obtain ⟨b, hb, hl⟩ := List.mem_flatMap.1 hl
      exact SBlock.line_ends (h.blocks b hb) l hl
  rw [h1, joinWith_blanks, strip_append_breaks, joinWith_cons]
  obtain ⟨hne, hsp⟩ := h.name
  have hhead : ∃ c, (p.name ++ nlLines ls).head? = some c ∧ isSpace c = false := by
    cases hn : p.name with
    | nil => exact absurd hn hne
    | cons x xs => exact ⟨x, rfl, hsp x (by rw [hn]; simp)⟩
  obtain ⟨c, hc1, hc2⟩ := hhead
  apply strip_eq_self
  · intro e he; rw [hc1] at he; cases he; exact hc2
  · intro e he
    rcases h2 with rfl | ⟨a, x, rfl, hx⟩
    · simp only [nlLines, List.flatMap_nil, List.append_nil] at he
      exact hsp e (List.mem_of_getLast? he)
    · rw [nlLines_last hx] at he
      rcases hall x (by simp) with h | ⟨d, hd, hd'⟩
      · exact absurd h hx
      · rw [hd] at he; cases he; exact hd'

theorem parsePackages_docs (ps : List SPkg) (h : ∀ p ∈ ps, p.OK) (acc : VDict) :
    parsePackages acc (ps.map (fun p => strip (joinWith ['\n'] (p.name :: (List.replicate p.blanks [] ++ p.blocks.flatMap SBlock.lines))))) =
      docMeaning acc ps := by
  induction ps generalizing acc with
  | nil => rfl
  | cons p ps ih =>
    have hp := h p (by simp)
    obtain ⟨ls, n, h1, h2⟩ := pkg_text hp
    rw [List.map_cons, parsePackages, strip_idem, h2]
    obtain ⟨hne, hsp⟩ := hp.name
    have hemp : (p.name ++ nlLines ls).isEmpty = false := by
      cases hn : p.name with
      | nil => exact absurd hn hne
      | cons x xs => rfl
    have hfirst : (splitOn '\n' (p.name ++ nlLines ls)).headD [] = p.name := by
      cases ls with
      | nil => simp only [nlLines, List.flatMap_nil, List.append_nil]; rw [splitOn_single _ (nl_of_nospace hsp)]; rfl
      | cons x xs => rw [nlLines_cons, splitOn_append _ _ (nl_of_nospace hsp)]; rfl
    have hdrop : (p.name ++ nlLines ls).drop p.name.length = nlLines ls := by simp
    rw [hemp]
    simp only [Bool.false_eq_true, if_false, hfirst, hdrop]
    have hblocks : uciBlocks (nlLines ls) = blocksMeaning 0 p.blocks := by
      have e : nlLines ls = joinWith ['\n'] ([] :: ls) := by rw [joinWith_cons]; rfl
      rw [e]
      refine uciBlocks_lines (p.blanks + 1) p.blocks hp.blocks _ n ?_
      rw [List.cons_append, h1, List.replicate_succ]
      rfl
    rw [hblocks, docMeaning]
    cases hb : blocksMeaning 0 p.blocks with
    | error e => rfl
    | ok bs => exact ih (fun q hq => h q (by simp [hq])) _

/-- Every document is parsed to its meaning. -/
theorem parseUci_doc (ps : List SPkg) (h : ∀ p ∈ ps, p.OK) : parseUci (docText ps) = docMeaning [] ps := by
  unfold parseUci docText
  have hgood : ∀ l ∈ ps.flatMap SPkg.lines, GoodLine kwPackage l := by
    intro l hl
    obtain ⟨p, hp, hl⟩ := List.mem_flatMap.1 hl
    have hl : l ∈ (kwPackage ++ [' '] ++ p.name) :: (List.replicate p.blanks [] ++ p.blocks.flatMap SBlock.lines) := hl
    rcases List.mem_cons.1 hl with rfl | hl
    · refine ⟨?_, fun _ => ⟨p.name, rfl⟩⟩
      have := nl_of_nospace (h p hp).name.2
      simp [this, kwp.2.2]
    · rcases List.mem_append.1 hl with hl | hl
      · rw [List.eq_of_mem_replicate hl]
        exact goodLine_head kwp.2.1 (by simp) (by simp [kwp.1])
      · obtain ⟨b, hb, hl⟩ := List.mem_flatMap.1 hl
        rw [SBlock.lines_eq] at hl
        rcases List.mem_cons.1 hl with rfl | hl
        · refine goodLine_head kwp.2.1 ?_ (by rw [kwp.1]; simp [kwConfig])
          have := SBlock.head_nonl ((h p hp).blocks b hb)
          simp [this, kwc.2.2]
        · obtain ⟨h1, _, h3⟩ := SBlock.rest_head ((h p hp).blocks b hb) l hl
          exact goodLine_head kwp.2.1 h3 (by rw [kwp.1]; exact h1)
  rw [parsePackages_strip, splitKw_strip kwPackage kwp.2.1 kwp.2.2 _ hgood]
  unfold chunkTexts
  have e : ps.flatMap SPkg.lines = ps.flatMap (fun p => (kwPackage ++ [' '] ++ p.name) :: (List.replicate p.blanks [] ++ p.blocks.flatMap SBlock.lines)) := rfl
  have hc := chunks_groups kwPackage ps SPkg.name (fun p => List.replicate p.blanks [] ++ p.blocks.flatMap SBlock.lines) (by
    intro p hp l hl
    apply prefix_kw
    rcases List.mem_append.1 hl with hl | hl
    · rw [List.eq_of_mem_replicate hl]; exact not_prefix_head kwp.2.1 (by simp [kwp.1])
    · obtain ⟨b, hb, hl⟩ := List.mem_flatMap.1 hl
      rw [SBlock.lines_eq] at hl
      rcases List.mem_cons.1 hl with rfl | hl
      · exact not_prefix_head kwp.2.1 (by rw [kwp.1]; simp [kwConfig])
      · exact not_prefix_head kwp.2.1 (by rw [kwp.1]; exact (SBlock.rest_head ((h p hp).blocks b hb) l hl).1))
  rw [e, hc]
  simp only [List.map_map]
  rw [parsePackages]
  simp only [joinWith, show strip [] = [] from rfl, List.isEmpty_nil, if_true]
  exact parsePackages_docs ps h []

end NJ
