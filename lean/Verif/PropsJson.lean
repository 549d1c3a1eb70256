import Verif.Json
import Verif.PropsBackend
import Verif.ConvLemmas
import Mathlib.Tactic.SplitIfs

/-!
# C75: what `json.dumps` writes, `json.loads` reads back
-/

set_option linter.unusedSimpArgs false

namespace NJ

/-! ## Hexadecimal escapes -/

theorem hexVal_hexDigit {k : Nat} (h : k < 16) : hexVal (hexDigit k) = some k :=
  (by decide : ∀ k : Fin 16, hexVal (hexDigit k) = some k.1) ⟨k, h⟩

theorem scan_uEscape {n : Nat} (h : n < 65536) (r : Chars) :
    scanText (uEscape n ++ r) = (scanText r).map (fun p => (n :: p.1, p.2)) := by
  have e : ((n / 4096 % 16 * 16 + n / 256 % 16) * 16 + n / 16 % 16) * 16 + n % 16 = n := by omega
  have hb : ¬ (('\\' : Char) = '"') := by decide
  simp only [uEscape, List.cons_append, List.nil_append]
  rw [scanText]
  simp only [if_neg hb, if_true, hex4, hexVal_hexDigit (Nat.mod_lt _ (by decide : 0 < 16)), Option.bind_eq_bind, Option.bind_some, pure, e]
  cases scanText r <;> rfl

/-- the code units of a character -/
def unitsOf (c : Char) : List Nat :=
  if c.toNat < 65536 then [c.toNat] else [55296 + (c.toNat - 65536) / 1024, 56320 + (c.toNat - 65536) % 1024]

/-- reading the written form of a character yields its code units -/
def EscOK (esc : Char → Chars) : Prop :=
  ∀ c r, scanText (esc c ++ r) = (scanText r).map (fun p => (unitsOf c ++ p.1, p.2))

theorem char_lt (c : Char) : c.toNat < 1114112 := by
  rcases c.valid with h | h
  · have : c.toNat < 55296 := h
    omega
  · have : c.toNat < 1114112 := h.2
    exact this

theorem char_not_surrogate (c : Char) : c.toNat < 55296 ∨ 57343 < c.toNat := by
  rcases c.valid with h | h
  · exact .inl h
  · exact .inr h.1

theorem scan_short {e : Char} {n : Nat} (he : e ≠ 'u') (hu : unescape e = some n) (r : Chars) :
    scanText ('\\' :: e :: r) = (scanText r).map (fun p => (n :: p.1, p.2)) := by
  rw [scanText.eq_def]
  simp only [if_neg (show ¬ (('\\' : Char) = '"') by decide), if_true, if_neg he, hu, Option.bind_eq_bind, Option.bind_some, pure]
  cases scanText r <;> rfl

theorem escChar_ok : EscOK escChar := by
  intro c r
  unfold escChar
  split_ifs with h1 h2 h3 h4 h5 h6 h7 h8 h9
  · subst h1; exact scan_short (by decide) rfl r
  · subst h2; exact scan_short (by decide) rfl r
  · subst h3; exact scan_short (by decide) rfl r
  · subst h4; exact scan_short (by decide) rfl r
  · subst h5; exact scan_short (by decide) rfl r
  · subst h6; exact scan_short (by decide) rfl r
  · subst h7; exact scan_short (by decide) rfl r
  · have : ¬ c.toNat < 32 := by omega
    rw [List.singleton_append, scanText.eq_def]
    simp only [if_neg h1, if_neg h2, if_neg this, unitsOf, if_pos (show c.toNat < 65536 by omega), pure]
    cases scanText r <;> rfl
  · rw [scan_uEscape h9]
    simp only [unitsOf, if_pos h9]
    cases scanText r <;> rfl
  · have hl := char_lt c
    rw [List.append_assoc, scan_uEscape (by omega), scan_uEscape (by omega)]
    simp only [unitsOf, if_neg h9]
    cases scanText r <;> rfl

/-- the characters of the texts this model writes are escaped for HTML too -/
def escHtml (c : Char) : Chars := (escChar c).flatMap htmlChar

theorem html_id {l : Chars} (h : ∀ c ∈ l, htmlChar c = [c]) : l.flatMap htmlChar = l := by
  induction l with
  | nil => rfl
  | cons c l ih =>
    rw [List.flatMap_cons, h c (by simp), ih (fun d hd => h d (by simp [hd]))]
    rfl

theorem html_hexDigit {k : Nat} (h : k < 16) : htmlChar (hexDigit k) = [hexDigit k] :=
  (by decide : ∀ k : Fin 16, htmlChar (hexDigit k) = [hexDigit k]) ⟨k, h⟩

theorem html_uEscape (n : Nat) : (uEscape n).flatMap htmlChar = uEscape n := by
  have h (k : Nat) : htmlChar (hexDigit (k % 16)) = [hexDigit (k % 16)] := html_hexDigit (Nat.mod_lt _ (by decide))
  have h1 : htmlChar '\\' = ['\\'] := by decide
  have h2 : htmlChar 'u' = ['u'] := by decide
  simp only [uEscape, List.flatMap_cons, List.flatMap_nil, h, h1, h2, List.cons_append, List.nil_append]

theorem escHtml_ok : EscOK escHtml := by
  intro c r
  by_cases hh : c = '<' ∨ c = '>' ∨ c = '&' ∨ c = '\''
  · rcases hh with h | h | h | h <;> subst h
    · have := scan_uEscape (n := 60) (by decide) r
      simpa [escHtml, escChar, htmlChar, unitsOf] using this
    · have := scan_uEscape (n := 62) (by decide) r
      simpa [escHtml, escChar, htmlChar, unitsOf] using this
    · have := scan_uEscape (n := 38) (by decide) r
      simpa [escHtml, escChar, htmlChar, unitsOf] using this
    · have := scan_uEscape (n := 39) (by decide) r
      simpa [escHtml, escChar, htmlChar, unitsOf] using this
  · have he : escHtml c = escChar c := by
      unfold escHtml escChar
      simp only [not_or] at hh
      split_ifs
      all_goals first
        | decide
        | rw [html_uEscape]
        | rw [List.flatMap_append, html_uEscape, html_uEscape]
        | simp [htmlChar, hh]
    rw [he]
    exact escChar_ok c r

theorem scan_escaped {esc : Char → Chars} (h : EscOK esc) (s : Chars) (r : Chars) :
    scanText (s.flatMap esc ++ '"' :: r) = some (s.flatMap unitsOf, r) := by
  induction s with
  | nil => rw [List.flatMap_nil, List.nil_append, scanText.eq_def]; simp
  | cons c s ih =>
    rw [List.flatMap_cons, List.append_assoc, h, ih]
    rfl

theorem joinPairs_units (s : Chars) : joinPairs (s.flatMap unitsOf) = some s := by
  induction s with
  | nil => rfl
  | cons c s ih =>
    rw [List.flatMap_cons]
    have hl := char_lt c
    have hs := char_not_surrogate c
    by_cases h : c.toNat < 65536
    · have hu : unitsOf c = [c.toNat] := by rw [unitsOf, if_pos h]
      rw [hu]
      rw [List.singleton_append, joinPairs.eq_def]
      have h1 : isHigh c.toNat = false := by simp [isHigh]; omega
      have h2 : isLow c.toNat = false := by simp [isLow]; omega
      simp only [h1, h2, Bool.false_eq_true, if_false, ih]
      simp [Char.ofNat_toNat]
    · have hu : unitsOf c = [55296 + (c.toNat - 65536) / 1024, 56320 + (c.toNat - 65536) % 1024] := by rw [unitsOf, if_neg h]
      rw [hu]
      rw [List.cons_append, List.singleton_append, joinPairs.eq_def]
      have h1 : isHigh (55296 + (c.toNat - 65536) / 1024) = true := by simp [isHigh]; omega
      have h2 : isLow (56320 + (c.toNat - 65536) % 1024) = true := by simp [isLow]; omega
      simp only [h1, h2, if_true, ih]
      have e : 65536 + (55296 + (c.toNat - 65536) / 1024 - 55296) * 1024 + (56320 + (c.toNat - 65536) % 1024 - 56320) = c.toNat := by omega
      simp only [e, Char.ofNat_toNat, Option.bind_eq_bind, Option.bind_some, pure]

theorem loadText_jsonText {st : JsonStyle} (h : EscOK st.esc) (s r : Chars) :
    loadText (s.flatMap st.esc ++ '"' :: r) = some (s, r) := by
  simp [loadText, scan_escaped h, joinPairs_units]

/-! ## Values -/

/-- what may follow a value -/
def Stop (r : Chars) : Prop := r = [] ∨ ∃ c t, r = c :: t ∧ (c = ',' ∨ c = ']' ∨ c = '}' ∨ c = ' ' ∨ c = '\n')

theorem Stop.notDigit {c : Char} {t : Chars} (h : Stop (c :: t)) : isDigit c = false ∧ c ≠ '.' ∧ c ≠ 'e' ∧ c ≠ 'E' := by
  rcases h with h | ⟨c', t', h, hc⟩
  · cases h
  · cases h
    rcases hc with h | h | h | h | h <;> subst h <;> decide

theorem takeWhile_stop {p : Char → Bool} {a r : Chars} (ha : ∀ c ∈ a, p c = true) (hr : ∀ c t, r = c :: t → p c = false) :
    (a ++ r).takeWhile p = a ∧ (a ++ r).dropWhile p = r := by
  induction a with
  | nil => cases r with
    | nil => simp
    | cons c t => simp [hr c t rfl]
  | cons c a ih =>
    obtain ⟨h1, h2⟩ := ih (fun d hd => ha d (by simp [hd]))
    simp [ha c (by simp), h1, h2]

theorem readDigits_zero {s : Chars} (hs : ∀ c ∈ s, isDigit c = true) (acc : Nat) : ∃ n, readDigits acc s = some n ∧ acc ≤ n := by
  induction s generalizing acc with
  | nil => exact ⟨acc, rfl, Nat.le_refl _⟩
  | cons c s ih =>
    obtain ⟨n, h1, h2⟩ := ih (fun d hd => hs d (by simp [hd])) (acc * 10 + (c.toNat - 48))
    exact ⟨n, by simp [readDigits, hs c (by simp), h1], by omega⟩

/-- a number starts with the digit zero only when it is zero -/
theorem natDigits_head (f n : Nat) (h : n < f) : ∃ c t, natDigits f n = c :: t ∧ (c = '0' → n = 0 ∧ t = []) := by
  induction f generalizing n with
  | zero => omega
  | succ f ih =>
    unfold natDigits
    split_ifs with hn
    · refine ⟨digitChar n, [], rfl, fun hc => ⟨?_, rfl⟩⟩
      have := digitChar_toNat hn
      rw [hc] at this
      have : (48 : Nat) = 48 + n := this
      omega
    · obtain ⟨c, t, h1, h2⟩ := ih (n / 10) (by omega)
      refine ⟨c, t ++ [digitChar (n % 10)], by rw [h1]; rfl, fun hc => ?_⟩
      have := (h2 hc).1
      omega

theorem loadNat_show {n : Nat} {r : Chars} (hr : Stop r) : loadNat (showNat n ++ r) = some (n, r) := by
  obtain ⟨c, t, h1, h2⟩ := natDigits_head (n + 1) n (by omega)
  have h1' : showNat n = c :: t := h1
  have hd := showNat_digits n
  have hrd := readNat_showNat n
  obtain ⟨e1, e2⟩ := takeWhile_stop (r := r) hd (fun c t h => by subst h; exact hr.notDigit.1)
  rw [h1'] at e1 e2 hrd ⊢
  unfold loadNat
  rw [List.cons_append]
  simp only
  split_ifs with hc
  · obtain ⟨h3, h4⟩ := h2 hc
    rw [h3, h4]
    rfl
  · rw [List.cons_append] at e1 e2
    rw [e1, e2, hrd]
    rfl

theorem intEnd_stop {i : Int} {r : Chars} (hr : Stop r) : intEnd i r = some (.int i, r) := by
  cases r with
  | nil => rfl
  | cons c t =>
    obtain ⟨_, h1, h2, h3⟩ := hr.notDigit
    simp [intEnd, h1, h2, h3]

theorem loadInt_show {i : Int} {r : Chars} (hr : Stop r) : loadInt (showInt i ++ r) = some (.int i, r) := by
  cases i with
  | ofNat n =>
    obtain ⟨c, t, h1, _⟩ := natDigits_head (n + 1) n (by omega)
    have h1' : showNat n = c :: t := h1
    have hc : c ≠ '-' := by
      intro hc
      have := showNat_digits n c (by rw [h1']; simp)
      rw [hc] at this
      revert this; decide
    have hl := loadNat_show (n := n) hr
    show loadInt (showNat n ++ r) = _
    rw [h1'] at hl ⊢
    unfold loadInt
    rw [List.cons_append] at hl ⊢
    simp only [if_neg hc, hl]
    exact intEnd_stop hr
  | negSucc n =>
    have hl := loadNat_show (n := n + 1) hr
    show loadInt ('-' :: (showNat (n + 1) ++ r)) = _
    unfold loadInt
    simp only [if_true, hl]
    exact intEnd_stop hr

/-- the first character of a number -/
theorem showInt_head (i : Int) : ∃ c t, showInt i = c :: t ∧ (isDigit c = true ∨ c = '-') := by
  cases i with
  | ofNat n =>
    obtain ⟨c, t, h1, _⟩ := natDigits_head (n + 1) n (by omega)
    have h1' : showNat n = c :: t := h1
    exact ⟨c, t, h1', .inl (showNat_digits n c (by rw [h1']; simp))⟩
  | negSucc n => exact ⟨'-', _, rfl, .inr rfl⟩

theorem digit_other {c d : Char} (h : isDigit c = true ∨ c = '-') (hd : isDigit d = false) (hd' : d ≠ '-') : c ≠ d := by
  rintro rfl
  rcases h with h | h
  · rw [h] at hd; cases hd
  · exact hd' h

theorem stripPrefix_head {p c : Char} {ps cs : Chars} (h : p ≠ c) : stripPrefix (p :: ps) (c :: cs) = none := by simp [stripPrefix, h]

theorem loadV_int {n : Nat} {i : Int} {r : Chars} (hr : Stop r) : loadV (n + 1) (showInt i ++ r) = some (.int i, r) := by
  obtain ⟨c, t, h1, h2⟩ := showInt_head i
  have hl := loadInt_show (i := i) hr
  rw [h1, List.cons_append] at hl ⊢
  unfold loadV
  have e1 : "null".toList = ['n', 'u', 'l', 'l'] := rfl
  have e2 : "true".toList = ['t', 'r', 'u', 'e'] := rfl
  have e3 : "false".toList = ['f', 'a', 'l', 's', 'e'] := rfl
  rw [if_neg (digit_other h2 (by decide) (by decide)), if_neg (digit_other h2 (by decide) (by decide)),
    if_neg (digit_other h2 (by decide) (by decide)), e1, e2, e3,
    stripPrefix_head (digit_other h2 (by decide) (by decide)).symm, stripPrefix_head (digit_other h2 (by decide) (by decide)).symm,
    stripPrefix_head (digit_other h2 (by decide) (by decide)).symm]
  exact hl

/-! ## Layout -/

theorem skipWs_brk (st : JsonStyle) (lvl : Nat) (r : Chars) : skipWs (st.brk lvl ++ r) = skipWs r := by
  unfold JsonStyle.brk
  cases st.indent with
  | none => rfl
  | some n =>
    simp only [List.cons_append, skipWs, List.dropWhile_cons, show jsonSpace '\n' = true from rfl, if_true, sp]
    generalize n * lvl = k
    induction k with
    | zero => rfl
    | succ k ih => simpa [List.replicate_succ, List.dropWhile_cons, show jsonSpace ' ' = true from rfl] using ih

theorem skipWs_self {c : Char} {r : Chars} (h : jsonSpace c = false) : skipWs (c :: r) = c :: r := by
  simp [skipWs, List.dropWhile_cons, h]

/-- the first character of a value -/
theorem dumpV_head (st : JsonStyle) (lvl : Nat) (v : Val) : ∃ c t, dumpV st lvl v = c :: t ∧ jsonSpace c = false ∧ c ≠ ']' ∧ c ≠ '}' := by
  cases v with
  | none => exact ⟨'n', ['u', 'l', 'l'], by simp [dumpV], by decide, by decide, by decide⟩
  | bool b => cases b
              · exact ⟨'f', ['a', 'l', 's', 'e'], by simp [dumpV], by decide, by decide, by decide⟩
              · exact ⟨'t', ['r', 'u', 'e'], by simp [dumpV], by decide, by decide, by decide⟩
  | int i =>
    obtain ⟨c, t, h1, h2⟩ := showInt_head i
    refine ⟨c, t, by simp [dumpV, h1], ?_, digit_other h2 (by decide) (by decide), digit_other h2 (by decide) (by decide)⟩
    have a := digit_other (d := ' ') h2 (by decide) (by decide)
    have b := digit_other (d := '\t') h2 (by decide) (by decide)
    have e := digit_other (d := '\n') h2 (by decide) (by decide)
    have f := digit_other (d := '\r') h2 (by decide) (by decide)
    simp [jsonSpace, a, b, e, f]
  | str s => exact ⟨'"', _, by rw [dumpV]; rfl, by decide, by decide, by decide⟩
  | list l => cases l with
    | nil => exact ⟨'[', _, by rw [dumpV], by decide, by decide, by decide⟩
    | cons v vs => exact ⟨'[', _, by rw [dumpV], by decide, by decide, by decide⟩
  | dict d => cases d with
    | nil => exact ⟨'{', _, by rw [dumpV], by decide, by decide, by decide⟩
    | cons p ps => exact ⟨'{', _, by rw [dumpV], by decide, by decide, by decide⟩

theorem skipWs_dumpV (st : JsonStyle) (lvl : Nat) (v : Val) (r : Chars) : skipWs (dumpV st lvl v ++ r) = dumpV st lvl v ++ r := by
  obtain ⟨c, t, h, hc, _⟩ := dumpV_head st lvl v
  rw [h, List.cons_append, skipWs_self hc]

theorem stop_brk (st : JsonStyle) (lvl : Nat) (c : Char) (hc : c = ']' ∨ c = '}') (r : Chars) : Stop (st.brk lvl ++ c :: r) := by
  unfold JsonStyle.brk
  cases st.indent with
  | none => exact .inr ⟨c, r, rfl, by rcases hc with h | h <;> simp [h]⟩
  | some n => exact .inr ⟨'\n', _, rfl, by simp⟩

theorem sep_comma (st : JsonStyle) (lvl : Nat) : ∃ t, st.sep lvl = ',' :: t ∧ ∀ r, skipWs (t ++ r) = skipWs r := by
  unfold JsonStyle.sep
  cases hi : st.indent with
  | none => exact ⟨[' '], rfl, fun r => by simp [skipWs, List.dropWhile_cons, show jsonSpace ' ' = true from rfl]⟩
  | some n => exact ⟨st.brk lvl, rfl, skipWs_brk st lvl⟩

/-- what is read from a written value -/
def Reads (st : JsonStyle) (v : Val) : Prop :=
  ∀ lvl n r, (dumpV st lvl v).length ≤ n → Stop r → loadV n (dumpV st lvl v ++ r) = some (v, r)

theorem dumpL_stop (st : JsonStyle) (lvl : Nat) (vs : List Val) (r : Chars) (hr : Stop r) : Stop (dumpL st lvl vs ++ r) := by
  cases vs with
  | nil => simpa [dumpL] using hr
  | cons v vs =>
    obtain ⟨t, h, _⟩ := sep_comma st lvl
    exact .inr ⟨',', _, by rw [dumpL, h]; rfl, by simp⟩

theorem dumpD_stop (st : JsonStyle) (lvl : Nat) (ps : List (String × Val)) (r : Chars) (hr : Stop r) : Stop (dumpD st lvl ps ++ r) := by
  cases ps with
  | nil => simpa [dumpD] using hr
  | cons v vs =>
    obtain ⟨t, h, _⟩ := sep_comma st lvl
    exact .inr ⟨',', _, by rw [dumpD, h]; rfl, by simp⟩

theorem loadItems_dump {st : JsonStyle} {lvl k : Nat} (vs : List Val) (v : Val) (hv : Reads st v) (hvs : ∀ w ∈ vs, Reads st w) (n : Nat) (r : Chars)
    (hn : (dumpV st lvl v).length + (dumpL st lvl vs).length + 1 ≤ n) :
    loadItems n (dumpV st lvl v ++ (dumpL st lvl vs ++ (st.brk k ++ ']' :: r))) = some (v :: vs, r) := by
  induction vs generalizing v n with
  | nil =>
    cases n with
    | zero => omega
    | succ n =>
      rw [loadItems, hv lvl n _ (by omega) (dumpL_stop st lvl [] _ (stop_brk st k ']' (.inl rfl) r))]
      simp only [Option.bind_some, dumpL, List.nil_append, skipWs_brk, skipWs_self (show jsonSpace ']' = false from rfl), if_true]
  | cons w vs ih =>
    cases n with
    | zero => omega
    | succ n =>
      rw [loadItems, hv lvl n _ (by omega) (dumpL_stop st lvl _ _ (stop_brk st k ']' (.inl rfl) r))]
      obtain ⟨t, ht, hs⟩ := sep_comma st lvl
      simp only [Option.bind_some, dumpL, ht, List.cons_append, List.append_assoc, skipWs_self (show jsonSpace ',' = false from rfl), hs, skipWs_dumpV]
      rw [if_neg (by decide), if_pos trivial, ih w (hvs w (by simp)) (fun x hx => hvs x (by simp [hx])) n]
      · rfl
      · simp only [dumpL, ht, List.length_append, List.length_cons] at hn
        omega

theorem jsonText_eq (st : JsonStyle) (k r : Chars) : jsonText st k ++ r = '"' :: (k.flatMap st.esc ++ '"' :: r) := by
  simp [jsonText]

theorem loadMembers_dump {st : JsonStyle} (he : EscOK st.esc) {lvl k : Nat} (ps : List (String × Val)) (key : String) (v : Val) (hv : Reads st v)
    (hps : ∀ p ∈ ps, Reads st p.2) (acc : VDict) (hk : (Dict.keys (acc ++ (key, v) :: ps)).Nodup) (n : Nat) (r : Chars)
    (hn : (dumpV st lvl v).length + (dumpD st lvl ps).length + 1 ≤ n) :
    loadMembers n acc (jsonText st key.toList ++ ([':', ' '] ++ (dumpV st lvl v ++ (dumpD st lvl ps ++ (st.brk k ++ '}' :: r))))) =
      some (acc ++ (key, v) :: ps, r) := by
  induction ps generalizing v n acc key with
  | nil =>
    cases n with
    | zero => omega
    | succ n =>
      have hkey : key ∉ Dict.keys acc := by
        simp only [Dict.keys, List.map_append, List.map_cons, List.nodup_append] at hk
        intro h
        exact hk.2.2 _ h _ (by simp) rfl
      rw [jsonText_eq, loadMembers, if_pos rfl, loadText_jsonText he]
      simp only [Option.bind_some, List.cons_append, List.nil_append, skipWs_self (show jsonSpace ':' = false from rfl), if_true]
      rw [show skipWs (' ' :: (dumpV st lvl v ++ (dumpD st lvl [] ++ (st.brk k ++ '}' :: r)))) = skipWs (dumpV st lvl v ++ (dumpD st lvl [] ++ (st.brk k ++ '}' :: r))) by
        simp [skipWs, List.dropWhile_cons, show jsonSpace ' ' = true from rfl], skipWs_dumpV, hv lvl n _ (by omega) (dumpD_stop st lvl [] _ (stop_brk st k '}' (.inr rfl) r))]
      simp only [Option.bind_some, dumpD, List.nil_append, skipWs_brk, skipWs_self (show jsonSpace '}' = false from rfl), if_true, String.ofList_toList]
      rw [Dict.set_not_mem _ _ _ hkey]
  | cons p ps ih =>
    obtain ⟨key', v'⟩ := p
    cases n with
    | zero => omega
    | succ n =>
      have hkey : key ∉ Dict.keys acc := by
        simp only [Dict.keys, List.map_append, List.map_cons, List.nodup_append] at hk
        intro h
        exact hk.2.2 _ h _ (by simp) rfl
      rw [jsonText_eq, loadMembers, if_pos rfl, loadText_jsonText he]
      simp only [Option.bind_some, List.cons_append, List.nil_append, skipWs_self (show jsonSpace ':' = false from rfl), if_true]
      rw [show skipWs (' ' :: (dumpV st lvl v ++ (dumpD st lvl ((key', v') :: ps) ++ (st.brk k ++ '}' :: r)))) = skipWs (dumpV st lvl v ++ (dumpD st lvl ((key', v') :: ps) ++ (st.brk k ++ '}' :: r))) by
        simp [skipWs, List.dropWhile_cons, show jsonSpace ' ' = true from rfl], skipWs_dumpV, hv lvl n _ (by omega) (dumpD_stop st lvl _ _ (stop_brk st k '}' (.inr rfl) r))]
      obtain ⟨t, ht, hs⟩ := sep_comma st lvl
      simp only [Option.bind_some, dumpD, ht, List.cons_append, List.append_assoc, skipWs_self (show jsonSpace ',' = false from rfl), hs, String.ofList_toList]
      rw [if_neg (by decide), if_pos trivial, Dict.set_not_mem _ _ _ hkey, jsonText_eq, skipWs_self (show jsonSpace '"' = false from rfl), ← jsonText_eq]
      have := ih key' v' (hps (key', v') (by simp)) (fun x hx => hps x (by simp [hx])) (acc ++ [(key, v)]) (by simpa using hk) n (by
        simp only [dumpD, ht, List.length_append, List.length_cons] at hn
        omega)
      simpa using this

theorem reads_dumpV {st : JsonStyle} (he : EscOK st.esc) {v : Val} (hw : v.WF) : Reads st v := by
  induction hw with
  | none =>
    intro lvl n r hn hr
    cases n with
    | zero => simp [dumpV] at hn
    | succ n => simp [dumpV, loadV, stripPrefix]
  | bool b =>
    intro lvl n r hn hr
    cases n with
    | zero => cases b <;> simp [dumpV] at hn
    | succ n => cases b <;> simp [dumpV, loadV, stripPrefix]
  | int i =>
    intro lvl n r hn hr
    cases n with
    | zero =>
      obtain ⟨c, t, h, _⟩ := dumpV_head st lvl (.int i)
      rw [h] at hn; simp at hn
    | succ n => rw [dumpV]; exact loadV_int hr
  | str s =>
    intro lvl n r hn hr
    cases n with
    | zero => simp [dumpV, jsonText] at hn
    | succ n =>
      rw [dumpV, jsonText_eq, loadV, if_pos rfl, loadText_jsonText he]
      simp
  | list l hl ih =>
    intro lvl n r hn hr
    cases n with
    | zero =>
      obtain ⟨c, t, h, _⟩ := dumpV_head st lvl (.list l)
      rw [h] at hn; simp at hn
    | succ n =>
      cases l with
      | nil => simp [dumpV, loadV, skipWs, List.dropWhile_cons, show jsonSpace ']' = false from rfl]
      | cons v vs =>
        rw [dumpV] at hn ⊢
        simp only [List.cons_append, List.append_assoc, List.nil_append]
        rw [loadV, if_neg (by decide), if_pos rfl, skipWs_brk, skipWs_dumpV]
        obtain ⟨c, t, h, _, h1, _⟩ := dumpV_head st (lvl + 1) v
        rw [if_neg (by rw [h]; simpa using h1), loadItems_dump vs v (ih v (by simp)) (fun w hw => ih w (by simp [hw])) n r]
        · rfl
        · simp only [List.length_append, List.length_cons, List.length_nil] at hn
          omega
  | dict d hd hl ih =>
    intro lvl n r hn hr
    cases n with
    | zero =>
      obtain ⟨c, t, h, _⟩ := dumpV_head st lvl (.dict d)
      rw [h] at hn; simp at hn
    | succ n =>
      cases d with
      | nil => simp [dumpV, loadV, skipWs, List.dropWhile_cons, show jsonSpace '}' = false from rfl]
      | cons p ps =>
        obtain ⟨key, v⟩ := p
        rw [dumpV] at hn ⊢
        rw [List.cons_append, loadV, if_neg (by decide), if_neg (by decide), if_pos rfl]
        simp only [List.append_assoc, List.singleton_append]
        rw [skipWs_brk, jsonText_eq, skipWs_self (show jsonSpace '"' = false from rfl), ← jsonText_eq, if_neg (by rw [jsonText_eq]; simp),
          loadMembers_dump he ps key v (ih (key, v) (by simp)) (fun p hp => ih p (by simp [hp])) [] (by simpa using hd) n r]
        · rfl
        · simp only [List.length_append, List.length_cons, List.length_nil] at hn
          omega

theorem jsonLoads_dumpV {st : JsonStyle} (he : EscOK st.esc) {v : Val} (hw : v.WF) : jsonLoads (dumpV st 0 v) = some v := by
  have h := reads_dumpV he hw 0 ((dumpV st 0 v).length + 1) [] (by omega) (.inl rfl)
  have hs := skipWs_dumpV st 0 v []
  rw [List.append_nil] at h hs
  unfold jsonLoads
  rw [hs, h]
  rfl

/-- C75: reading what `json.dumps` wrote gives the data back, whatever the texts in it are. -/
theorem C75_json (v : Val) (hw : v.WF) : jsonLoads (jsonDumps v) = some v := jsonLoads_dumpV escChar_ok hw

/-! ## `tojson` -/

theorem html_sp (n : Nat) : (sp n).flatMap htmlChar = sp n := html_id (fun c hc => by
  rw [sp, List.mem_replicate] at hc
  rw [hc.2]; decide)

theorem html_brk (st : JsonStyle) (lvl : Nat) : (st.brk lvl).flatMap htmlChar = st.brk lvl := by
  unfold JsonStyle.brk
  cases st.indent with
  | none => rfl
  | some n =>
    show htmlChar '\n' ++ (sp (n * lvl)).flatMap htmlChar = _
    rw [html_sp]; rfl

theorem html_sep (st : JsonStyle) (lvl : Nat) : (st.sep lvl).flatMap htmlChar = st.sep lvl := by
  unfold JsonStyle.sep
  cases st.indent with
  | none =>
    show [',', ' '].flatMap htmlChar = [',', ' ']
    decide
  | some n =>
    show htmlChar ',' ++ (st.brk lvl).flatMap htmlChar = _
    rw [html_brk]; rfl

theorem html_jsonText (i : Option Nat) (s : Chars) : (jsonText ⟨escChar, i⟩ s).flatMap htmlChar = jsonText ⟨escHtml, i⟩ s := by
  have h1 : htmlChar '"' = ['"'] := by decide
  simp only [jsonText, List.flatMap_cons, List.flatMap_append, List.flatMap_nil, h1, List.append_nil, List.flatMap_assoc]
  rfl

theorem html_showInt (i : Int) : (showInt i).flatMap htmlChar = showInt i := by
  have hd {c : Char} (h : isDigit c = true ∨ c = '-') : htmlChar c = [c] := by
    simp [htmlChar, digit_other (d := '<') h (by decide) (by decide), digit_other (d := '>') h (by decide) (by decide),
      digit_other (d := '&') h (by decide) (by decide), digit_other (d := '\'') h (by decide) (by decide)]
  apply html_id
  intro c hc
  cases i with
  | ofNat n => exact hd (.inl (showNat_digits n c hc))
  | negSucc n =>
    rcases List.mem_cons.1 hc with h | h
    · exact hd (.inr h)
    · exact hd (.inl (showNat_digits (n + 1) c h))

theorem html_dumpV (i : Option Nat) (v : Val) : ∀ lvl, (dumpV ⟨escChar, i⟩ lvl v).flatMap htmlChar = dumpV ⟨escHtml, i⟩ lvl v := by
  have hb (lvl : Nat) : JsonStyle.brk ⟨escHtml, i⟩ lvl = JsonStyle.brk ⟨escChar, i⟩ lvl := rfl
  have hs (lvl : Nat) : JsonStyle.sep ⟨escHtml, i⟩ lvl = JsonStyle.sep ⟨escChar, i⟩ lvl := rfl
  induction v using Val.induct with
  | hn => intro lvl; simp only [dumpV]; decide
  | hb b => intro lvl; cases b <;> simp only [dumpV] <;> decide
  | hi j => intro lvl; simp only [dumpV, html_showInt]
  | hs s => intro lvl; simp only [dumpV, html_jsonText]
  | hl l ih =>
    intro lvl
    have hL : ∀ vs : List Val, (∀ v ∈ vs, v ∈ l) → ∀ lvl, (dumpL ⟨escChar, i⟩ lvl vs).flatMap htmlChar = dumpL ⟨escHtml, i⟩ lvl vs := by
      intro vs
      induction vs with
      | nil => intro _ lvl; rfl
      | cons v vs ihv =>
        intro h lvl
        simp only [dumpL, List.flatMap_append, html_sep, hs, ih v (h v (by simp)), ihv (fun w hw => h w (by simp [hw]))]
    cases l with
    | nil => simp only [dumpV]; decide
    | cons v vs =>
      have h1 : htmlChar '[' = ['['] := by decide
      have h2 : htmlChar ']' = [']'] := by decide
      simp only [dumpV, List.flatMap_cons, List.flatMap_append, List.flatMap_nil, List.append_nil, html_brk, hb, h1, h2, ih v (by simp),
        hL vs (fun w hw => by simp [hw]), List.cons_append, List.nil_append]
  | hd d ih =>
    intro lvl
    have h3 : ([':', ' '] : Chars).flatMap htmlChar = [':', ' '] := by decide
    have hL : ∀ vs : List (String × Val), (∀ v ∈ vs, v ∈ d) → ∀ lvl, (dumpD ⟨escChar, i⟩ lvl vs).flatMap htmlChar = dumpD ⟨escHtml, i⟩ lvl vs := by
      intro vs
      induction vs with
      | nil => intro _ lvl; rfl
      | cons v vs ihv =>
        intro h lvl
        rw [dumpD, dumpD]
        rw [List.flatMap_append, List.flatMap_append, List.flatMap_append, List.flatMap_append, html_sep, html_jsonText, h3, ih v (h v (by simp)),
          ihv (fun w hw => h w (by simp [hw]))]
        rfl
    cases d with
    | nil => simp only [dumpV]; decide
    | cons v vs =>
      have h1 : htmlChar '{' = ['{'] := by decide
      have h2 : ([('}' : Char)]).flatMap htmlChar = ['}'] := by decide
      rw [dumpV, dumpV]
      rw [List.flatMap_cons, List.flatMap_append, List.flatMap_append, List.flatMap_append, List.flatMap_append, List.flatMap_append, List.flatMap_append,
        html_brk, html_jsonText, h3, ih v (by simp), hL vs (fun w hw => by simp [hw]), html_brk, h1, h2]
      rfl

/-- the same data, up to the order of the keys -/
inductive SameVal : Val → Val → Prop
  | none : SameVal .none .none
  | bool (b) : SameVal (.bool b) (.bool b)
  | int (i) : SameVal (.int i) (.int i)
  | str (s) : SameVal (.str s) (.str s)
  | list (l m : List Val) : l.length = m.length → (∀ (i : Nat) a b, l[i]? = some a → m[i]? = some b → SameVal a b) → SameVal (.list l) (.list m)
  | dict (d e : VDict) : (∀ k, Dict.get? d k = Option.none ↔ Dict.get? e k = Option.none) →
      (∀ k a b, Dict.get? d k = some a → Dict.get? e k = some b → SameVal a b) → SameVal (.dict d) (.dict e)

theorem sortDeepL_map (l : List Val) : sortDeepL l = l.map sortDeep := by
  induction l with
  | nil => rfl
  | cons v l ih => rw [sortDeepL, ih]; rfl

theorem sortDeepD_map (d : VDict) : sortDeepD d = d.map (fun p => (p.1, sortDeep p.2)) := by
  induction d with
  | nil => rfl
  | cons v l ih => rw [sortDeepD, ih]; rfl

theorem keys_mapVals (d : VDict) (f : Val → Val) : Dict.keys (d.map (fun p => (p.1, f p.2))) = Dict.keys d := by
  simp [Dict.keys]

theorem get?_mapVals (d : VDict) (f : Val → Val) (k : String) : Dict.get? (d.map (fun p => (p.1, f p.2))) k = (Dict.get? d k).map f := by
  induction d with
  | nil => rfl
  | cons p d ih =>
    obtain ⟨a, v⟩ := p
    simp only [List.map_cons, Dict.get?_cons]
    split
    · rfl
    · exact ih

theorem sortDeep_wf {v : Val} (h : v.WF) : (sortDeep v).WF := by
  induction h with
  | none => exact .none
  | bool b => exact .bool b
  | int i => exact .int i
  | str s => exact .str s
  | list l hl ih =>
    rw [sortDeep, sortDeepL_map]
    refine .list _ (fun v hv => ?_)
    obtain ⟨w, hw, rfl⟩ := List.mem_map.1 hv
    exact ih w hw
  | dict d hd hl ih =>
    rw [sortDeep, sortDeepD_map]
    have hk : (Dict.keys (d.map (fun p => (p.1, sortDeep p.2)))).Nodup := by rw [keys_mapVals]; exact hd
    refine .dict _ (sortedDict_nodup hk) (fun p hp => ?_)
    have : p ∈ d.map (fun p => (p.1, sortDeep p.2)) := (C33_sorting_keeps _).subset hp
    obtain ⟨w, hw, rfl⟩ := List.mem_map.1 this
    exact ih w hw

theorem sortDeep_same {v : Val} (h : v.WF) : SameVal (sortDeep v) v := by
  induction h with
  | none => exact .none
  | bool b => exact .bool b
  | int i => exact .int i
  | str s => exact .str s
  | list l hl ih =>
    rw [sortDeep, sortDeepL_map]
    refine .list _ _ (by simp) (fun i a b ha hb => ?_)
    rw [List.getElem?_map, hb] at ha
    obtain rfl := Option.some.inj ha
    exact ih b (List.mem_of_getElem? hb)
  | dict d hd hl ih =>
    rw [sortDeep, sortDeepD_map]
    have hk : (Dict.keys (d.map (fun p => (p.1, sortDeep p.2)))).Nodup := by rw [keys_mapVals]; exact hd
    refine .dict _ _ (fun k => ?_) (fun k a b ha hb => ?_)
    · rw [get?_sortedDict hk, get?_mapVals]
      simp
    · rw [get?_sortedDict hk, get?_mapVals, hb] at ha
      obtain rfl := Option.some.inj ha
      exact ih (k, b) (Dict.mem_of_get? hb)

theorem tojson4_eq (v : Val) : tojson4 v = dumpV ⟨escHtml, some 4⟩ 0 (sortDeep v) := html_dumpV _ _ 0

/-- C75: reading what the filter `tojson` wrote gives the same data back, up to the order of the keys, which are sorted. -/
theorem C75_tojson (v : Val) (hw : v.WF) : ∃ w, jsonLoads (tojson4 v) = some w ∧ SameVal w v :=
  ⟨sortDeep v, by rw [tojson4_eq]; exact jsonLoads_dumpV escHtml_ok (sortDeep_wf hw), sortDeep_same hw⟩

/-- the hypothesis is met by data with every kind of value, and with characters of every kind -/
example : ∃ v : Val, v.WF ∧ jsonLoads (jsonDumps v) = some v ∧ jsonDumps v =
    "{\"z\": -12, \"a<b\": [null, true, \"x\\\"\\\\\\n\\u00e9\\ud834\\udd1e\"], \"e\": {}, \"n\": [0]}".toList :=
  ⟨.dict [("z", .int (-12)), ("a<b", .list [.none, .bool true, .str "x\"\\\né𝄞"]), ("e", .dict []), ("n", .list [.int 0])],
    .dict _ (by simp [Dict.keys]) (by
      intro p hp
      simp only [List.mem_cons, List.not_mem_nil, or_false] at hp
      rcases hp with rfl | rfl | rfl | rfl
      · exact .int _
      · refine .list _ (fun v hv => ?_)
        simp only [List.mem_cons, List.not_mem_nil, or_false] at hv
        rcases hv with rfl | rfl | rfl
        · exact .none
        · exact .bool _
        · exact .str _
      · exact .dict _ (by simp [Dict.keys]) (by simp)
      · exact .list _ (by intro v hv; simp only [List.mem_cons, List.not_mem_nil, or_false] at hv; subst hv; exact .int _)),
    by decide +kernel, by decide +kernel⟩

/-! ## `json()` -/

/-- C75: the text made by `json()`, given to the constructor of a class, makes an object with the same configuration, apart from
the member `type`, which is `DeviceConfiguration` afterwards. -/
theorem C75_constructor (cls : Class) (hl : cls.loads = jsonLoads) (st : BState) (hw : (Val.dict st.config).WF) (doc : VDict)
    (h : jsonDoc cls st = .ok doc) :
    construct cls (some (.text (jsonDumps (.dict doc)))) none .falsy none = .ok ⟨doc, none⟩ ∧
    Dict.get? doc "type" = some (.str "DeviceConfiguration") ∧ ∀ k, k ≠ "type" → Dict.get? doc k = Dict.get? st.config k := by
  obtain ⟨_, h1, h2⟩ := bind_ok_iff.1 h
  obtain rfl := Except.ok.inj h2
  refine ⟨?_, Dict.get?_set_self _ _ _, fun k hk => Dict.get?_set_ne _ _ (Ne.symm hk)⟩
  have hwd : (Val.dict (Dict.set st.config "type" (.str "DeviceConfiguration"))).WF := by
    cases hw with
    | dict _ hd hv =>
      refine .dict _ (Dict.nodup_set hd _ _) (fun p hp => ?_)
      have := Dict.get?_of_mem (Dict.nodup_set hd _ _) hp
      rw [Dict.get?_set] at this
      split at this
      · rw [← Option.some.inj this]
        exact .str _
      · exact hv (p.1, p.2) (Dict.mem_of_get? this)
  simp only [construct, load, hl, C75_json _ hwd]
  rfl

/-! ## Texts or dictionaries -/

/-- two ways to give the same argument: as a dictionary, or as its JSON text -/
def SameArg (a b : Arg) : Prop := a = b ∨ ∃ d : VDict, (Val.dict d).WF ∧ a = .text (jsonDumps (.dict d)) ∧ b = .val (.dict d)

theorem load_same (cls : Class) (hl : cls.loads = jsonLoads) {a b : Arg} (h : SameArg a b) : load cls a = load cls b := by
  rcases h with rfl | ⟨d, hw, rfl, rfl⟩
  · rfl
  · unfold load
    rw [hl]
    dsimp only
    rw [C75_json _ hw]

/-- **C75.** It makes no difference whether the configuration and the templates are given as dictionaries or as JSON texts. -/
theorem C75_text_or_dict (cls : Class) (hl : cls.loads = jsonLoads) (a b : Arg) (hab : SameArg a b) (as bs : List Arg)
    (ht : List.Forall₂ SameArg as bs) (native : Option Chars) (context : Option VDict) :
    construct cls (some a) native (.list as) context = construct cls (some b) native (.list bs) context ∧
    construct cls (some a) native .falsy context = construct cls (some b) native .falsy context := by
  have hm : ∀ c, mergeTemplates cls c (.list as) = mergeTemplates cls c (.list bs) := by
    intro c
    have hf : ∀ acc : VDict, (as ++ [Arg.val (Val.dict c)]).foldlM (fun acc t => do
        let c ← load cls t
        mergeConfig cls.sh cls.ids acc c) acc = (bs ++ [Arg.val (Val.dict c)]).foldlM (fun acc t => do
        let c ← load cls t
        mergeConfig cls.sh cls.ids acc c) acc := by
      induction ht with
      | nil => intro acc; rfl
      | cons h _ ih =>
        intro acc
        rw [List.cons_append, List.cons_append, List.foldlM_cons, List.foldlM_cons, load_same cls hl h]
        congr 1
        funext acc'
        exact ih acc'
    cases ht with
    | nil => rfl
    | cons h ht => exact hf []
  constructor
  · unfold construct
    simp only [load_same cls hl hab, hm]
  · unfold construct
    simp only [load_same cls hl hab]

end NJ
