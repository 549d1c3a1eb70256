import Verif.Base
import Verif.UnicodeTable

/-!
# Text primitives

The Python string operations and character classes the modelled code uses, on `List Char`.
-/

set_option linter.unusedSimpArgs false

namespace NJ

abbrev Chars := List Char

/-- `str.isspace` of one character = what `\s` matches in a `str` pattern (CPython 3.11). -/
def isSpace (c : Char) : Bool :=
  let n := c.toNat
  (9 ≤ n && n ≤ 13) || (28 ≤ n && n ≤ 32) || n == 0x85 || n == 0xa0 || n == 0x1680 ||
  (0x2000 ≤ n && n ≤ 0x200a) || n == 0x2028 || n == 0x2029 || n == 0x202f || n == 0x205f || n == 0x3000

def isDigit (c : Char) : Bool := 48 ≤ c.toNat && c.toNat ≤ 57
def isUpper (c : Char) : Bool := 65 ≤ c.toNat && c.toNat ≤ 90
def isLower (c : Char) : Bool := 97 ≤ c.toNat && c.toNat ≤ 122
def isAsciiAlpha (c : Char) : Bool := isUpper c || isLower c
def isAsciiAlnum (c : Char) : Bool := isAsciiAlpha c || isDigit c

/-- What `\w` matches in a `str` pattern. The explicit exclusion of white space is
redundant with the table (no alphanumeric character is white space). -/
def isWord (c : Char) : Bool :=
  if c.toNat < 128 then isAsciiAlnum c || c == '_'
  else !isSpace c && uniAlnumRanges.any (fun r => r.1 ≤ c.toNat && c.toNat ≤ r.2)

theorem isWord_not_space {c : Char} (h : isWord c = true) : isSpace c = false := by
  unfold isWord at h
  split at h
  · next hlt =>
    simp only [isAsciiAlnum, isAsciiAlpha, isUpper, isLower, isDigit, Bool.or_eq_true, Bool.and_eq_true,
      decide_eq_true_eq, beq_iff_eq] at h
    have hc : c.toNat = 95 ∨ (65 ≤ c.toNat ∧ c.toNat ≤ 90) ∨ (97 ≤ c.toNat ∧ c.toNat ≤ 122) ∨
        (48 ≤ c.toNat ∧ c.toNat ≤ 57) := by
      rcases h with ((h | h) | h) | h
      · exact .inr (.inl h)
      · exact .inr (.inr (.inl h))
      · exact .inr (.inr (.inr h))
      · subst h; exact .inl rfl
    simp only [isSpace, Bool.or_eq_false_iff, Bool.and_eq_false_iff, decide_eq_false_iff_not,
      beq_eq_false_iff_ne, ne_eq]
    omega
  · simp only [Bool.and_eq_true, Bool.not_eq_eq_eq_not, Bool.not_true] at h
    exact h.1

/-- `s.startswith(p)`; the remaining text. -/
def stripPrefix : Chars → Chars → Option Chars
  | [], s => some s
  | _ :: _, [] => none
  | p :: ps, c :: cs => if p = c then stripPrefix ps cs else none

/-- `s.lstrip()` -/
def lstrip (s : Chars) : Chars := s.dropWhile isSpace
/-- `s.rstrip()` -/
def rstrip (s : Chars) : Chars := (s.reverse.dropWhile isSpace).reverse
/-- `s.strip()` -/
def strip (s : Chars) : Chars := rstrip (lstrip s)

/-- Left-to-right scan for non-overlapping matches: at each position `m` either matches, giving a
value and the length (≥ 1) of the match, or the character is ordinary text. The first
argument is the number of characters still to be skipped. -/
def scan {α} (m : Chars → Option (α × Nat)) : Nat → Chars → List (Char ⊕ α)
  | _, [] => []
  | k + 1, _ :: cs => scan m k cs
  | 0, c :: cs => match m (c :: cs) with
    | some (a, n) => .inr a :: scan m (n - 1) cs
    | none => .inl c :: scan m 0 cs

/-- `s.replace(old, new)` for non-empty `old`. -/
def replaceAll (old new s : Chars) : Chars :=
  (scan (fun t => (stripPrefix old t).map (fun _ => ((), old.length))) 0 s).flatMap
    (fun x => match x with | .inl c => [c] | .inr () => new)

/-- `s.split(sep)` for a one-character separator. -/
def splitOn (sep : Char) : Chars → List Chars
  | [] => [[]]
  | c :: cs => if c = sep then [] :: splitOn sep cs
    else match splitOn sep cs with
      | [] => [[c]]
      | w :: ws => (c :: w) :: ws

/-- `sep.join(parts)` -/
def joinWith (sep : Chars) : List Chars → Chars
  | [] => []
  | [x] => x
  | x :: y :: r => x ++ sep ++ joinWith sep (y :: r)

/-! ## Decimal numbers -/

def digitChar (n : Nat) : Char := Char.ofNat (48 + n)

/-- decimal digits, with fuel -/
def natDigits : Nat → Nat → Chars
  | 0, _ => []
  | f + 1, n => if n < 10 then [digitChar n] else natDigits f (n / 10) ++ [digitChar (n % 10)]

/-- `str(n)` for a natural number -/
def showNat (n : Nat) : Chars := natDigits (n + 1) n

/-- `str(i)` for an integer -/
def showInt : Int → Chars
  | .ofNat n => showNat n
  | .negSucc n => '-' :: showNat (n + 1)

/-- value of a string of ASCII digits -/
def readDigits (acc : Nat) : Chars → Option Nat
  | [] => some acc
  | c :: cs => if isDigit c then readDigits (acc * 10 + (c.toNat - 48)) cs else none

/-- a non-empty string of ASCII digits -/
def readNat (s : Chars) : Option Nat := if s.isEmpty then none else readDigits 0 s

theorem readDigits_append (a b : Chars) (acc : Nat) :
    readDigits acc (a ++ b) = (readDigits acc a).bind (fun n => readDigits n b) := by
  induction a generalizing acc with
  | nil => simp [readDigits]
  | cons c cs ih =>
    simp only [List.cons_append, readDigits]
    split
    · exact ih _
    · rfl

theorem digitChar_toNat {n : Nat} (h : n < 10) : (digitChar n).toNat = 48 + n := by
  have : n = 0 ∨ n = 1 ∨ n = 2 ∨ n = 3 ∨ n = 4 ∨ n = 5 ∨ n = 6 ∨ n = 7 ∨ n = 8 ∨ n = 9 := by omega
  rcases this with h | h | h | h | h | h | h | h | h | h <;> subst h <;> rfl

theorem isDigit_digitChar {n : Nat} (h : n < 10) : isDigit (digitChar n) = true := by
  simp only [isDigit, digitChar_toNat h, Bool.and_eq_true, decide_eq_true_eq]; omega

theorem natDigits_spec (f n : Nat) (h : n < f) :
    readDigits 0 (natDigits f n) = some n ∧ natDigits f n ≠ [] ∧ ∀ c ∈ natDigits f n, isDigit c = true := by
  induction f generalizing n with
  | zero => omega
  | succ f ih =>
    simp only [natDigits]
    split
    · next hn =>
      refine ⟨?_, by simp, ?_⟩
      · simp [readDigits, isDigit_digitChar hn, digitChar_toNat hn]
      · intro c hc; simp at hc; subst hc; exact isDigit_digitChar hn
    · next hn =>
      obtain ⟨h1, h2, h3⟩ := ih (n / 10) (by omega)
      have hm : n % 10 < 10 := by omega
      refine ⟨?_, by simp, ?_⟩
      · rw [readDigits_append, h1]
        simp [readDigits, isDigit_digitChar hm, digitChar_toNat hm]; omega
      · intro c hc
        rcases List.mem_append.1 hc with hc | hc
        · exact h3 c hc
        · simp at hc; subst hc; exact isDigit_digitChar hm

theorem readNat_showNat (n : Nat) : readNat (showNat n) = some n := by
  obtain ⟨h1, h2, _⟩ := natDigits_spec (n + 1) n (by omega)
  unfold readNat showNat
  rw [h1]; simp [h2]

theorem showNat_digits (n : Nat) : ∀ c ∈ showNat n, isDigit c = true :=
  (natDigits_spec (n + 1) n (by omega)).2.2

theorem showNat_ne_nil (n : Nat) : showNat n ≠ [] := (natDigits_spec (n + 1) n (by omega)).2.1

/-- `int(s)` for the texts this code base produces: optional surrounding white space, optional sign, ASCII digits with
optional single underscores between them. (Non-ASCII decimal digits are not modelled.) -/
def readUnderscored (acc : Nat) (prevDigit : Bool) : Chars → Option Nat
  | [] => if prevDigit then some acc else none
  | c :: cs => if isDigit c then readUnderscored (acc * 10 + (c.toNat - 48)) true cs
    else if c = '_' ∧ prevDigit = true then readUnderscored acc false cs else none

def parseInt (s : Chars) : Option Int :=
  match strip s with
  | '-' :: r => (readUnderscored 0 false r).map (fun n => - (n : Int))
  | '+' :: r => (readUnderscored 0 false r).map (fun n => (n : Int))
  | r => (readUnderscored 0 false r).map (fun n => (n : Int))

theorem readUnderscored_digits (s : Chars) (hd : ∀ c ∈ s, isDigit c = true) (acc : Nat) (p : Bool) (hne : s ≠ [] ∨ p = true) :
    readUnderscored acc p s = readDigits acc s := by
  induction s generalizing acc p with
  | nil => rcases hne with h | h; exact absurd rfl h; simp [readUnderscored, readDigits, h]
  | cons c cs ih =>
    have hc := hd c (by simp)
    simp only [readUnderscored, readDigits, hc, if_true]
    exact ih (fun c hc => hd c (by simp [hc])) _ _ (.inr rfl)

theorem isDigit_not_space {c : Char} (h : isDigit c = true) : isSpace c = false := by
  simp only [isDigit, Bool.and_eq_true, decide_eq_true_eq] at h
  simp only [isSpace, Bool.or_eq_false_iff, Bool.and_eq_false_iff, decide_eq_false_iff_not,
      beq_eq_false_iff_ne, ne_eq]
  omega

theorem dropWhile_none {α} (p : α → Bool) (l : List α) (h : ∀ c ∈ l, p c = false) : l.dropWhile p = l := by
  cases l with
  | nil => rfl
  | cons x xs => simp [h x (by simp)]

theorem strip_of_no_space {s : Chars} (h : ∀ c ∈ s, isSpace c = false) : strip s = s := by
  unfold strip rstrip lstrip
  rw [dropWhile_none _ s h, dropWhile_none _ s.reverse (fun c hc => h c (List.mem_reverse.1 hc)), List.reverse_reverse]

/-- a text is its own `strip()` when it neither begins nor ends with white space -/
theorem strip_eq_self {s : Chars} (h1 : ∀ c, s.head? = some c → isSpace c = false)
    (h2 : ∀ c, s.getLast? = some c → isSpace c = false) : strip s = s := by
  have hl : lstrip s = s := by
    unfold lstrip
    cases s with
    | nil => rfl
    | cons x xs => simp [h1 x rfl]
  unfold strip
  rw [hl]
  unfold rstrip
  have : s.reverse.dropWhile isSpace = s.reverse := by
    cases hr : s.reverse with
    | nil => rfl
    | cons x xs =>
      have : s.getLast? = some x := by
        rw [← List.head?_reverse, hr]; rfl
      simp [h2 x this]
  rw [this, List.reverse_reverse]

theorem parseInt_showInt (i : Int) : parseInt (showInt i) = some i := by
  cases i with
  | ofNat n =>
    have hd := showNat_digits n
    have hs : strip (showNat n) = showNat n := strip_of_no_space (fun c hc => isDigit_not_space (hd c hc))
    have hr := readNat_showNat n
    have hne := showNat_ne_nil n
    have hu : readUnderscored 0 false (showNat n) = some n := by
      rw [readUnderscored_digits _ hd _ _ (.inl hne)]
      simpa [readNat, hne] using hr
    simp only [parseInt, showInt, hs]
    cases hsn : showNat n with
    | nil => exact absurd hsn hne
    | cons c cs =>
      have hc : isDigit c = true := hd c (by simp [hsn])
      have h1 : c ≠ '-' := by rintro rfl; exact absurd hc (by decide)
      have h2 : c ≠ '+' := by rintro rfl; exact absurd hc (by decide)
      rw [hsn] at hu
      split
      · next h => cases h; exact absurd rfl h1
      · next h => cases h; exact absurd rfl h2
      · rw [hu]; rfl
  | negSucc n =>
    have hd := showNat_digits (n + 1)
    have hs : strip ('-' :: showNat (n + 1)) = '-' :: showNat (n + 1) := strip_of_no_space (by
      intro c hc
      rcases List.mem_cons.1 hc with rfl | hc
      · decide
      · exact isDigit_not_space (hd c hc))
    have hr := readNat_showNat (n + 1)
    have hne := showNat_ne_nil (n + 1)
    have hu : readUnderscored 0 false (showNat (n + 1)) = some (n + 1) := by
      rw [readUnderscored_digits _ hd _ _ (.inl hne)]
      simpa [readNat, hne] using hr
    simp only [parseInt, showInt, hs]
    rw [hu]; rfl

example : showInt (-120) = "-120".toList ∧ parseInt " +1_0 ".toList = some 10 := by decide

/-! ## Lemmas on `scan` -/

theorem scan_skip {α} (m : Chars → Option (α × Nat)) (a b : Chars) : scan m a.length (a ++ b) = scan m 0 b := by
  induction a with
  | nil => rfl
  | cons c cs ih => simp [scan, ih]

/-- if nothing matches, everything is ordinary text -/
theorem scan_none {α} (m : Chars → Option (α × Nat)) (s : Chars)
    (h : ∀ t, t <:+ s → t ≠ [] → m t = none) : scan m 0 s = s.map .inl := by
  induction s with
  | nil => rfl
  | cons c cs ih =>
    simp only [scan, h (c :: cs) (List.suffix_refl _) (by simp), List.map_cons]
    rw [ih (fun t ht hne => h t (List.IsSuffix.trans ht (List.suffix_cons c cs)) hne)]

end NJ

namespace NJ

/-! ## Splitting and joining -/

theorem splitOn_ne_nil (sep : Char) (s : Chars) : splitOn sep s ≠ [] := by
  cases s with
  | nil => simp [splitOn]
  | cons c cs => simp only [splitOn]; split <;> (try split) <;> simp

theorem joinWith_splitOn (sep : Char) (s : Chars) : joinWith [sep] (splitOn sep s) = s := by
  induction s with
  | nil => rfl
  | cons c cs ih =>
    simp only [splitOn]
    split
    · next h =>
      subst h
      cases hs : splitOn c cs with
      | nil => exact absurd hs (splitOn_ne_nil _ _)
      | cons w ws => rw [hs] at ih; simp [joinWith, ih]
    · cases hs : splitOn sep cs with
      | nil => exact absurd hs (splitOn_ne_nil _ _)
      | cons w ws =>
        rw [hs] at ih
        cases ws with
        | nil => simp [joinWith] at ih ⊢; exact ih
        | cons x xs => simp [joinWith] at ih ⊢; exact ih

theorem splitOn_no_sep {sep : Char} {s : Chars} {w : Chars} (h : w ∈ splitOn sep s) : sep ∉ w := by
  induction s generalizing w with
  | nil => simp [splitOn] at h; subst h; simp
  | cons c cs ih =>
    simp only [splitOn] at h
    split at h
    · simp at h
      rcases h with rfl | h
      · simp
      · exact ih h
    · next hc =>
      cases hs : splitOn sep cs with
      | nil => exact absurd hs (splitOn_ne_nil _ _)
      | cons x xs =>
        rw [hs] at h ih
        simp at h
        rcases h with rfl | h
        · have := ih (w := x) (by simp)
          simp [this]; exact fun e => hc e.symm
        · exact ih (by simp [h])

theorem splitOn_append {sep : Char} (w s : Chars) (h : sep ∉ w) :
    splitOn sep (w ++ sep :: s) = w :: splitOn sep s := by
  induction w with
  | nil => simp [splitOn]
  | cons c cs ih =>
    simp at h
    simp only [List.cons_append, splitOn, ih h.2]
    rw [if_neg (fun e => h.1 e.symm)]

theorem splitOn_single {sep : Char} (w : Chars) (h : sep ∉ w) : splitOn sep w = [w] := by
  induction w with
  | nil => simp [splitOn]
  | cons c cs ih =>
    simp at h
    simp only [splitOn, ih h.2]
    rw [if_neg (fun e => h.1 e.symm)]

theorem splitOn_joinWith {sep : Char} (ws : List Chars) (hne : ws ≠ []) (h : ∀ w ∈ ws, sep ∉ w) :
    splitOn sep (joinWith [sep] ws) = ws := by
  induction ws with
  | nil => exact absurd rfl hne
  | cons w ws ih =>
    cases ws with
    | nil => simp only [joinWith]; exact splitOn_single w (h w (by simp))
    | cons x xs =>
      have e : joinWith [sep] (w :: x :: xs) = w ++ sep :: joinWith [sep] (x :: xs) := by simp [joinWith]
      rw [e, splitOn_append _ _ (h w (by simp)), ih (by simp) (fun v hv => h v (by simp [hv]))]

end NJ

namespace NJ

theorem stripPrefix_some {p s r : Chars} : stripPrefix p s = some r ↔ s = p ++ r := by
  induction p generalizing s with
  | nil => simp [stripPrefix, eq_comm]
  | cons a p ih =>
    cases s with
    | nil => simp [stripPrefix]
    | cons c cs =>
      simp only [stripPrefix, List.cons_append, List.cons.injEq]
      split
      · next h => subst h; simp [ih]
      · next h => simp; intro h'; exact absurd h'.symm h

theorem flatMap_inl {α} (s : Chars) (f : Char ⊕ α → Chars) (hf : ∀ c, f (.inl c) = [c]) : (s.map Sum.inl).flatMap f = s := by
  induction s with
  | nil => rfl
  | cons c cs ih => rw [List.map_cons, List.flatMap_cons, ih, hf]; rfl

/-- `s.replace(old, new)` is `s` when `old` does not occur in it -/
theorem replaceAll_of_not_infix {old new s : Chars} (h : ¬ old <:+: s) : replaceAll old new s = s := by
  unfold replaceAll
  rw [scan_none]
  · exact flatMap_inl s _ (fun _ => rfl)
  · intro t ht hne
    cases hp : stripPrefix old t with
    | none => rfl
    | some r =>
      exfalso; apply h
      rw [stripPrefix_some] at hp
      subst hp
      exact List.IsInfix.trans ⟨[], r, by simp⟩ ht.isInfix

end NJ
