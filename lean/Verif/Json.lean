import Verif.Uci

/-!
# JSON texts (`json.dumps` and `json.loads` of the standard library, and the filter `tojson` of Jinja2)

Used by base/backend.py l.255-269 `json()`, l.62-75 `_load`, zerotier/templates/zerotier.jinja2 l.4 and zerotier/parser.py l.40-44. Numbers that are not
integers are not modelled (reading one is an error here), nor are texts with surrogates that are not in pairs.
-/

namespace NJ

/-! ## Writing -/

/-- how texts and layout are written -/
structure JsonStyle where
  /-- a character within a text -/
  esc : Char → Chars
  /-- blanks for each level; `none`: all on one line -/
  indent : Option Nat

/-- a digit of a hexadecimal number, as `'{0:x}'.format` writes it -/
def hexDigit (n : Nat) : Char := if n < 10 then Char.ofNat (48 + n) else Char.ofNat (87 + n)

/-- `'\\u{0:04x}'.format(n)` -/
def uEscape (n : Nat) : Chars := ['\\', 'u', hexDigit (n / 4096 % 16), hexDigit (n / 256 % 16), hexDigit (n / 16 % 16), hexDigit (n % 16)]

/-- json/encoder.py `py_encode_basestring_ascii`, for one character -/
def escChar (c : Char) : Chars :=
  if c = '"' then ['\\', '"']
  else if c = '\\' then ['\\', '\\']
  else if c = '\n' then ['\\', 'n']
  else if c = '\r' then ['\\', 'r']
  else if c = '\t' then ['\\', 't']
  else if c = '\x0c' then ['\\', 'f']
  else if c = '\x08' then ['\\', 'b']
  else if 32 ≤ c.toNat ∧ c.toNat ≤ 126 then [c]
  else if c.toNat < 65536 then uEscape c.toNat
  else uEscape (55296 + (c.toNat - 65536) / 1024) ++ uEscape (56320 + (c.toNat - 65536) % 1024)

/-- jinja2/utils.py `htmlsafe_json_dumps`: what is replaced in the text afterwards -/
def htmlChar (c : Char) : Chars :=
  if c = '<' then uEscape 60 else if c = '>' then uEscape 62 else if c = '&' then uEscape 38 else if c = '\'' then uEscape 39 else [c]

def jsonText (st : JsonStyle) (s : Chars) : Chars := '"' :: (s.flatMap st.esc ++ ['"'])

/-- a new line at a level -/
def JsonStyle.brk (st : JsonStyle) (lvl : Nat) : Chars :=
  match st.indent with
  | none => []
  | some n => '\n' :: sp (n * lvl)

/-- between two items -/
def JsonStyle.sep (st : JsonStyle) (lvl : Nat) : Chars :=
  match st.indent with
  | none => [',', ' ']
  | some _ => ',' :: st.brk lvl

mutual
/-- json/encoder.py `_make_iterencode` -/
def dumpV (st : JsonStyle) (lvl : Nat) : Val → Chars
  | .none => "null".toList
  | .bool true => "true".toList
  | .bool false => "false".toList
  | .int i => showInt i
  | .str s => jsonText st s.toList
  | .list l => match l with
    | [] => ['[', ']']
    | v :: vs => '[' :: (st.brk (lvl + 1) ++ (dumpV st (lvl + 1) v ++ (dumpL st (lvl + 1) vs ++ (st.brk lvl ++ [']']))))
  | .dict d => match d with
    | [] => ['{', '}']
    | (k, v) :: ps => '{' :: (st.brk (lvl + 1) ++ (jsonText st k.toList ++ ([':', ' '] ++ (dumpV st (lvl + 1) v ++ (dumpD st (lvl + 1) ps ++ (st.brk lvl ++ ['}']))))))
/-- the items after the first -/
def dumpL (st : JsonStyle) (lvl : Nat) : List Val → Chars
  | [] => []
  | v :: vs => st.sep lvl ++ (dumpV st lvl v ++ dumpL st lvl vs)
def dumpD (st : JsonStyle) (lvl : Nat) : List (String × Val) → Chars
  | [] => []
  | (k, v) :: ps => st.sep lvl ++ (jsonText st k.toList ++ ([':', ' '] ++ (dumpV st lvl v ++ dumpD st lvl ps)))
end

mutual
/-- `sort_keys=True`: the keys of every dictionary in order -/
def sortDeep : Val → Val
  | .list l => .list (sortDeepL l)
  | .dict d => .dict (sortedDict (sortDeepD d))
  | v => v
  termination_by structural v => v
def sortDeepL : List Val → List Val
  | [] => []
  | v :: vs => sortDeep v :: sortDeepL vs
  termination_by structural v => v
def sortDeepD : List (String × Val) → List (String × Val)
  | [] => []
  | (k, v) :: ps => (k, sortDeep v) :: sortDeepD ps
  termination_by structural v => v
end

/-- `json.dumps(v)` -/
def jsonDumps (v : Val) : Chars := dumpV ⟨escChar, none⟩ 0 v

/-- `v | tojson(indent=4)` -/
def tojson4 (v : Val) : Chars := (dumpV ⟨escChar, some 4⟩ 0 (sortDeep v)).flatMap htmlChar

/-! ## Reading -/

/-- json/decoder.py `WHITESPACE` -/
def jsonSpace (c : Char) : Bool := c == ' ' || c == '\t' || c == '\n' || c == '\r'

def skipWs (s : Chars) : Chars := s.dropWhile jsonSpace

def hexVal (c : Char) : Option Nat :=
  if isDigit c then some (c.toNat - 48)
  else if 97 ≤ c.toNat ∧ c.toNat ≤ 102 then some (c.toNat - 87)
  else if 65 ≤ c.toNat ∧ c.toNat ≤ 70 then some (c.toNat - 55)
  else none

def hex4 (a b c d : Char) : Option Nat := do
  let a ← hexVal a
  let b ← hexVal b
  let c ← hexVal c
  let d ← hexVal d
  pure (((a * 16 + b) * 16 + c) * 16 + d)

/-- json/decoder.py `BACKSLASH` -/
def unescape (c : Char) : Option Nat :=
  if c = '"' then some 34 else if c = '\\' then some 92 else if c = '/' then some 47 else if c = 'b' then some 8 else if c = 'f' then some 12
  else if c = 'n' then some 10 else if c = 'r' then some 13 else if c = 't' then some 9 else none

/-- `scanstring` after the opening quote: the code points of the text (surrogates still apart), and what follows the closing quote -/
def scanText : Chars → Option (List Nat × Chars)
  | [] => none
  | c :: r =>
    if c = '"' then some ([], r)
    else if c = '\\' then match r with
      | [] => none
      | e :: r' =>
        if e = 'u' then match r' with
          | a :: b :: c :: d :: r'' => do
            let n ← hex4 a b c d
            let (ns, t) ← scanText r''
            pure (n :: ns, t)
          | _ => none
        else do
          let n ← unescape e
          let (ns, t) ← scanText r'
          pure (n :: ns, t)
    else if c.toNat < 32 then none
    else do
      let (ns, t) ← scanText r
      pure (c.toNat :: ns, t)

def isHigh (n : Nat) : Bool := 55296 ≤ n && n ≤ 56319
def isLow (n : Nat) : Bool := 56320 ≤ n && n ≤ 57343

/-- pairs of surrogates are one character; simplification: one that is alone is an error -/
def joinPairs : List Nat → Option Chars
  | [] => some []
  | a :: ns =>
    if isHigh a then match ns with
      | b :: ms => if isLow b then do
          let r ← joinPairs ms
          pure (Char.ofNat (65536 + (a - 55296) * 1024 + (b - 56320)) :: r)
        else none
      | [] => none
    else if isLow a then none
    else do
      let r ← joinPairs ns
      pure (Char.ofNat a :: r)

/-- a text, after the opening quote -/
def loadText (s : Chars) : Option (Chars × Chars) := do
  let (ns, r) ← scanText s
  let cs ← joinPairs ns
  pure (cs, r)

/-- after a number: the rest, unless the number is not an integer -/
def intEnd (i : Int) (r : Chars) : Option (Val × Chars) :=
  match r with
  | c :: _ => if c = '.' ∨ c = 'e' ∨ c = 'E' then none else some (.int i, r)
  | [] => some (.int i, [])

/-- json/scanner.py `NUMBER_RE`, integers only; a zero is a whole number -/
def loadNat (s : Chars) : Option (Nat × Chars) :=
  match s with
  | [] => none
  | c :: r => if c = '0' then some (0, r)
    else do
      let n ← readNat (s.takeWhile isDigit)
      pure (n, s.dropWhile isDigit)

def loadInt (s : Chars) : Option (Val × Chars) :=
  match s with
  | [] => none
  | c :: r => if c = '-' then do
      let (n, t) ← loadNat r
      intEnd (- (n : Int)) t
    else do
      let (n, t) ← loadNat s
      intEnd n t

mutual
/-- json/scanner.py `scan_once`; the first argument bounds the depth of the recursion -/
def loadV : Nat → Chars → Option (Val × Chars)
  | 0, _ => none
  | _ + 1, [] => none
  | n + 1, c :: r =>
    if c = '"' then (loadText r).map (fun st => (.str (String.ofList st.1), st.2))
    else if c = '[' then
      if (skipWs r).head? = some ']' then some (.list [], (skipWs r).tail)
      else (loadItems n (skipWs r)).map (fun lt => (.list lt.1, lt.2))
    else if c = '{' then
      if (skipWs r).head? = some '}' then some (.dict [], (skipWs r).tail)
      else (loadMembers n [] (skipWs r)).map (fun dt => (.dict dt.1, dt.2))
    else if (stripPrefix "null".toList (c :: r)).isSome then some (.none, (c :: r).drop 4)
    else if (stripPrefix "true".toList (c :: r)).isSome then some (.bool true, (c :: r).drop 4)
    else if (stripPrefix "false".toList (c :: r)).isSome then some (.bool false, (c :: r).drop 5)
    else loadInt (c :: r)
/-- json/decoder.py `JSONArray`, from an item on -/
def loadItems : Nat → Chars → Option (List Val × Chars)
  | 0, _ => none
  | n + 1, s => (loadV n s).bind (fun vt => match skipWs vt.2 with
    | [] => none
    | c :: t => if c = ']' then some ([vt.1], t)
      else if c = ',' then (loadItems n (skipWs t)).map (fun lu => (vt.1 :: lu.1, lu.2))
      else none)
/-- json/decoder.py `JSONObject`, from a key on; a key given again replaces the value -/
def loadMembers : Nat → VDict → Chars → Option (VDict × Chars)
  | 0, _, _ => none
  | _ + 1, _, [] => none
  | n + 1, acc, q :: r => if q = '"' then (loadText r).bind (fun kt => match skipWs kt.2 with
      | [] => none
      | c :: t => if c = ':' then (loadV n (skipWs t)).bind (fun vu => match skipWs vu.2 with
          | [] => none
          | e :: u => if e = '}' then some (Dict.set acc (String.ofList kt.1) vu.1, u)
            else if e = ',' then loadMembers n (Dict.set acc (String.ofList kt.1) vu.1) (skipWs u)
            else none)
        else none)
    else none
end

/-- `json.loads(s)` -/
def jsonLoads (s : Chars) : Option Val := do
  let (v, r) ← loadV (s.length + 1) (skipWs s)
  if (skipWs r).isEmpty then pure v else none

end NJ
