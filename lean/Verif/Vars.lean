import Verif.Text

/-!
# Model of `evaluate_vars` (netjsonconfig/utils.py l.106-150) and of `re.sub` as used there
-/

set_option linter.unusedSimpArgs false

namespace NJ

/-- A match of `\{\{\s*(\w*)\s*\}\}` (utils.py l.110): the name and everything between the braces. -/
structure Ph where
  name : Chars
  inner : Chars
  deriving DecidableEq

/-- Matching the pattern at the beginning of a text, and the length of the match. Because white
space, word characters and `}` are disjoint classes, greedy matching without backtracking is
what the regular expression does. -/
def matchVar : Chars → Option (Ph × Nat)
  | '{' :: '{' :: r =>
    let pre := r.takeWhile isSpace
    let r1 := r.dropWhile isSpace
    let name := r1.takeWhile isWord
    let r2 := r1.dropWhile isWord
    let post := r2.takeWhile isSpace
    let r3 := r2.dropWhile isSpace
    match r3 with
    | '}' :: '}' :: _ => some (⟨name, pre ++ name ++ post⟩, pre.length + name.length + post.length + 4)
    | _ => none
  | _ => none

/-- text and placeholders of a string -/
abbrev VTok := Char ⊕ Ph

def vtokens (s : Chars) : List VTok := scan matchVar 0 s

/-- `var_pattern.findall(data)` (utils.py l.131) -/
def findVars (s : Chars) : List Chars := (vtokens s).filterMap (fun t => match t with | .inr p => some p.name | .inl _ => none)

/-! ## Replacement templates (`re.sub` with a string, CPython `re._parser.parse_template`) -/

inductive TTok where
  | plain (c : Char)
  | esc (c : Char)
  deriving DecidableEq

/-- CPython `re._parser.Tokenizer`; a lone backslash at the end is an error. (The error
is raised here at once, in CPython when the scan reaches it: only relevant when the template also
contains an unknown group name.) -/
def ttokens : Chars → Option (List TTok)
  | [] => some []
  | '\\' :: [] => none
  | '\\' :: c :: r => (ttokens r).map (TTok.esc c :: ·)
  | c :: r => (ttokens r).map (TTok.plain c :: ·)

/-- parsed template: literal text and references to group 0 or 1 -/
inductive TPart where
  | lit (c : Char)
  | group (n : Nat)
  deriving DecidableEq

def isOct (c : Char) : Bool := 48 ≤ c.toNat && c.toNat ≤ 55
def octVal (c : Char) : Nat := c.toNat - 48

/-- text up to `>`; two-character tokens never end it -/
def untilGt : List TTok → Option (Chars × List TTok)
  | [] => none
  | .plain c :: r => if c = '>' then some ([], r) else (untilGt r).map (fun p => (c :: p.1, p.2))
  | .esc c :: r => (untilGt r).map (fun p => ('\\' :: c :: p.1, p.2))

/-- group number of `\g<name>`: all patterns used here have exactly one (unnamed) group.
Simplification: names that are neither ASCII digits nor identifiers are errors (CPython ≥ 3.13). -/
def groupRef (name : Chars) : Except PyErr Nat :=
  if name.isEmpty then .error .reError
  else match readNat name with
    | some n => if n ≤ 1 then .ok n else .error .reError
    | none => match name with
      | c :: cs => if isWord c && !isDigit c && cs.all isWord then .error .indexError else .error .reError
      | [] => .error .reError

def simpleEscape (c : Char) : Option Char :=
  if c = 'n' then some '\n' else if c = 't' then some '\t' else if c = 'r' then some '\r'
  else if c = 'a' then some (Char.ofNat 7) else if c = 'b' then some (Char.ofNat 8)
  else if c = 'f' then some (Char.ofNat 12) else if c = 'v' then some (Char.ofNat 11)
  else if c = '\\' then some '\\' else none

/-- CPython `re._parser.parse_template` for a pattern with one group; the first argument is fuel (number of tokens). -/
def parseTemplate : Nat → List TTok → Except PyErr (List TPart)
  | _, [] => .ok []
  | 0, _ :: _ => .ok []
  | f + 1, .plain c :: r => do let ps ← parseTemplate f r; pure (.lit c :: ps)
  | f + 1, .esc c :: r =>
    if c = 'g' then
      match r with
      | .plain '<' :: r1 =>
        match untilGt r1 with
        | none => .error .reError
        | some (name, r2) => do
          let n ← groupRef name
          let ps ← parseTemplate f r2
          pure (.group n :: ps)
      | _ => .error .reError
    else if c = '0' then
      match r with
      | .plain a :: .plain b :: r2 =>
        if isOct a then
          if isOct b then do let ps ← parseTemplate f r2; pure (.lit (Char.ofNat (octVal a * 8 + octVal b)) :: ps)
          else do let ps ← parseTemplate f (.plain b :: r2); pure (.lit (Char.ofNat (octVal a)) :: ps)
        else do let ps ← parseTemplate f r; pure (.lit (Char.ofNat 0) :: ps)
      | .plain a :: r2 =>
        if isOct a then do let ps ← parseTemplate f r2; pure (.lit (Char.ofNat (octVal a)) :: ps)
        else do let ps ← parseTemplate f r; pure (.lit (Char.ofNat 0) :: ps)
      | _ => do let ps ← parseTemplate f r; pure (.lit (Char.ofNat 0) :: ps)
    else if isDigit c then
      match r with
      | .plain a :: .plain b :: r2 =>
        if isDigit a then
          if isOct c && isOct a && isOct b then
            let v := octVal c * 64 + octVal a * 8 + octVal b
            if v > 255 then .error .reError
            else do let ps ← parseTemplate f r2; pure (.lit (Char.ofNat v) :: ps)
          else .error .reError -- a group number above 9 does not exist
        else if c = '1' then do let ps ← parseTemplate f r; pure (.group 1 :: ps)
        else .error .reError
      | .plain a :: _ =>
        if isDigit a then .error .reError
        else if c = '1' then do let ps ← parseTemplate f r; pure (.group 1 :: ps)
        else .error .reError
      | _ =>
        if c = '1' then do let ps ← parseTemplate f r; pure (.group 1 :: ps)
        else .error .reError
    else
      match simpleEscape c with
      | some e => do let ps ← parseTemplate f r; pure (.lit e :: ps)
      | none =>
        if isAsciiAlpha c then .error .reError
        else do let ps ← parseTemplate f r; pure (.lit '\\' :: .lit c :: ps)

def compileTemplate (s : Chars) : Except PyErr (List TPart) :=
  match ttokens s with
  | none => .error .reError
  | some ts => parseTemplate ts.length ts

/-- text inserted for one match -/
def expandTemplate (g0 g1 : Chars) (ps : List TPart) : Chars :=
  ps.flatMap (fun p => match p with | .lit c => [c] | .group 0 => g0 | .group _ => g1)

/-- the text of a match -/
def Ph.text (p : Ph) : Chars := '{' :: '{' :: p.inner ++ ['}', '}']

/-- `re.sub(pattern, str(value), data)` (utils.py l.137-146). With several placeholders the
pattern is `\{\{(\s*NAME\s*)\}\}` (group 1: everything between the braces), with a single one
it is `var_pattern` (group 1: the name). -/
def subVar (multi : Bool) (name : Chars) (value data : Chars) : Except PyErr Chars := do
  let tpl ← compileTemplate value
  pure ((vtokens data).flatMap (fun t => match t with
    | .inl c => [c]
    | .inr p =>
      if multi then (if p.name = name then expandTemplate p.text p.inner tpl else p.text)
      else expandTemplate p.text p.name tpl))

/-- `str(value)` of a context value; `reprC` stands for the text of lists and dicts. -/
def pyStr (reprC : Val → String) : Val → String
  | .str s => s
  | .int i => String.ofList (showInt i)
  | .bool true => "True"
  | .bool false => "False"
  | .none => "None"
  | v => reprC v

/-- utils.py l.130-147: evaluation of one string. -/
def evalStr (reprC : Val → String) (ctx : VDict) (s : Chars) : Except PyErr Chars :=
  let vars := findVars s
  vars.foldlM (fun data var =>
    match Dict.get? ctx (String.ofList (strip var)) with
    | some v => subVar (decide (vars.length > 1)) (strip var) (pyStr reprC v).toList data
    | none => pure data) s

mutual
/-- `evaluate_vars(data, context)` (utils.py l.113-148). -/
def evalVars (reprC : Val → String) (ctx : VDict) : Val → Except PyErr Val
  | .str s => do let r ← evalStr reprC ctx s.toList; pure (.str (String.ofList r))
  | .list l => do let r ← evalVarsL reprC ctx l; pure (.list r)
  | .dict d => do let r ← evalVarsD reprC ctx d; pure (.dict r)
  | v => .ok v
  termination_by structural v => v
def evalVarsL (reprC : Val → String) (ctx : VDict) : List Val → Except PyErr (List Val)
  | [] => .ok []
  | v :: r => do let x ← evalVars reprC ctx v; let xs ← evalVarsL reprC ctx r; pure (x :: xs)
  termination_by structural v => v
def evalVarsD (reprC : Val → String) (ctx : VDict) : List (String × Val) → Except PyErr (List (String × Val))
  | [] => .ok []
  | (k, v) :: r => do let x ← evalVars reprC ctx v; let xs ← evalVarsD reprC ctx r; pure ((k, x) :: xs)
  termination_by structural v => v
end

/-- backends/base/backend.py l.93-101 `_evaluate_vars` -/
def evaluateConfig (reprC : Val → String) (ctx : Option VDict) (config : VDict) : Except PyErr VDict :=
  match ctx with
  | none => .ok config
  | some [] => .ok config
  | some c => evalVarsD reprC c config

end NJ
