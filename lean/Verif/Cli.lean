import Verif.Conv

/-!
# The command line program (bin/netjsonconfig)

Modelled: the arguments of the method, where configuration and templates come from, the exit statuses, what is printed. Not modelled: the
parsing of the options by `argparse`, the texts of the messages, archives given as `--native` (a file is its text).
-/

namespace NJ

/-- l.66-68: the methods -/
inductive CliMethod where
  | render | generate | write | validate | json
  deriving DecidableEq

/-- l.152: the options, as `argparse` gives them -/
structure CliArgs where
  config : Option Chars
  native : Option Chars
  templates : List Chars
  method : CliMethod
  args : List Chars

/-- How the program ends: with an exit status it chose, with an exception it does not catch, or normally, having printed `out`. -/
inductive CliEnd where
  | exit (code : Nat)
  | crash (e : PyErr)
  | done (out : Chars)
  deriving DecidableEq

/-- l.96-110 `_load`; `fs` are the files, `none` for those that cannot be opened -/
def cliLoad (fs : Chars → Option Chars) (s : Chars) : Option Chars :=
  if ['{'] <+: strip s then some (strip s) else fs s

/-- l.130-138 `recognize_method_argument` -/
def cliValue (s : Chars) : Val :=
  if s ∈ ["True".toList, "1".toList] then .bool true
  else if s ∈ ["False".toList, "0".toList] then .bool false
  else txt s

/-- l.113-127 `parse_method_arguments`; `none` for exit status 3 -/
def cliArguments : List Chars → VDict → Option VDict
  | [], kwargs => some kwargs
  | a :: as, kwargs =>
    if a.count '=' ≠ 1 then none
    else match splitOn '=' a with
      | [key, val] => cliArguments as (Dict.set kwargs (String.ofList key) (cliValue val))
      | _ => none

/-- `getattr(instance, method)(**method_arguments)`, l.181: the text to print, if any. `render` has the parameter `files`, `validate`
has none (backend.py l.159, l.222); the other methods are the parameter `other`. -/
def cliCall (cls : Class) (other : CliMethod → BState → VDict → Except PyErr (Option Chars)) (m : CliMethod) (st : BState) (kw : VDict) :
    Except PyErr (Option Chars) :=
  match m with
  | .render =>
    if kw.all (fun p => decide (p.1 = "files")) then do
      let t ← (render cls ((Dict.get? kw "files").getD (.bool true)).truthy st).2
      pure (some t)
    else .error .typeError
  | .validate =>
    if kw.isEmpty then do
      validate cls st.config
      pure none
    else .error .typeError
  | m => other m st kw

/-- l.141-150 `print_output`, and l.182 -/
def cliPrint : Option Chars → Chars
  | some (c :: cs) => c :: cs ++ ['\n']
  | _ => []

/-- a text option that is given and not empty -/
def given : Option Chars → Option Chars
  | some (c :: cs) => some (c :: cs)
  | _ => none

/-- l.153-159: the text of the configuration (left) or of the native configuration (right); `none` for exit status 1 -/
def cliSource (fs : Chars → Option Chars) (a : CliArgs) : Option (Chars ⊕ Chars) :=
  match given a.config, given a.native with
  | some c, _ => (cliLoad fs c).map .inl
  | none, some n => (cliLoad fs n).map .inr
  | none, none => none

/-- l.167-175: the instance -/
def cliInstance (cls : Class) (environ : VDict) (templates : List Chars) : Chars ⊕ Chars → Except PyErr BState
  | .inl c => construct cls (some (.text c)) none (.list (templates.map .text)) (some environ)
  | .inr n => construct cls none (some n) (.list (templates.map .text)) (some environ)

/-- l.180-196: what the exceptions of the method become -/
def cliEnd : Except PyErr (Option Chars) → CliEnd
  | .ok out => .done (cliPrint out)
  | .error .validation => .exit 4
  | .error .typeError => .exit 5
  | .error e => .crash e

/-- l.152-196 -/
def cli (cls : Class) (other : CliMethod → BState → VDict → Except PyErr (Option Chars)) (fs : Chars → Option Chars) (environ : VDict)
    (a : CliArgs) : CliEnd :=
  match cliSource fs a with
  | none => .exit 1
  | some src =>
    match a.templates.mapM (cliLoad fs) with
    | none => .exit 1
    | some ts =>
      match cliArguments a.args [] with
      | none => .exit 3
      | some kw =>
        match cliInstance cls environ ts src with
        | .error .typeError => .exit 2
        | .error e => .crash e
        | .ok st => cliEnd (cliCall cls other a.method st kw)

end NJ
