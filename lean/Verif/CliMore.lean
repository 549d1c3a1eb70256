import Verif.Cli
import Verif.Json
import Verif.PropsWrite

/-!
# The command line program: all methods (bin/netjsonconfig)

As `Cli.lean`, with `json`, `generate` and `write`. Parameter: `dumps`, the text `json.dumps` makes of a document with the given keyword arguments. Not modelled:
a file that `write` cannot open.
-/

namespace NJ

/-- l.141-150, l.181-182: what is printed; an archive is printed as its bytes -/
inductive CliOut where
  | nothing
  | text (t : Chars)
  | archive (l : List Member)

/-- how the program ends: with a status it chose, with an exception, or normally; in this case with what it printed and did to files -/
inductive CliResult where
  | exit (code : Nat)
  | crash (e : PyErr)
  | done (out : CliOut) (ops : List FsOp)

/-- l.182: `if output:` -/
def cliText : Chars → CliOut
  | [] => .nothing
  | t => .text t

/-- base/backend.py l.255-269 `json(validate)`: the document -/
def jsonDocument (cls : Class) (check : Bool) (st : BState) : Except PyErr VDict :=
  if check then jsonDoc cls st else .ok (Dict.set st.config "type" (.str "DeviceConfiguration"))

/-- l.181 `getattr(instance, method)(**method_arguments)`: base/backend.py l.159, l.222, l.255, l.271, l.301. The value of an argument is a text or a boolean; only texts
have `endswith` (l.310). -/
def cliMethod (cls : Class) (dumps : VDict → VDict → Except PyErr Chars) (m : CliMethod) (st : BState) (kw : VDict) : Except PyErr (CliOut × List FsOp) :=
  match m with
  | .render =>
    if kw.all (fun p => decide (p.1 = "files")) then do
      let t ← (render cls ((Dict.get? kw "files").getD (.bool true)).truthy st).2
      pure (cliText t, [])
    else .error .typeError
  | .validate =>
    if kw.isEmpty then do
      validate cls st.config
      pure (.nothing, [])
    else .error .typeError
  | .json =>
    if Dict.has kw "self" then .error .typeError
    else do
      let doc ← jsonDocument cls ((Dict.get? kw "validate").getD (.bool true)).truthy st
      let t ← dumps (kw.filter fun p => p.1 ≠ "validate") doc
      pure (cliText t, [])
  | .generate =>
    if kw.isEmpty then do
      let l ← (generate cls st).2
      pure (.archive l, [])
    else .error .typeError
  | .write =>
    match Dict.get? kw "name", kw.all (fun p => decide (p.1 = "name" ∨ p.1 = "path")) with
    | some name, true => do
      let _ ← (generate cls st).2
      match (Dict.get? kw "path").getD (.str "./") with
      | .str path => do
        let ops ← (writeOps cls st (pyStr cls.reprC name).toList path.toList).2
        pure (.nothing, ops)
      | _ => .error .attributeError
    | _, _ => .error .typeError

/-- l.152-196 -/
def cliRun (cls : Class) (dumps : VDict → VDict → Except PyErr Chars) (fs : Chars → Option Chars) (environ : VDict) (a : CliArgs) : CliResult :=
  match cliSource fs a with
  | none => .exit 1
  | some src =>
    match a.templates.mapM (cliLoad fs) with
    | none => .exit 1
    | some ts =>
      match cliArguments a.args [] with
      | none => .exit 3
      | some kw =>
        match cliInstance cls environ ts src with
        | .error .typeError => .exit 2
        | .error e => .crash e
        | .ok st =>
          match cliMethod cls dumps a.method st kw with
          | .ok (out, ops) => .done out ops
          | .error .validation => .exit 4
          | .error .typeError => .exit 5
          | .error e => .crash e

end NJ
