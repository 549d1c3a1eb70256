import Verif.SchemaMore

/-!
# The errors of validation and the text of a `ValidationError`

Modelled: exceptions.py, and the errors that `Draft4Validator(schema).iter_errors(config)` of the library `jsonschema` finds, in its order, with their
`context` (the errors of the alternatives of `oneOf` and `anyOf`). Parameters: the messages of the library (`msg`: of a keyword, its argument and the value) and
the texts of schemas and of errors.
-/

namespace NJ

/-- An error of the library: its message, `validator_value` when this is a list of schemas, and `context`. The library fills `context` for `oneOf` and `anyOf` only. -/
inductive JErr where
  | mk (message : Chars) (schemas : List Val) (context : List JErr)
  deriving Inhabited

namespace JErr

def message : JErr → Chars
  | mk m _ _ => m

def schemas : JErr → List Val
  | mk _ s _ => s

def context : JErr → List JErr
  | mk _ _ c => c

end JErr

mutual
/-- exceptions.py l.4-18 `_list_errors`: without `context` or schemas, `zip` gives nothing -/
def listErrors : JErr → List (Val × Chars)
  | .mk _ schemas context => listErrorsZip schemas context

/-- l.14-17: the loop -/
def listErrorsZip : List Val → List JErr → List (Val × Chars)
  | [], _ => []
  | _, [] => []
  | s :: ss, e :: es => (s, e.message) :: (listErrors e ++ listErrorsZip ss es)
end

/-- exceptions.py l.26-36 `__str__`; `details` is the attribute, `none` when the exception has none (`ParseError`) -/
def errorText (name : Chars) (showError : JErr → Chars) (showSchema : Val → Chars) : Option JErr → Except PyErr Chars
  | none => .error .attributeError
  | some e =>
    let message := name ++ ' ' :: showError e ++ ['\n']
    .ok (if (listErrors e).isEmpty then message
      else message ++ (listErrors e).foldl (fun x y => x ++ ("\nAgainst schema ".toList ++ showSchema y.1 ++ '\n' :: y.2 ++ ['\n'])) [])

section
variable (msg : String → Val → Val → Chars)

/-- the schemas after the first that the value meets -/
def afterFirst (rec : Val → Val → List JErr) (v : Val) : List Val → Option (List Val)
  | [] => none
  | s :: r => if (rec s v).isEmpty then some r else afterFirst rec v r

/-- jsonschema 4.26 `_keywords.py`, `_legacy_keywords.py`: the errors of one keyword. Keywords without parts have at most one error. -/
def keywordErrors (ip6 : Ip6) (rec : Val → Val → List JErr) (schema : VDict) (k : String) (arg v : Val) : List JErr :=
  match k, arg with
  | "items", s => match v with
    | .list l => l.flatMap (rec s)
    | _ => []
  | "properties", .dict ps => match v with
    | .dict d => ps.flatMap (fun p => match Dict.get? d p.1 with
      | some x => rec p.2 x
      | none => [])
    | _ => []
  | "required", .list l => match v with
    | .dict d => (textsOf l).filterMap (fun x => if Dict.has d x then none else some (.mk (msg "required" (.str x) v) [] []))
    | _ => []
  | "allOf", .list l => l.flatMap (fun s => rec s v)
  | "anyOf", .list l => match afterFirst rec v l with
    | none => [.mk (msg "anyOf" arg v) l (l.flatMap (fun s => rec s v))]
    | some _ => []
  | "oneOf", .list l => match afterFirst rec v l with
    | none => [.mk (msg "oneOf" arg v) l (l.flatMap (fun s => rec s v))]
    | some r => if r.any (fun s => (rec s v).isEmpty) then [.mk (msg "oneOf" arg v) l []] else []
  | "not", s => if (rec s v).isEmpty then [.mk (msg "not" arg v) [] []] else []
  | k, arg => if keywordOk ip6 (fun _ _ => true) schema k arg v then [] else [.mk (msg k arg v) [] []]

/-- `list(Draft4Validator(root).iter_errors(v, schema))`. As in `valid`, the number bounds the depth; a reference that is not found, which raises in the library,
is an error here. -/
def errors (ip6 : Ip6) (root : VDict) : Nat → Val → Val → List JErr
  | 0, s, v => [.mk (msg "" s v) [] []]
  | n + 1, .dict s, v => match Dict.get? s "$ref" with
    | some (.str r) => match resolveRef root r with
      | some t => errors ip6 root n t v
      | none => [.mk (msg "$ref" (.str r) v) [] []]
    | _ => s.flatMap (fun p => keywordErrors msg ip6 (errors ip6 root n) s p.1 p.2 v)
  | _ + 1, s, v => [.mk (msg "" s v) [] []]

/-- base/backend.py l.159-166: `validate` of the library raises the first error, which becomes the attribute `details` -/
def schemaDetails (root : VDict) (ip6 : Ip6) (config : VDict) : Option JErr :=
  (errors msg ip6 root schemaDepth (.dict root) (.dict config)).head?

end

end NJ
