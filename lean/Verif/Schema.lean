import Verif.SchemaData
import Verif.Conv

/-!
# JSON Schema validation

The part of `jsonschema` (`Draft4Validator` with its format checker) used by the schemas of the backends, and the two formats
defined in base/backend.py l.133-157. The schemas are those of `SchemaData.lean`.
-/

namespace NJ

/-! ## Patterns -/

/-- regular expressions without anchors -/
inductive Rx where
  | never
  | eps
  | chr (p : Char → Bool)
  | seq (a b : Rx)
  | alt (a b : Rx)
  | star (a : Rx)

namespace Rx

/-- the empty text matches -/
def nullable : Rx → Bool
  | never => false
  | eps => true
  | chr _ => false
  | seq a b => a.nullable && b.nullable
  | alt a b => a.nullable || b.nullable
  | star _ => true

/-- what is left to match after one character -/
def deriv (c : Char) : Rx → Rx
  | never => never
  | eps => never
  | chr p => if p c then eps else never
  | seq a b => if a.nullable then alt (seq (a.deriv c) b) (b.deriv c) else seq (a.deriv c) b
  | alt a b => alt (a.deriv c) (b.deriv c)
  | star a => seq (a.deriv c) (star a)

/-- the whole text matches -/
def run : Rx → Chars → Bool
  | r, [] => r.nullable
  | r, c :: cs => run (r.deriv c) cs

/-- a character -/
def one (c : Char) : Rx := chr (fun d => d == c)
/-- a word -/
def word (s : String) : Rx := s.toList.foldr (fun c r => seq (one c) r) eps
/-- any text -/
def any : Rx := star (chr (fun _ => true))
def times (n : Nat) (r : Rx) : Rx := (List.replicate n r).foldr seq eps
/-- what `$` allows after the match: nothing, or a line break at the end of the text -/
def atEnd : Rx := alt eps (one '\n')

end Rx

open Rx in
/-- schema.py l.13, 17: `([0-9A-Fa-f]{2}[:-]){5}([0-9A-Fa-f]{2})` -/
def macRx : Rx :=
  let hex := chr (fun c => isDigit c || ('A' ≤ c && c ≤ 'F') || ('a' ≤ c && c ≤ 'f'))
  seq (times 5 (seq hex (seq hex (chr (fun c => c == ':' || c == '-'))))) (seq hex hex)

open Rx in
/-- The patterns of the schemas, as expressions for the whole text: `^` at the start, `$` at the end (which also stops before a final
line break), anything around a side that is not anchored. Simplification: `\d` is an ASCII digit. -/
def patterns : List (String × Rx) :=
  let digit := chr isDigit
  let digits := star digit
  let blank := one ' '
  let solid := star (chr (fun c => !isSpace c))
  [("([0-9A-Fa-f]{2}[:-]){5}([0-9A-Fa-f]{2})", seq any (seq macRx any)),
   ("^(([0-9A-Fa-f]{2}[:-]){5}([0-9A-Fa-f]{2})|)$", seq (alt macRx eps) atEnd),
   ("^([0-9A-Fa-f]{2}[:-]){5}([0-9A-Fa-f]{2})$", seq macRx atEnd),
   ("^(([0-9]*) ([0-9]*)|)$", seq (alt (seq digits (seq blank digits)) eps) atEnd),
   ("^((\\S*) ([0-9]*)|(\\S*)|)$", seq (alt (seq solid (seq blank digits)) (alt solid eps)) atEnd),
   ("^((\\S*) (\\S*)|)$", seq (alt (seq solid (seq blank solid)) eps) atEnd),
   ("^(\\S*)$", seq solid atEnd),
   ("^[^\\s]*$", seq solid atEnd),
   ("^(infinite)|([0-9])$", alt (seq (word "infinite") any) (seq any (seq digit atEnd))),
   ("^[0-7]*$", seq (star (chr (fun c => '0' ≤ c && c ≤ '7'))) atEnd),
   ("^[0-9]*$", seq digits atEnd),
   ("^[0-9]\\d*:[0-9]\\d*$", seq digit (seq digits (seq (one ':') (seq digit (seq digits atEnd))))),
   ("^[a-zA-z0-9_\\.\\-]*$", seq (star (chr (fun c => ('a' ≤ c && c ≤ 'z') || ('A' ≤ c && c ≤ 'z') || isDigit c ||
     c == '_' || c == '.' || c == '-'))) atEnd),
   ("^[0-9A-Za-z_-]*$", seq (star (chr (fun c => isDigit c || isUpper c || isLower c || c == '_' || c == '-'))) atEnd)]

/-- `re.search(pattern, text)`; every pattern of the schemas is in the table (`schema_known`) -/
def patternOk (pattern : String) (s : Chars) : Bool :=
  match Dict.get? patterns pattern with
  | some r => r.run s
  | none => false

/-! ## Formats -/

/-- base/backend.py l.18, 141-157: `^[A-Za-z0-9][A-Za-z0-9\.\-]{1,255}$` and components of at most 63 characters -/
def hostnameOk (s : Chars) : Bool :=
  let body := if s.getLast? = some '\n' then s.dropLast else s
  (match body with
    | c :: r => isAsciiAlnum c && r.all (fun c => isAsciiAlnum c || c == '.' || c == '-') && decide (1 ≤ r.length) && decide (r.length ≤ 255)
    | [] => false) &&
  (splitOn '.' s).all (fun c => decide (c.length ≤ 63))

/-- the format checker: `ipv4`, `ipv6` (without scope), and base/backend.py l.133-157; values that are not texts pass, except for `cidr`, for
which texts are the only values that occur (the schemas ask for them) -/
def formatOk (ip6 : Ip6) (format : String) : Val → Bool
  | .str s =>
    if format = "ipv4" then (parseIp4 s.toList).isSome
    else if format = "ipv6" then !s.toList.contains '/' && !s.toList.contains '%' && (ip6.read s.toList).isSome
    else if format = "hostname" then hostnameOk s.toList
    else if format = "cidr" then (ipNetwork ip6 s.toList).isSome
    else true
  | _ => true

/-! ## Validation -/

namespace Val
mutual
/-- `jsonschema._utils.equal`: truth values and numbers are different, dictionaries compare without order -/
def jsEq : Val → Val → Bool
  | .none, .none => true
  | .bool a, .bool b => a == b
  | .int a, .int b => a == b
  | .str a, .str b => a == b
  | .list a, .list b => jsEqL a b
  | .dict a, .dict b => a.length == b.length && jsEqD a b
  | _, _ => false
  termination_by structural v => v
def jsEqL : List Val → List Val → Bool
  | [], [] => true
  | a :: as, b :: bs => jsEq a b && jsEqL as bs
  | _, _ => false
  termination_by structural v => v
def jsEqD : List (String × Val) → List (String × Val) → Bool
  | [], _ => true
  | (k, a) :: as, b => (match Dict.get? b k with | some w => jsEq a w | Option.none => false) && jsEqD as b
  termination_by structural v => v
end
end Val

/-- the types of Draft 4: a truth value is not a number -/
def typeOk (t : String) : Val → Bool
  | .none => t == "null"
  | .bool _ => t == "boolean"
  | .int _ => t == "integer" || t == "number"
  | .str _ => t == "string"
  | .list _ => t == "array"
  | .dict _ => t == "object"

/-- `uniq`: no two elements are equal -/
def uniqueOk : List Val → Bool
  | [] => true
  | v :: vs => !vs.any (fun w => Val.jsEq v w) && uniqueOk vs

/-- a reference inside the document: `#/a/b/c` -/
def resolveRef (root : VDict) (ref : String) : Option Val :=
  match splitOn '/' ref.toList with
  | ['#'] :: path => path.foldl (fun v k => match v with
      | some (.dict d) => Dict.get? d (String.ofList k)
      | _ => none) (some (.dict root))
  | _ => none

/-- texts of a list -/
def textsOf (l : List Val) : List String := l.filterMap (fun v => match v with | .str s => some s | _ => none)

/-- One keyword of a schema. `rec` validates a value against a schema. Keywords that are not known to the validator are ignored; arguments of
another shape than those of the schemas are ignored too. -/
def keywordOk (ip6 : Ip6) (rec : Val → Val → Bool) (schema : VDict) (k : String) (arg v : Val) : Bool :=
  match k, arg with
  | "type", .str t => typeOk t v
  | "type", .list ts => (textsOf ts).any (fun t => typeOk t v)
  | "enum", .list l => l.any (fun x => Val.jsEq x v)
  | "pattern", .str p => match v with
    | .str s => patternOk p s.toList
    | _ => true
  | "format", .str f => formatOk ip6 f v
  | "minimum", .int m => match v with
    | .int i => decide (m ≤ i)
    | _ => true
  | "maximum", .int m => match v with
    | .int i => decide (i ≤ m)
    | _ => true
  | "minLength", .int m => match v with
    | .str s => decide (m ≤ s.length)
    | _ => true
  | "maxLength", .int m => match v with
    | .str s => decide ((s.length : Int) ≤ m)
    | _ => true
  | "minItems", .int m => match v with
    | .list l => decide (m ≤ l.length)
    | _ => true
  | "items", s => match v with
    | .list l => l.all (rec s)
    | _ => true
  | "uniqueItems", .bool true => match v with
    | .list l => uniqueOk l
    | _ => true
  | "properties", .dict ps => match v with
    | .dict d => ps.all (fun p => match Dict.get? d p.1 with
      | some x => rec p.2 x
      | none => true)
    | _ => true
  | "required", .list l => match v with
    | .dict d => (textsOf l).all (fun k => Dict.has d k)
    | _ => true
  | "additionalProperties", .bool false => match v with
    | .dict d => (Dict.keys d).all (fun k => match Dict.get? schema "properties" with
      | some (.dict ps) => Dict.has ps k
      | _ => false)
    | _ => true
  | "allOf", .list l => l.all (fun s => rec s v)
  | "anyOf", .list l => l.any (fun s => rec s v)
  | "oneOf", .list l => decide ((l.filter (fun s => rec s v)).length = 1)
  | "not", s => !rec s v
  | _, _ => true

/-- `Draft4Validator(root).is_valid(v, schema)`: keywords beside `$ref` are ignored. The number bounds the depth of the schema; more of it
changes nothing (`owValidate_depth`). -/
def valid (ip6 : Ip6) (root : VDict) : Nat → Val → Val → Bool
  | 0, _, _ => false
  | n + 1, .dict s, v => match Dict.get? s "$ref" with
    | some (.str r) => match resolveRef root r with
      | some t => valid ip6 root n t v
      | none => false
    | _ => s.all (fun p => keywordOk ip6 (valid ip6 root n) s p.1 p.2 v)
  | _ + 1, _, _ => false

/-- the depth of the schema of the OpenWrt backend -/
def schemaDepth : Nat := 24

/-- base/backend.py l.159-163 for the schema of the OpenWrt backend -/
def owValidate (ip6 : Ip6) (config : VDict) : Except PyErr Unit :=
  if valid ip6 owSchema schemaDepth (.dict owSchema) (.dict config) then .ok () else .error .validation

end NJ
