import Verif.Files
import Verif.Vars

/-!
# UCI text: renderer, parser and archive of the OpenWrt backend

Models netjsonconfig/backends/openwrt/templates/openwrt.jinja2, renderer.py, parser.py and
`_generate_contents` of openwrt.py.
-/

namespace NJ

/-! ## Sorting of keys -/

/-- lexicographic order by code point, not strict -/
def charsLe : Chars → Chars → Bool
  | [], _ => true
  | _ :: _, [] => false
  | a :: as, b :: bs => if a = b then charsLe as bs else decide (a.toNat < b.toNat)

/-- insertion before the first larger key -/
def insertKey (p : String × Val) : VDict → VDict
  | [] => [p]
  | q :: r => if charsLe p.1.toList q.1.toList then p :: q :: r else q :: insertKey p r

/-- utils.py l.98-99 `sorted_dict`: sorted by key (keys are distinct) -/
def sortedDict : VDict → VDict
  | [] => []
  | p :: r => insertKey p (sortedDict r)

/-! ## Rendering -/

def sp (n : Nat) : Chars := List.replicate n ' '

/-- a line `<kw> <key> '<value>'` with its line break -/
def stmtText (kw key value : Chars) : Chars := kw ++ [' '] ++ key ++ [' ', '\''] ++ value ++ ['\'', '\n']

def kwOption : Chars := "option".toList
def kwList : Chars := "list".toList
def kwConfig : Chars := "config".toList
def kwPackage : Chars := "package".toList

/-- openwrt.jinja2 l.8-16: the text for one value: lists, and dictionaries by their keys, give one `list` line per item;
the white space between the tags stays in the output (`trim_blocks` removes only the line break after a tag) -/
def rawValue (reprC : Val → String) (key : Chars) : Val → Chars
  | .list l => sp 20 ++ l.flatMap (fun v => sp 24 ++ stmtText kwList key (pyStr reprC v).toList ++ sp 20) ++ sp 16
  | .dict d => sp 20 ++ d.flatMap (fun p => sp 24 ++ stmtText kwList key p.1.toList ++ sp 20) ++ sp 16
  | .bool b => sp 20 ++ stmtText kwOption key [if b then '1' else '0'] ++ sp 16
  | v => sp 20 ++ stmtText kwOption key (pyStr reprC v).toList ++ sp 16

/-- openwrt.jinja2 l.7: `value not in ['', None] and not key.startswith('.')` -/
def isRendered (p : String × Val) : Bool :=
  p.2 != .str "" && p.2 != .none && p.1.toList.head? != some '.'

/-- openwrt.jinja2 l.6-18 -/
def rawOption (reprC : Val → String) (p : String × Val) : Chars :=
  sp 12 ++ (if isRendered p then sp 16 ++ rawValue reprC p.1.toList p.2 ++ sp 12 else []) ++ sp 8

/-- `{{ config[k] }}`: a missing key prints nothing -/
def fieldText (reprC : Val → String) (b : VDict) (k : String) : Chars :=
  match Dict.get? b k with
  | some v => (pyStr reprC v).toList
  | none => []

/-- openwrt.jinja2 l.5-20 -/
def rawBlock (reprC : Val → String) (b : VDict) : Chars :=
  sp 8 ++ kwConfig ++ [' '] ++ fieldText reprC b ".type" ++ [' ', '\''] ++ fieldText reprC b ".name" ++ ['\'', '\n'] ++
  sp 8 ++ b.flatMap (rawOption reprC) ++ ['\n'] ++ sp 4

/-- openwrt.jinja2 l.1-22 -/
def rawPackage (reprC : Val → String) (p : String × List VDict) : Chars :=
  sp 4 ++ kwPackage ++ [' '] ++ p.1.toList ++ ['\n', '\n'] ++ sp 4 ++ p.2.flatMap (rawBlock reprC) ++ ['\n']

/-- the text made by the template -/
def rawUci (reprC : Val → String) (data : List (String × List VDict)) : Chars := data.flatMap (rawPackage reprC)

/-- the last step of `cleanup`, renderer.py l.22-25 -/
def dropFinalBreak (s : Chars) : Chars :=
  match s.reverse with
  | '\n' :: '\n' :: r => ('\n' :: r).reverse
  | _ => s

/-- openwrt/renderer.py l.9-25 `cleanup` -/
def uciCleanup (s : Chars) : Chars :=
  let s := replaceAll (sp 4) [] s
  let s := replaceAll ('\n' :: kwOption) ('\n' :: '\t' :: kwOption) s
  let s := replaceAll ('\n' :: kwList) ('\n' :: '\t' :: kwList) s
  let s := replaceAll ['\n', '\n', '\n'] ['\n', '\n'] s
  dropFinalBreak s

def renderUci (reprC : Val → String) (data : List (String × List VDict)) : Chars := uciCleanup (rawUci reprC data)

/-- The blocks of a package. Simplification: data of another shape, which no converter makes, is a `TypeError`. -/
def blocksOf : Val → Except PyErr (List VDict)
  | .list l => l.mapM (fun v => match v with | .dict d => .ok d | _ => .error .typeError)
  | _ => .error .typeError

def packagesOf (inter : VDict) : Except PyErr (List (String × List VDict)) :=
  inter.mapM (fun p => do let bs ← blocksOf p.2; pure (p.1, bs))

/-- base/renderer.py l.40-50 `render` for OpenWrt -/
def uciNative (reprC : Val → String) (inter : VDict) : Except PyErr Chars := do
  let data ← packagesOf inter
  pure (renderUci reprC data)

/-! ## Parsing -/

/-- does `^w\s` match here (at the start of a line) -/
def matchKw (w s : Chars) : Bool :=
  match stripPrefix w s with
  | some (c :: _) => isSpace c
  | _ => false

def consHead (c : Chars) : List Chars → List Chars
  | [] => [c]
  | x :: xs => (c ++ x) :: xs

/-- `re.split(r"^w\s", text, flags=re.MULTILINE)`. First argument: is this the start of a line; second: characters of
a match still to be skipped. -/
def splitKw (w : Chars) : Bool → Nat → Chars → List Chars
  | _, _, [] => [[]]
  | _, k + 1, c :: cs => splitKw w (c == '\n') k cs
  | bol, 0, c :: cs =>
    if bol && matchKw w (c :: cs) then [] :: splitKw w (c == '\n') w.length cs
    else consHead [c] (splitKw w (c == '\n') 0 cs)

/-- `str.split()`: the words of a text -/
def wordsAux : Chars → Chars → List Chars
  | [], [] => []
  | cur, [] => [cur]
  | cur, c :: cs =>
    if isSpace c then (if cur.isEmpty then wordsAux [] cs else cur :: wordsAux [] cs)
    else wordsAux (cur ++ [c]) cs

def words (s : Chars) : List Chars := wordsAux [] s

/-- parser.py l.33-34 `_strip_quotes` -/
def stripQuotes (s : Chars) : Chars := s.filter (fun c => c != '\'' && c != '"')

/-- the groups 2 and 3 of `config_pattern` (parser.py l.10) after the keyword -/
def parseRest (s : Chars) : Chars × Chars :=
  let s := lstrip s
  (s.takeWhile (fun c => !isSpace c), lstrip (s.dropWhile (fun c => !isSpace c)))

/-- parser.py l.72-77: `config_pattern` on a stripped line: is it a list, key, value -/
def parseLine (line : Chars) : Option (Bool × Chars × Chars) :=
  let s := strip line
  match stripPrefix kwOption s with
  | some r => some (false, (parseRest r).1, (parseRest r).2)
  | none => match stripPrefix kwList s with
    | some r => some (true, (parseRest r).1, (parseRest r).2)
    | none => none

/-- parser.py l.78-83: adding `[value]` to a text raises `TypeError` -/
def addStmt (block : VDict) (isList : Bool) (key value : Chars) : Except PyErr VDict :=
  let key := String.ofList (stripQuotes key)
  let value := Val.str (String.ofList (stripQuotes value))
  if isList then
    match Dict.get? block key with
    | none => .ok (Dict.set block key (.list [value]))
    | some (.list l) => .ok (Dict.set block key (.list (l ++ [value])))
    | some _ => .error .typeError
  else .ok (Dict.set block key value)

/-- parser.py l.71-83 -/
def parseLines (block : VDict) : List Chars → Except PyErr VDict
  | [] => .ok block
  | l :: ls => match parseLine l with
    | none => parseLines block ls
    | some (isList, key, value) => do
      let b ← addStmt block isList key value
      parseLines b ls

/-- parser.py l.88-103 `_set_uci_block_type` -/
def setBlockType (b : VDict) : VDict :=
  let t := Dict.get? b ".type"
  if t = some (.str "device") ∨ t = some (.str "bridge-vlan") then
    let ty := Dict.get? b "type"
    let b := if ty = some (.str "bridge") ∨ ty = some (.str "8021q") ∨ ty = some (.str "8021ad") ∨ t = some (.str "bridge-vlan")
      then Dict.set b "bridge_21" (.bool true) else b
    let b := if t = some (.str "bridge-vlan") then Dict.set b "type" (.str "bridge-vlan")
      else if (ty.getD .none).truthy = false then Dict.set b "type" (.str "device") else b
    Dict.set b ".type" (.str "interface")
  else b

/-- parser.py l.56-85: one block. `result` is stripped and not empty. -/
def parseBlock (result : Chars) (counter : Nat) : Except PyErr VDict := do
  let lines := splitOn '\n' result
  let parts := words (lines.headD [])
  let ty := stripQuotes (parts.headD [])
  let name := match parts with
    | _ :: n :: _ => stripQuotes n
    | _ => ty ++ ['_'] ++ showNat counter
  let b ← parseLines [(".type", .str (String.ofList ty)), (".name", .str (String.ofList name))] lines.tail
  pure (sortedDict (setBlockType b))

/-- parser.py l.51-86 `_get_uci_blocks` over the pieces of the split -/
def parseBlocks : Nat → List Chars → Except PyErr (List Val)
  | _, [] => .ok []
  | counter, r :: rs =>
    if (strip r).isEmpty then parseBlocks counter rs
    else do
      let b ← parseBlock (strip r) (counter + 1)
      let bs ← parseBlocks (counter + 1) rs
      pure (.dict b :: bs)

def uciBlocks (text : Chars) : Except PyErr (List Val) := parseBlocks 0 (splitKw kwConfig true 0 text)

/-- parser.py l.36-49 `_get_uci_packages` over the pieces of the split -/
def parsePackages (acc : VDict) : List Chars → Except PyErr VDict
  | [] => .ok acc
  | r :: rs =>
    if (strip r).isEmpty then parsePackages acc rs
    else do
      let name := (splitOn '\n' (strip r)).headD []
      let bs ← uciBlocks ((strip r).drop name.length)
      parsePackages (Dict.set acc (String.ofList name) (.list bs)) rs

/-- parser.py l.15-16 `parse_text` -/
def parseUci (text : Chars) : Except PyErr VDict := parsePackages [] (splitKw kwPackage true 0 text)

/-! ## The archive -/

def configPath : Chars := "etc/config/".toList

/-- `list.remove("")` when there is one -/
def removeFirstEmpty : List Chars → List Chars
  | [] => []
  | x :: xs => if x.isEmpty then xs else x :: removeFirstEmpty xs

/-- openwrt.py l.79-100 `_generate_contents` from the text on -/
def uciSplit (uci : Chars) : Except PyErr (List Member) :=
  (removeFirstEmpty (splitKw kwPackage true 0 uci)).mapM (fun package =>
    let lines := splitOn '\n' package
    addFile (configPath ++ lines.headD []) (joinWith ['\n'] (lines.drop 2)) "0644".toList)

/-- `bytes.decode()`; `UnicodeDecodeError` is a `ValueError` -/
def decodeUtf8 (b : List UInt8) : Except PyErr Chars :=
  match (ByteArray.mk b.toArray).utf8Decode? with
  | some a => .ok a.toList
  | none => .error .valueError

/-- parser.py l.18-31 `parse_tar`: the text made from the members -/
def tarText : List Member → Except PyErr Chars
  | [] => .ok []
  | m :: ms =>
    if configPath <+: m.name then do
      let contents ← decodeUtf8 m.data
      let r ← tarText ms
      pure (kwPackage ++ [' '] ++ replaceAll configPath [] m.name ++ ['\n', '\n'] ++ contents ++ r)
    else tarText ms

def parseTar (ms : List Member) : Except PyErr VDict := do
  let t ← tarText ms
  parseUci t

end NJ
