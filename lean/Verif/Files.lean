import Verif.MergeSpec
import Verif.Text

/-!
# Additional files (netjsonconfig/backends/base/backend.py)

Path validation, deduplication, the text section and the archive members.
-/

namespace NJ

deriving instance DecidableEq for Except

/-- `str.encode("utf8")`. Lean characters exclude lone surrogates, for which Python raises `UnicodeEncodeError`. -/
def utf8 (s : Chars) : List UInt8 := s.flatMap String.utf8EncodeChar

/-! ## Path validation -/

/-- backend.py l.204-219: the loop over the path. The first argument is true inside `{{ … }}`: everything up to
the first `}}` found from there is skipped, a missing `}}` is refused, a variable counts as `x`,
and a brace outside is refused. -/
def cleanPath : Bool → Chars → Option Chars
  | false, [] => some []
  | true, [] => none
  | false, '{' :: '{' :: r => (cleanPath true r).map ('x' :: ·)
  | false, c :: r => if c = '{' ∨ c = '}' then none else (cleanPath false r).map (c :: ·)
  | true, '}' :: '}' :: r => cleanPath false r
  | true, _ :: r => cleanPath true r

/-- letters, digits, dot, underscore, slash, dash: the class of backend.py l.21 -/
def isPathChar (c : Char) : Bool := isAsciiAlnum c || c == '.' || c == '_' || c == '/' || c == '-'

/-- backend.py l.21: an optional slash, then one or more characters of the class, nothing else (the class contains the slash, so the optional one is redundant) -/
def filePathRe (s : Chars) : Bool := !s.isEmpty && s.all isPathChar

/-- backend.py l.196-220 `_validate_file_path_chars` -/
def validPathChars (path : Chars) : Bool :=
  match cleanPath false path with
  | some s => filePathRe s
  | none => false

/-- backend.py l.180-182 -/
def pathComponents : Chars → List Chars
  | '/' :: r => splitOn '/' r
  | path => splitOn '/' path

/-- backend.py l.176-188 -/
def validPath (path : Chars) : Bool :=
  validPathChars path && (pathComponents path).all (fun c => !c.isEmpty && c != ['.'] && c != ['.', '.'])

/-! ## Access to the files of a configuration -/

/-- a file entry -/
structure FileItem where
  path : Chars
  mode : Chars
  contents : Chars
  deriving DecidableEq

/-- backend.py `self.config.get("files", [])`. Simplification: a value that is not a list (refused by the schema) counts as no files. -/
def filesOf (config : VDict) : List Val :=
  match Dict.get? config "files" with
  | some (.list l) => l
  | _ => []

/-- `d[k]` where the schema demands a string: `KeyError` when missing. Simplification: other values raise `TypeError`. -/
def reqStr (d : VDict) (k : String) : Except PyErr Chars :=
  match Dict.get? d k with
  | some (.str s) => .ok s.toList
  | some _ => .error .typeError
  | none => .error .keyError

/-- `d.get(k, default)` for strings -/
def optStr (d : VDict) (k : String) (default : Chars) : Except PyErr Chars :=
  match Dict.get? d k with
  | some (.str s) => .ok s.toList
  | some _ => .error .typeError
  | none => .ok default

/-- `f["path"]`, `f["contents"]`, `f.get("mode", "0644")` (backend.py l.113-121, 325-335; schema.py l.15). -/
def fileItem : Val → Except PyErr FileItem
  | .dict d => do
    let path ← reqStr d "path"
    let contents ← reqStr d "contents"
    let mode ← optStr d "mode" "0644".toList
    pure ⟨path, mode, contents⟩
  | _ => .error .typeError

/-- `file["path"]` -/
def filePath : Val → Except PyErr Chars
  | .dict d => reqStr d "path"
  | _ => .error .typeError

/-- backend.py l.168-194 `_validate_file_paths` -/
def validateFilePaths (config : VDict) : Except PyErr Unit :=
  (filesOf config).forM (fun f => do
    let p ← filePath f
    if validPath p then pure () else .error .validation)

/-! ## Deduplication -/

/-- backend.py l.128-130: the `OrderedDict` by path -/
def dedupLoop (acc : Dict Chars Val) : List Val → Except PyErr (Dict Chars Val)
  | [] => .ok acc
  | f :: r => do
    let p ← filePath f
    dedupLoop (Dict.set acc p f) r

/-- backend.py l.124-131 `_deduplicate_files` -/
def deduplicateFiles (config : VDict) : Except PyErr VDict :=
  match filesOf config with
  | [] => .ok config
  | fs => do
    let d ← dedupLoop [] fs
    pure (Dict.set config "files" (.list (Dict.values d)))

/-! ## The files section of the rendered text -/

def filesDelimiter : Chars := "# ---------- files ---------- #".toList

def pathTag : Chars := "# path: ".toList
def modeTag : Chars := "# mode: ".toList

/-- backend.py l.113-121 -/
def fileText (f : FileItem) : Chars :=
  pathTag ++ f.path ++ ['\n'] ++ modeTag ++ f.mode ++ ['\n', '\n'] ++ f.contents ++ ['\n', '\n']

/-- backend.py l.103-122 `_render_files` -/
def renderFileItems : List FileItem → Chars
  | [] => []
  | fs => ['\n'] ++ filesDelimiter ++ ['\n', '\n'] ++ fs.flatMap fileText

def renderFiles (config : VDict) : Except PyErr Chars := do
  let fs ← (filesOf config).mapM fileItem
  pure (renderFileItems fs)

/-- backend.py l.246-251: `files_output.replace("\n\n\n", "\n\n")` -/
def filesSection (config : VDict) : Except PyErr Chars := do
  let t ← renderFiles config
  pure (replaceAll ['\n', '\n', '\n'] ['\n', '\n'] t)

/-! ## The archive -/

/-- A member of the archive: name, permission bits, data. -/
structure Member where
  name : Chars
  mode : Nat
  data : List UInt8
  deriving DecidableEq

def octDigit? (c : Char) : Option Nat := if 48 ≤ c.toNat && c.toNat ≤ 55 then some (c.toNat - 48) else none

def octDigits (acc : Nat) : Chars → Option Nat
  | [] => some acc
  | c :: r => match octDigit? c with
    | some d => octDigits (acc * 8 + d) r
    | none => none

/-- the optional `0o` -/
def dropOctPrefix : Chars → Chars
  | '0' :: 'o' :: r => r
  | '0' :: 'O' :: r => r
  | s => s

/-- `int(mode, 8)` (backend.py l.354): surrounding white space is ignored, an `0o` prefix is allowed.
Simplification: signs, underscores and non-ASCII digits are refused (`ValueError`). -/
def parseOct (s : Chars) : Except PyErr Nat :=
  match dropOctPrefix (strip s) with
  | [] => .error .valueError
  | s => match octDigits 0 s with
    | some n => .ok n
    | none => .error .valueError

/-- backend.py l.337-355 `_add_file`. `info.size` is the number of *characters*; `tarfile.addfile` writes that many bytes. -/
def addFile (name contents mode : Chars) : Except PyErr Member := do
  let m ← parseOct mode
  pure ⟨name, m, (utf8 contents).take contents.length⟩

/-- backend.py l.326-329 -/
def memberName : Chars → Chars
  | '/' :: r => r
  | p => p

/-- backend.py l.317-335 `_process_files` -/
def processFiles (config : VDict) : Except PyErr (List Member) := do
  let fs ← (filesOf config).mapM fileItem
  fs.mapM (fun f => addFile (memberName f.path) f.contents f.mode)

end NJ
