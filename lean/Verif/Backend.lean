import Verif.Files
import Verif.Merge
import Verif.Vars

/-!
# The life cycle of a backend object (netjsonconfig/backends/base/backend.py)

A backend object is a state (`config`, `intermediate_data`); methods are functions from a state to a new
state and a result, so that what is left behind by a failing call is visible. The backend class (schema,
converters, renderer) is a parameter; concrete classes are defined in other modules.
-/

namespace NJ

/-- A converter in the forward direction: `should_run_forward` and `to_intermediate`, which may change the configuration
of the backend in place and reads the intermediate data computed so far. -/
structure Conv where
  should : VDict → Bool
  run : VDict → VDict → VDict × Except PyErr VDict

/-- A converter in the backward direction: `should_run_backward` and `to_netjson`. It reads the configuration made so far
and may change it in place, reads the backup of the intermediate data (l.413-414) and removes blocks from the intermediate
data: `run config copy inter` is the new configuration, the new intermediate data, and the result. -/
structure BConv where
  should : VDict → Bool
  run : VDict → VDict → VDict → (VDict × VDict) × Except PyErr VDict

/-- A backend class. -/
structure Class where
  /-- checks made before the schema validation (openwrt.py l.58) -/
  pre : VDict → Except PyErr Unit
  /-- `Draft4Validator(schema).validate(config)` (l.161-163) -/
  schema : VDict → Except PyErr Unit
  /-- checks made after it (openwrt.py l.60-77) -/
  post : VDict → Except PyErr Unit
  convs : List Conv
  bconvs : List BConv
  /-- the renderers applied to the intermediate data (l.236-243) -/
  native : VDict → Except PyErr Chars
  /-- the files made from the native text by `_generate_contents` -/
  split : Chars → Except PyErr (List Member)
  ids : List String
  /-- object identity in merges, see `Merge.lean` -/
  sh : Val → Bool
  reprC : Val → String
  /-- `json.loads`, `none` when it raises `ValueError` -/
  loads : Chars → Option Val
  /-- the parser: text to intermediate data; `none` when the class has no parser -/
  parser : Option (Chars → Except PyErr VDict)

/-- the attributes of a backend object (l.46-47) -/
structure BState where
  config : VDict
  inter : Option VDict

/-- l.159-166 `validate` with the additional checks of subclasses -/
def validate (cls : Class) (config : VDict) : Except PyErr Unit := do
  cls.pre config
  cls.schema config
  validateFilePaths config
  cls.post config

/-- l.365-379: the loop of `to_intermediate`. `self.intermediate_data` is assigned as it goes: after an
exception it holds what the converters before the failing one produced. -/
def convLoop (cls : Class) : List Conv → VDict → VDict → BState × Except PyErr Unit
  | [], config, inter => (⟨config, some inter⟩, .ok ())
  | c :: cs, config, inter =>
    if c.should config = false then convLoop cls cs config inter
    else
      match c.run config inter with
      | (config', .error e) => (⟨config', some inter⟩, .error e)
      | (config', .ok value) =>
        if value.isEmpty then convLoop cls cs config' inter
        else match mergeConfig cls.sh [".name"] inter value with
          | .error e => (⟨config', some inter⟩, .error e)
          | .ok i => convLoop cls cs config' i

/-- l.357-379 `to_intermediate` -/
def toIntermediate (cls : Class) (st : BState) : BState × Except PyErr Unit :=
  match validate cls st.config with
  | .error e => (st, .error e)
  | .ok () => convLoop cls cls.convs st.config []

/-- l.232-234: converted only when there is no intermediate data yet -/
def ensureIntermediate (cls : Class) (st : BState) : BState × Except PyErr Unit :=
  match st.inter with
  | some _ => (st, .ok ())
  | none => toIntermediate cls st

/-- l.235-253: the rest of `render`, once the intermediate data exists -/
def renderTail (cls : Class) (files : Bool) (st : BState) : BState × Except PyErr Chars :=
  match deduplicateFiles st.config with
  | .error e => (st, .error e)
  | .ok config =>
    (⟨config, st.inter⟩, do
      let out ← cls.native (st.inter.getD [])
      if files then do
        let s ← filesSection config
        pure (out ++ s)
      else pure out)

/-- l.222-253 `render(files)` -/
def render (cls : Class) (files : Bool) (st : BState) : BState × Except PyErr Chars :=
  match validate cls st.config with
  | .error e => (st, .error e)
  | .ok () =>
    match ensureIntermediate cls st with
    | (st', .error e) => (st', .error e)
    | (st', .ok ()) => renderTail cls files st'

/-- l.255-269 `json()`: the document given to `json.dumps` -/
def jsonDoc (cls : Class) (st : BState) : Except PyErr VDict := do
  validate cls st.config
  pure (Dict.set st.config "type" (.str "DeviceConfiguration"))

/-- l.271-296 `generate`: the members of the archive -/
def generate (cls : Class) (st : BState) : BState × Except PyErr (List Member) :=
  match render cls false st with
  | (st', .error e) => (st', .error e)
  | (st', .ok text) => (st', do
    let a ← cls.split text
    let b ← processFiles st'.config
    pure (a ++ b))

/-- l.399-409: the loop of `to_netjson`; `copy` is the backup made on l.398 -/
def bconvLoop (cls : Class) (copy : VDict) : List BConv → VDict → VDict → (VDict × VDict) × Except PyErr Unit
  | [], config, inter => ((config, inter), .ok ())
  | c :: cs, config, inter =>
    if c.should inter = false then bconvLoop cls copy cs config inter
    else
      match c.run config copy inter with
      | (st, .error e) => (st, .error e)
      | ((config', inter'), .ok value) =>
        if value.isEmpty then bconvLoop cls copy cs config' inter'
        else match mergeConfig cls.sh cls.ids config' value with
          | .error e => ((config', inter'), .error e)
          | .ok c' => bconvLoop cls copy cs c' inter'

/-- l.393-418 `to_netjson` with backup and restore of the intermediate data -/
def toNetjson (cls : Class) (inter : VDict) : BState × Except PyErr Unit :=
  match bconvLoop cls inter cls.bconvs [] inter with
  | ((config, inter'), .error e) => (⟨config, some inter'⟩, .error e)
  | ((config, _), .ok ()) => (⟨config, some inter⟩, validate cls config)

/-! ## The constructor -/

/-- an argument of the constructor that can be text, or any other value -/
inductive Arg where
  | text (s : Chars)
  | val (v : Val)

/-- l.62-75 `_load` -/
def load (cls : Class) : Arg → Except PyErr VDict
  | .text s => match cls.loads s with
    | some (.dict d) => .ok d
    | _ => .error .typeError
  | .val (.dict d) => .ok d
  | .val _ => .error .typeError

/-- the `templates` argument: absent or falsy, a list, or something else -/
inductive TemplatesArg where
  | falsy
  | list (l : List Arg)
  | other

/-- l.77-91 `_merge_config` -/
def mergeTemplates (cls : Class) (config : VDict) : TemplatesArg → Except PyErr VDict
  | .falsy => .ok config
  | .other => .error .typeError
  | .list [] => .ok config
  | .list l => (l ++ [Arg.val (Val.dict config)]).foldlM (fun acc t => do
      let c ← load cls t
      mergeConfig cls.sh cls.ids acc c) []

/-- l.381-391 `parse` -/
def parse (cls : Class) (native : Chars) : Except PyErr BState :=
  match cls.parser with
  | none => .error .notImplemented
  | some p => do
    let inter ← p native
    match toNetjson cls inter with
    | (_, .error e) => .error e
    | (st, .ok ()) => pure st

/-- l.33-60 `__init__` -/
def construct (cls : Class) (config : Option Arg) (native : Option Chars) (templates : TemplatesArg) (context : Option VDict) :
    Except PyErr BState :=
  match config, native with
  | some c, _ => do
    let c ← load cls c
    let m ← mergeTemplates cls c templates
    let e ← evaluateConfig cls.reprC context m
    pure ⟨e, none⟩
  | none, some n => parse cls n
  | none, none => .error .valueError

end NJ
