import Verif.Base

/-!
# Model of `merge_config`, `merge_list` (netjsonconfig/utils.py l.10-103)

`sh : Val → Bool` models object identity: when `sh v` holds, all occurrences of
`v` in the data are the same Python object (interned scalar, or the same dict or
list used several times), otherwise every occurrence is its own object. Theorems
quantify over `sh`. Simplification: sharing of *some but not all* equal
occurrences is not modelled, nor the accidental equality of an integer
identifier with the memory address of another element.
-/

namespace NJ

/-- The keys of the `OrderedDict`s built by `merge_list` (utils.py l.78-100). -/
inductive LKey where
  /-- `id(el)` of an element that is a separate object: list number and position -/
  | pos (side i : Nat)
  /-- `id(el)` of an object occurring several times -/
  | obj (v : Val)
  /-- value of an identifier key, normalised so that `=` is Python's hash key equality -/
  | val (v : Val)
  deriving DecidableEq

/-- A scalar as hash key: `True`/`1` and `False`/`0` are the same key; dicts
and lists are unhashable (`TypeError`). -/
def scalarKey : Val → Except PyErr Val
  | .bool b => .ok (.int (if b then 1 else 0))
  | .list _ => .error .typeError
  | .dict _ => .error .typeError
  | v => .ok v

def scalarKeys : List Val → Except PyErr (List Val)
  | [] => .ok []
  | v :: r => do
    let k ← scalarKey v
    let ks ← scalarKeys r
    pure (k :: ks)

/-- utils.py l.97-100: a list used as key is converted to a tuple, then hashed. -/
def hashKey : Val → Except PyErr Val
  | .list l => do let ks ← scalarKeys l; pure (.list ks)
  | v => scalarKey v

/-- utils.py l.91-96: value of the first identifier key present in the dict. -/
def identValue (ids : List String) (d : VDict) : Option Val :=
  match ids with
  | [] => none
  | i :: r => match Dict.get? d i with
    | some v => some v
    | none => identValue r d

/-- utils.py l.80-81, 90-99: the container key of an element. -/
def elemKey (sh : Val → Bool) (ids : List String) (side i : Nat) (el : Val) : Except PyErr LKey :=
  let idk := if sh el then LKey.obj el else LKey.pos side i
  match el with
  | .dict d => match identValue ids d with
    | some v => do let k ← hashKey v; pure (.val k)
    | none => pure idk
  | _ => pure idk

/-- utils.py l.75-100 for `list1` (`counter == 1`). -/
def container1 (sh : Val → Bool) (ids : List String) (i : Nat) (acc : Dict LKey Val) :
    List Val → Except PyErr (Dict LKey Val)
  | [] => .ok acc
  | el :: r => do
    let k ← elemKey sh ids 1 i el
    container1 sh ids (i + 1) (Dict.set acc k el) r

/-- A value of `list2` paired with what `merge_config` does with it given the
existing value under the same key. -/
abbrev Mergeable := Val × (Option Val → Except PyErr Val)

/-- utils.py l.75-100 for `list2` (`counter == 2`): elements equal to a value of
the first container are skipped. -/
def container2 (sh : Val → Bool) (ids : List String) (c1 : List Val) (i : Nat)
    (acc : Dict LKey Mergeable) : List Mergeable → Except PyErr (Dict LKey Mergeable)
  | [] => .ok acc
  | el :: r =>
    if c1.any (fun x => Val.pyEq el.1 x) then container2 sh ids c1 (i + 1) acc r
    else do
      let k ← elemKey sh ids 2 i el.1
      container2 sh ids c1 (i + 1) (Dict.set acc k el) r

/-- utils.py l.27-49 applied to the two containers (l.102). -/
def mergeContainers (acc : Dict LKey Val) : Dict LKey Mergeable → Except PyErr (Dict LKey Val)
  | [] => .ok acc
  | (k, m) :: r => do
    let v ← m.2 (Dict.get? acc k)
    mergeContainers (Dict.set acc k v) r

/-- utils.py l.52-103, `merge_list`; the second list comes with its merge functions. -/
def mergeListWith (sh : Val → Bool) (ids : List String) (l1 : List Val) (l2 : List Mergeable) :
    Except PyErr (List Val) := do
  let c1 ← container1 sh ids 0 [] l1
  let c2 ← container2 sh ids (Dict.values c1) 0 [] l2
  let m ← mergeContainers c1 c2
  pure (Dict.values m)

mutual
/-- One iteration of the loop of `merge_config`, utils.py l.28-48: the value
stored for a key given the config value and the existing one. A present
`None` and a missing key are treated alike by the code, and so are they here (`l.38`). -/
def mergeVal (sh : Val → Bool) (ids : List String) : Val → Option Val → Except PyErr Val
  | .dict kvs, some (.dict t) => do let d ← mergeKvs sh ids kvs t; pure (.dict d)
  | .list l, some (.list t) => do let r ← mergeListWith sh ids t (closures sh l); pure (.list r)
  | .dict _, some (.list _) => .error .validation
  | .list _, some (.dict _) => .error .validation
  | v, _ => .ok v
  termination_by structural v => v
/-- utils.py l.27-49: the loop of `merge_config` over the config's items. -/
def mergeKvs (sh : Val → Bool) (ids : List String) : List (String × Val) → VDict → Except PyErr VDict
  | [], acc => .ok acc
  | (k, v) :: r, acc => do
    let x ← mergeVal sh ids v (Dict.get? acc k)
    mergeKvs sh ids r (Dict.set acc k x)
  termination_by structural v => v
/-- The elements of `list2` with their merge functions (`merge_config` is called
without identifiers, utils.py l.102). -/
def closures (sh : Val → Bool) : List Val → List Mergeable
  | [] => []
  | v :: r => (v, fun e => mergeVal sh [] v e) :: closures sh r
  termination_by structural v => v
end

/-- `merge_config(template, config, list_identifiers)`, utils.py l.10-49. -/
def mergeConfig (sh : Val → Bool) (ids : List String) (template config : VDict) : Except PyErr VDict :=
  mergeKvs sh ids config template

/-- `merge_list(list1, list2, identifiers)`, utils.py l.52-103. -/
def mergeList (sh : Val → Bool) (ids : List String) (l1 l2 : List Val) : Except PyErr (List Val) :=
  mergeListWith sh ids l1 (closures sh l2)

/-- backends/base/backend.py l.77-91 `_merge_config`: the templates in order, then the configuration, starting from `{}`.
With no templates the configuration is returned as is. -/
def mergeAll (sh : Val → Bool) (ids : List String) (templates : List VDict) (config : VDict) :
    Except PyErr VDict :=
  match templates with
  | [] => .ok config
  | ts => (ts ++ [config]).foldlM (fun acc c => mergeConfig sh ids acc c) []

end NJ
