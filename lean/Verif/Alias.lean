import Verif.MergeLemmas2
import Verif.Vars

/-!
# Object identity in the constructor (backends/base/backend.py l.32-101, utils.py l.10-103)

Values whose containers carry an owner: `some i` is the object `i` of the caller, `none` is an object
allocated by the library. `deepcopy` allocates every container anew. Erasing the owners gives the
model of `Merge.lean` (`eraseO_mergeAllO`).
-/

set_option linter.unusedSimpArgs false
set_option linter.unusedVariables false

namespace NJ

abbrev Owner := Option Nat

inductive OVal where
  | none
  | bool (b : Bool)
  | int (i : Int)
  | str (s : String)
  | list (o : Owner) (l : List OVal)
  | dict (o : Owner) (d : List (String × OVal))

abbrev ODict := Dict String OVal

mutual
/-- the value without owners -/
def eraseO : OVal → Val
  | .none => .none
  | .bool b => .bool b
  | .int i => .int i
  | .str s => .str s
  | .list _ l => .list (eraseOL l)
  | .dict _ d => .dict (eraseOD d)
  termination_by structural v => v
def eraseOL : List OVal → List Val
  | [] => []
  | v :: r => eraseO v :: eraseOL r
  termination_by structural v => v
def eraseOD : List (String × OVal) → VDict
  | [] => []
  | (k, v) :: r => (k, eraseO v) :: eraseOD r
  termination_by structural v => v
end

mutual
/-- `copy.deepcopy` (Simplification: an object occurring twice is copied twice.) -/
def copyO : OVal → OVal
  | .none => .none
  | .bool b => .bool b
  | .int i => .int i
  | .str s => .str s
  | .list _ l => .list none (copyOL l)
  | .dict _ d => .dict none (copyOD d)
  termination_by structural v => v
def copyOL : List OVal → List OVal
  | [] => []
  | v :: r => copyO v :: copyOL r
  termination_by structural v => v
def copyOD : List (String × OVal) → ODict
  | [] => []
  | (k, v) :: r => (k, copyO v) :: copyOD r
  termination_by structural v => v
end

mutual
/-- all containers reachable from a value -/
def ownersO : OVal → List Owner
  | .list o l => o :: ownersOL l
  | .dict o d => o :: ownersOD d
  | _ => []
  termination_by structural v => v
def ownersOL : List OVal → List Owner
  | [] => []
  | v :: r => ownersO v ++ ownersOL r
  termination_by structural v => v
def ownersOD : List (String × OVal) → List Owner
  | [] => []
  | (_, v) :: r => ownersO v ++ ownersOD r
  termination_by structural v => v
end

/-- apply a function to the values of a dict -/
def Dict.map' {κ α β} (f : α → β) (d : Dict κ α) : Dict κ β := d.map (fun p => (p.1, f p.2))

/-- utils.py l.75-100, first list: `container[key] = deepcopy(el)` -/
def container1O (sh : Val → Bool) (ids : List String) (i : Nat) (acc : Dict LKey OVal) :
    List OVal → Except PyErr (Dict LKey OVal)
  | [] => .ok acc
  | el :: r => do
    let k ← elemKey sh ids 1 i (eraseO el)
    container1O sh ids (i + 1) (Dict.set acc k (copyO el)) r

abbrev MergeableO := OVal × (Option OVal → Except PyErr OVal)

/-- utils.py l.75-100, second list -/
def container2O (sh : Val → Bool) (ids : List String) (c1 : List OVal) (i : Nat)
    (acc : Dict LKey MergeableO) : List MergeableO → Except PyErr (Dict LKey MergeableO)
  | [] => .ok acc
  | el :: r =>
    if c1.any (fun x => Val.pyEq (eraseO el.1) (eraseO x)) then container2O sh ids c1 (i + 1) acc r
    else do
      let k ← elemKey sh ids 2 i (eraseO el.1)
      container2O sh ids c1 (i + 1) (Dict.set acc k el) r

/-- utils.py l.26-49 applied to the containers: `result = deepcopy(dict_map["list1"])`, then the loop -/
def mergeContainersO (acc : Dict LKey OVal) : Dict LKey MergeableO → Except PyErr (Dict LKey OVal)
  | [] => .ok acc
  | (k, m) :: r => do
    let v ← m.2 (Dict.get? acc k)
    mergeContainersO (Dict.set acc k v) r

/-- utils.py l.52-103 -/
def mergeListWithO (sh : Val → Bool) (ids : List String) (l1 : List OVal) (l2 : List MergeableO) :
    Except PyErr (List OVal) := do
  let c1 ← container1O sh ids 0 [] l1
  let c2 ← container2O sh ids (Dict.values c1) 0 [] l2
  let m ← mergeContainersO (Dict.map' copyO c1) c2
  pure (Dict.values m)

mutual
/-- utils.py l.28-48; `cp` says that the config value is first deep-copied (as the elements of `list2` are, l.100). -/
def mergeValO (sh : Val → Bool) (cp : Bool) (ids : List String) : OVal → Option OVal → Except PyErr OVal
  | .dict o kvs, some (.dict _ t) => do let d ← mergeKvsO sh cp ids kvs (copyOD t); pure (.dict none d)
  | .list o l, some (.list _ t) => do let r ← mergeListWithO sh ids t (closuresO sh l); pure (.list none r)
  | .dict _ _, some (.list _ _) => .error .validation
  | .list _ _, some (.dict _ _) => .error .validation
  | v, _ => .ok (if cp then copyO v else v)
  termination_by structural v => v
/-- utils.py l.27-49 -/
def mergeKvsO (sh : Val → Bool) (cp : Bool) (ids : List String) : List (String × OVal) → ODict → Except PyErr ODict
  | [], acc => .ok acc
  | (k, v) :: r, acc => do
    let x ← mergeValO sh cp ids v (Dict.get? acc k)
    mergeKvsO sh cp ids r (Dict.set acc k x)
  termination_by structural v => v
/-- the elements of `list2`: deep-copied when put in the container -/
def closuresO (sh : Val → Bool) : List OVal → List MergeableO
  | [] => []
  | v :: r => (v, fun e => mergeValO sh true [] v e) :: closuresO sh r
  termination_by structural v => v
end

/-- utils.py l.26-49 `merge_config`: the template is deep-copied, the config is not -/
def mergeConfigO (sh : Val → Bool) (ids : List String) (template config : ODict) : Except PyErr ODict :=
  mergeKvsO sh false ids config (copyOD template)

/-- backends/base/backend.py l.77-91 -/
def mergeAllO (sh : Val → Bool) (ids : List String) (templates : List ODict) (config : ODict) : Except PyErr ODict :=
  match templates with
  | [] => .ok config
  | ts => (ts ++ [config]).foldlM (fun acc c => mergeConfigO sh ids acc c) []

mutual
/-- utils.py l.121-129: the same containers, written in place; strings are replaced -/
def evalO (reprC : Val → String) (ctx : VDict) : OVal → Except PyErr OVal
  | .str s => do let r ← evalStr reprC ctx s.toList; pure (.str (String.ofList r))
  | .list o l => do let r ← evalOL reprC ctx l; pure (.list o r)
  | .dict o d => do let r ← evalOD reprC ctx d; pure (.dict o r)
  | v => .ok v
  termination_by structural v => v
def evalOL (reprC : Val → String) (ctx : VDict) : List OVal → Except PyErr (List OVal)
  | [] => .ok []
  | v :: r => do let x ← evalO reprC ctx v; let xs ← evalOL reprC ctx r; pure (x :: xs)
  termination_by structural v => v
def evalOD (reprC : Val → String) (ctx : VDict) : List (String × OVal) → Except PyErr ODict
  | [] => .ok []
  | (k, v) :: r => do let x ← evalO reprC ctx v; let xs ← evalOD reprC ctx r; pure ((k, x) :: xs)
  termination_by structural v => v
end

/-- backends/base/backend.py l.93-101 -/
def evaluateO (reprC : Val → String) (ctx : Option VDict) (config : ODict) : Except PyErr ODict :=
  match ctx with
  | none => .ok config
  | some [] => .ok config
  | some c => evalOD reprC c config

/-- backends/base/backend.py l.48-52: the forward branch of the constructor; the result is `self.config`,
`none` being the owner of the top-level dict too -/
def constructO (sh : Val → Bool) (reprC : Val → String) (ids : List String) (config : ODict) (templates : List ODict)
    (ctx : Option VDict) : Except PyErr OVal := do
  let merged ← mergeAllO sh ids templates (copyOD config)
  let r ← evaluateO reprC ctx merged
  pure (.dict none r)

end NJ
