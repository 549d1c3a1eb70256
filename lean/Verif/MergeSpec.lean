import Verif.Merge

/-!
# Specification vocabulary for list merging

Small, separate from the model: what it means to merge two lists whose elements
carry keys.
-/

namespace NJ

/-- the value of the last item with key `k` -/
def lastWith {κ α} [DecidableEq κ] (k : κ) : List (κ × α) → Option α
  | [] => none
  | (k', v) :: r => match lastWith k r with
    | some w => some w
    | none => if k' = k then some v else none

/-- one item per key, at the position of the first item with that key, with the
value of the last item with that key -/
def collapse {κ α} [DecidableEq κ] : List (κ × α) → List (κ × α)
  | [] => []
  | (k, v) :: r => (k, (lastWith k r).getD v) :: (collapse r).filter (fun p => decide (p.1 ≠ k))

/-- The elements of a list with their merge keys; `TypeError` when an identifier is not hashable. -/
def keyed (sh : Val → Bool) (ids : List String) (side i : Nat) : List Val → Except PyErr (List (LKey × Val))
  | [] => .ok []
  | el :: r => do
    let k ← elemKey sh ids side i el
    let ks ← keyed sh ids side (i + 1) r
    pure ((k, el) :: ks)

/-- Same, for the second list: elements equal to one of `known` are left out. -/
def keyedNew (sh : Val → Bool) (ids : List String) (known : List Val) (side i : Nat) :
    List Val → Except PyErr (List (LKey × Val))
  | [] => .ok []
  | el :: r =>
    if known.any (fun x => Val.pyEq el x) then keyedNew sh ids known side (i + 1) r
    else do
      let k ← elemKey sh ids side i el
      let ks ← keyedNew sh ids known side (i + 1) r
      pure ((k, el) :: ks)

/-- Specification of the merge of two keyed lists without repeated keys: the
items of `a` in order, each merged with the item of `b` with the same key if
there is one, then the items of `b` whose key is not in `a`, in order. -/
def mergeKeyedSpec (merge : Val → Val → Except PyErr Val) (a b : List (LKey × Val)) : Except PyErr (List Val) := do
  let ms ← a.mapM (fun p => match Dict.get? b p.1 with
    | none => pure p.2
    | some e => merge p.2 e)
  pure (ms ++ Dict.values (b.filter (fun p => !(Dict.has a p.1))))

/-- `d` at a path of dict keys -/
def getPath : Val → List String → Option Val
  | v, [] => some v
  | .dict d, k :: r => match Dict.get? d k with
    | some v => getPath v r
    | none => none
  | _, _ :: _ => none

/-- The path leaves the dicts of the value at a missing key: the value says nothing about it. -/
def silent : VDict → List String → Bool
  | _, [] => false
  | d, k :: r => match Dict.get? d k with
    | none => true
    | some (.dict e) => silent e r
    | some _ => false

end NJ

namespace NJ

/-- The hash key of the identifier of a list element, when it is a dict with one. -/
def identOf (ids : List String) : Val → Option Val
  | .dict d => match identValue ids d with
    | some v => (hashKey v).toOption
    | none => none
  | _ => none

/-- No identifier is missing a hash: no dict element of the list has a dict
(or a list containing containers) as identifier. -/
def elemHashable (ids : List String) : Val → Bool
  | .dict d => match identValue ids d with
    | some v => (hashKey v).toOption.isSome
    | none => true
  | _ => true

mutual
/-- All identifiers of list elements reachable through dict keys are hashable. -/
def hashable (ids : List String) : Val → Bool
  | .list l => l.all (elemHashable ids)
  | .dict d => hashableD ids d
  | _ => true
  termination_by structural v => v
def hashableD (ids : List String) : List (String × Val) → Bool
  | [] => true
  | (_, v) :: r => hashable ids v && hashableD ids r
  termination_by structural v => v
end

/-- No two elements of the list share an identifier and no object is repeated in it. -/
def Distinct (sh : Val → Bool) (ids : List String) (l : List Val) : Prop :=
  l.Pairwise (fun a b => (∀ k, identOf ids a = some k → identOf ids b ≠ some k) ∧ (sh a = true → a ≠ b))

/-- A dict meets a list: `Conflict ids t c` for a template value `t` and a config
value `c`. The last rule covers list elements that are merged because they
share an identifier. -/
inductive Conflict (sh : Val → Bool) : List String → Val → Val → Prop
  | dictList (ids t c) : Conflict sh ids (.dict t) (.list c)
  | listDict (ids t c) : Conflict sh ids (.list t) (.dict c)
  | inDict (ids) (t c : VDict) (k : String) (v w : Val) : Dict.get? t k = some v → Dict.get? c k = some w →
      Conflict sh ids v w → Conflict sh ids (.dict t) (.dict c)
  | inList (ids) (t c : List Val) (a b : List (LKey × Val)) (k : LKey) (v w : Val) :
      keyed sh ids 1 0 t = .ok a → keyedNew sh ids (Dict.values (collapse a)) 2 0 c = .ok b →
      lastWith k a = some v → lastWith k b = some w →
      Conflict sh [] v w → Conflict sh ids (.list t) (.list c)

end NJ

namespace NJ

/-- In every list of the value, identifiers are scalars, distinct and hashable, and no object is repeated.
Elements of lists are merged without identifiers, hence the `[]`. -/
inductive DistinctAll (sh : Val → Bool) : List String → Val → Prop
  | none (ids) : DistinctAll sh ids .none
  | bool (ids b) : DistinctAll sh ids (.bool b)
  | int (ids i) : DistinctAll sh ids (.int i)
  | str (ids s) : DistinctAll sh ids (.str s)
  | list (ids) (l : List Val) : Distinct sh ids l → l.all (elemHashable ids) = true →
      (∀ v ∈ l, ∀ k, identOf ids v = some k → k.isScalar = true) →
      (∀ v ∈ l, DistinctAll sh [] v) → DistinctAll sh ids (.list l)
  | dict (ids) (d : VDict) : (∀ p ∈ d, DistinctAll sh ids p.2) → DistinctAll sh ids (.dict d)

/-- no list anywhere inside -/
inductive ListFree : Val → Prop
  | none : ListFree .none
  | bool (b) : ListFree (.bool b)
  | int (i) : ListFree (.int i)
  | str (s) : ListFree (.str s)
  | dict (d : VDict) : (∀ p ∈ d, ListFree p.2) → ListFree (.dict d)

/-- No key of `b` holds a dict where `a` holds something else than a dict. -/
inductive NoDictOverScalar : Val → Val → Prop
  | scalarRight (a b) : b.isDict = false → NoDictOverScalar a b
  | dict (a b : VDict) : (∀ k v w, Dict.get? a k = some v → Dict.get? b k = some w → NoDictOverScalar v w) →
      NoDictOverScalar (.dict a) (.dict b)

end NJ

namespace NJ

/-- first occurrences, in order -/
def firsts {α} [DecidableEq α] : List α → List α
  | [] => []
  | x :: r => x :: (firsts r).filter (fun y => decide (y ≠ x))

end NJ
