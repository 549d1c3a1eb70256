/-!
# Python values, ordered dictionaries and exceptions

Shared vocabulary of the model. These definitions model CPython behaviour the
code of /repo relies on; they do not model a particular file.
-/

set_option linter.unusedSimpArgs false
set_option linter.unusedSectionVars false

namespace NJ

/-- The Python exceptions the modelled code can raise. `validation` is
`netjsonconfig.exceptions.ValidationError` (netjsonconfig/exceptions.py l.12-48), `jsonSchema` is
`jsonschema.ValidationError` raised directly by the code; the others are the
builtin exceptions of the same name, `reError` is `re.error`, `parseError` is
`netjsonconfig.exceptions.ParseError`. Messages are not modelled. -/
inductive PyErr where
  | validation | jsonSchema | keyError | typeError | valueError | indexError
  | attributeError | reError | notImplemented | unboundLocal | parseError
  deriving DecidableEq, Repr, Inhabited

/-- JSON-like Python data: `None`, `bool`, `int`, `str`, `list`, `dict`.
Floats are not modelled. Dicts keep insertion order. -/
inductive Val where
  | none
  | bool (b : Bool)
  | int (i : Int)
  | str (s : String)
  | list (l : List Val)
  | dict (kvs : List (String × Val))
  deriving Inhabited

namespace Val

/-- Induction principle for `Val` (the hypotheses speak about all members of a
container). -/
theorem induct {P : Val → Prop} (hn : P .none) (hb : ∀ b, P (.bool b)) (hi : ∀ i, P (.int i))
    (hs : ∀ s, P (.str s)) (hl : ∀ l, (∀ v ∈ l, P v) → P (.list l))
    (hd : ∀ d, (∀ kv ∈ d, P kv.2) → P (.dict d)) (v : Val) : P v :=
  @Val.rec P (fun l => ∀ v ∈ l, P v) (fun d => ∀ kv ∈ d, P kv.2) (fun kv => P kv.2)
    hn hb hi hs hl hd
    (by simp)
    (by intro h t hh ht v hv
        rcases List.mem_cons.1 hv with rfl | hv
        · exact hh
        · exact ht v hv)
    (by simp)
    (by intro h t hh ht v hv
        rcases List.mem_cons.1 hv with rfl | hv
        · exact hh
        · exact ht v hv)
    (by intro k v hv; exact hv)
    v

mutual
/-- structural equality test on values -/
def beq : Val → Val → Bool
  | .none, .none => true
  | .bool a, .bool b => a == b
  | .int a, .int b => a == b
  | .str a, .str b => a == b
  | .list a, .list b => beqL a b
  | .dict a, .dict b => beqD a b
  | _, _ => false
  termination_by structural v => v
def beqL : List Val → List Val → Bool
  | [], [] => true
  | a :: as, b :: bs => beq a b && beqL as bs
  | _, _ => false
  termination_by structural v => v
def beqD : List (String × Val) → List (String × Val) → Bool
  | [], [] => true
  | (k, a) :: as, b :: bs => k == b.1 && beq a b.2 && beqD as bs
  | _, _ => false
  termination_by structural v => v
end

theorem beq_iff (a b : Val) : beq a b = true ↔ a = b := by
  induction a using Val.induct generalizing b with
  | hn => cases b <;> simp [beq]
  | hb x => cases b <;> simp [beq]
  | hi x => cases b <;> simp [beq]
  | hs x => cases b <;> simp [beq]
  | hl l ih =>
    cases b <;> simp [beq]
    rename_i m
    induction l generalizing m with
    | nil => cases m <;> simp [beqL]
    | cons x xs ihx =>
      cases m with
      | nil => simp [beqL]
      | cons y ys =>
        simp only [beqL, Bool.and_eq_true, List.cons.injEq]
        rw [ih x (by simp), ihx (fun v hv => ih v (by simp [hv]))]
  | hd l ih =>
    cases b <;> simp [beq]
    rename_i m
    induction l generalizing m with
    | nil => cases m <;> simp [beqD]
    | cons x xs ihx =>
      obtain ⟨k, x⟩ := x
      cases m with
      | nil => simp [beqD]
      | cons y ys =>
        obtain ⟨k', y⟩ := y
        simp only [beqD, Bool.and_eq_true, List.cons.injEq, Prod.mk.injEq, beq_iff_eq]
        rw [ih (k, x) (by simp), ihx (fun v hv => ih v (by simp [hv]))]

instance : DecidableEq Val := fun a b =>
  if h : beq a b = true then .isTrue ((beq_iff a b).1 h)
  else .isFalse (fun e => h ((beq_iff a b).2 e))

/-- Python truth value (`bool(v)`). -/
def truthy : Val → Bool
  | .none => false
  | .bool b => b
  | .int i => i != 0
  | .str s => s != ""
  | .list l => !l.isEmpty
  | .dict d => !d.isEmpty

def isDict : Val → Bool
  | .dict _ => true
  | _ => false

def isList : Val → Bool
  | .list _ => true
  | _ => false

def isStr : Val → Bool
  | .str _ => true
  | _ => false

/-- neither a dict nor a list -/
def isScalar : Val → Bool
  | .dict _ => false
  | .list _ => false
  | _ => true

end Val

/-! ## Ordered dictionaries -/

/-- An insertion-ordered dictionary (CPython `dict` / `OrderedDict`). -/
abbrev Dict (κ α : Type) := List (κ × α)

namespace Dict
variable {κ α : Type} [DecidableEq κ]

/-- `d.get(k)`; `none` when missing. -/
def get? : Dict κ α → κ → Option α
  | [], _ => none
  | (k, v) :: r, k' => if k = k' then some v else get? r k'

/-- `k in d` -/
def has (d : Dict κ α) (k : κ) : Bool := (get? d k).isSome

/-- `d[k] = v`: in place when present, appended otherwise. -/
def set : Dict κ α → κ → α → Dict κ α
  | [], k, v => [(k, v)]
  | (k, w) :: r, k', v => if k = k' then (k, v) :: r else (k, w) :: set r k' v

/-- `del d[k]` (no effect when missing). -/
def erase (d : Dict κ α) (k : κ) : Dict κ α := d.filter (fun p => decide (p.1 ≠ k))

/-- `d.keys()` -/
def keys (d : Dict κ α) : List κ := d.map Prod.fst

/-- `d.values()` -/
def values (d : Dict κ α) : List α := d.map Prod.snd

/-- `d.setdefault(k, v)` (the dictionary afterwards). -/
def setdefault (d : Dict κ α) (k : κ) (v : α) : Dict κ α := if has d k then d else set d k v

/-- `d.update(e)` -/
def update (d e : Dict κ α) : Dict κ α := e.foldl (fun a p => set a p.1 p.2) d

@[simp] theorem get?_nil (k : κ) : get? ([] : Dict κ α) k = none := rfl

theorem get?_cons (k k' : κ) (v : α) (r : Dict κ α) :
    get? ((k, v) :: r) k' = if k = k' then some v else get? r k' := rfl

@[simp] theorem get?_cons_self (k : κ) (v : α) (r : Dict κ α) :
    get? ((k, v) :: r) k = some v := by simp [get?_cons]

theorem get?_set_self (d : Dict κ α) (k : κ) (v : α) : get? (set d k v) k = some v := by
  induction d with
  | nil => simp [set, get?]
  | cons p r ih =>
    obtain ⟨k', w⟩ := p
    by_cases h : k' = k <;> simp [set, get?, h, ih]

theorem get?_set_ne (d : Dict κ α) {k k' : κ} (v : α) (h : k ≠ k') :
    get? (set d k v) k' = get? d k' := by
  induction d with
  | nil => simp [set, get?, h]
  | cons p r ih =>
    obtain ⟨k2, w⟩ := p
    by_cases h2 : k2 = k
    · subst h2; simp [set, get?, h]
    · by_cases h3 : k2 = k'
      · subst h3; simp [set, get?, h2]
      · simp only [set, h2, if_false, get?_cons, h3, ih]

theorem get?_set (d : Dict κ α) (k k' : κ) (v : α) :
    get? (set d k v) k' = if k = k' then some v else get? d k' := by
  split
  · next h => subst h; exact get?_set_self d k v
  · next h => exact get?_set_ne d v h

theorem get?_erase (d : Dict κ α) (k k' : κ) :
    get? (erase d k) k' = if k = k' then none else get? d k' := by
  induction d with
  | nil => simp [erase]
  | cons p r ih =>
    obtain ⟨k2, w⟩ := p
    unfold erase at ih ⊢
    by_cases h2 : k2 = k
    · subst h2
      simp only [List.filter_cons, ne_eq, not_true_eq_false, decide_false, Bool.false_eq_true,
        if_false, ih, get?_cons]
      split <;> simp_all
    · simp only [List.filter_cons, ne_eq, h2, not_false_eq_true, decide_true, if_true, get?_cons, ih]
      by_cases h3 : k2 = k'
      · subst h3
        have : ¬ k = k2 := fun e => h2 e.symm
        simp [this]
      · simp [h3]

theorem get?_eq_none_iff (d : Dict κ α) (k : κ) : get? d k = none ↔ k ∉ keys d := by
  induction d with
  | nil => simp [keys]
  | cons p r ih =>
    obtain ⟨k2, w⟩ := p
    simp only [keys, List.map_cons, List.mem_cons, not_or] at ih ⊢
    by_cases h : k2 = k
    · simp [get?_cons, h]
    · simp only [get?_cons, h, if_false, ih]
      constructor
      · intro h2; exact ⟨fun e => h e.symm, h2⟩
      · intro h2; exact h2.2

theorem get?_isSome_iff (d : Dict κ α) (k : κ) : (get? d k).isSome ↔ k ∈ keys d := by
  have := get?_eq_none_iff d k
  cases h : get? d k <;> simp_all

theorem has_iff (d : Dict κ α) (k : κ) : has d k = true ↔ k ∈ keys d := get?_isSome_iff d k

theorem mem_of_get? {d : Dict κ α} {k : κ} {v : α} (h : get? d k = some v) : (k, v) ∈ d := by
  induction d with
  | nil => simp at h
  | cons p r ih =>
    obtain ⟨k2, w⟩ := p
    rw [get?_cons] at h
    split at h
    · next e => subst e; cases h; simp
    · exact List.mem_cons_of_mem _ (ih h)

theorem get?_of_mem {d : Dict κ α} (hd : (keys d).Nodup) {k : κ} {v : α} (h : (k, v) ∈ d) :
    get? d k = some v := by
  induction d with
  | nil => simp at h
  | cons p r ih =>
    obtain ⟨k2, w⟩ := p
    simp only [keys, List.map_cons, List.nodup_cons] at hd
    rcases List.mem_cons.1 h with h | h
    · cases h; simp
    · have : k2 ≠ k := by
        rintro rfl
        exact hd.1 (List.mem_map.2 ⟨_, h, rfl⟩)
      rw [get?_cons, if_neg this]
      exact ih hd.2 h

theorem keys_set (d : Dict κ α) (k : κ) (v : α) :
    keys (set d k v) = if k ∈ keys d then keys d else keys d ++ [k] := by
  induction d with
  | nil => simp [set, keys]
  | cons p r ih =>
    obtain ⟨k2, w⟩ := p
    by_cases h : k2 = k
    · simp [set, keys, h]
    · have h' : ¬ k = k2 := fun e => h e.symm
      simp only [keys] at ih
      simp only [set, keys, h, if_false, List.map_cons, ih, List.mem_cons, h', false_or]
      split <;> simp_all

theorem nodup_set {d : Dict κ α} (h : (keys d).Nodup) (k : κ) (v : α) :
    (keys (set d k v)).Nodup := by
  rw [keys_set]
  split
  · exact h
  · next hk =>
    rw [List.nodup_append]
    refine ⟨h, by simp, ?_⟩
    intro a ha b hb
    simp only [List.mem_singleton] at hb
    subst hb
    rintro rfl
    exact hk ha

theorem keys_erase (d : Dict κ α) (k : κ) :
    keys (erase d k) = (keys d).filter (fun x => decide (x ≠ k)) := by
  unfold keys erase
  induction d with
  | nil => rfl
  | cons p r ih =>
    simp only [List.filter_cons, List.map_cons]
    split <;> simp_all

theorem nodup_erase {d : Dict κ α} (h : (keys d).Nodup) (k : κ) : (keys (erase d k)).Nodup := by
  rw [keys_erase]; exact h.filter _

theorem erase_not_mem (d : Dict κ α) (k : κ) (h : k ∉ keys d) : erase d k = d := by
  unfold erase
  rw [List.filter_eq_self]
  intro p hp
  simp only [ne_eq, decide_not, Bool.not_eq_eq_eq_not, Bool.not_true, decide_eq_false_iff_not]
  rintro rfl
  exact h (List.mem_map.2 ⟨p, hp, rfl⟩)

/-- setting a missing key appends -/
theorem set_not_mem (d : Dict κ α) (k : κ) (v : α) (h : k ∉ keys d) : set d k v = d ++ [(k, v)] := by
  induction d with
  | nil => rfl
  | cons p r ih =>
    obtain ⟨k2, w⟩ := p
    simp only [keys, List.map_cons, List.mem_cons, not_or] at h
    rw [set, if_neg (fun e => h.1 e.symm), ih h.2]; rfl

/-- setting a key to the value it already has changes nothing -/
theorem set_eq_self {d : Dict κ α} {k : κ} {v : α} (h : get? d k = some v) : set d k v = d := by
  induction d with
  | nil => simp at h
  | cons p r ih =>
    obtain ⟨k2, w⟩ := p
    rw [get?_cons] at h
    by_cases e : k2 = k
    · rw [if_pos e] at h; cases h; simp [set, e]
    · rw [if_neg e] at h; simp [set, e, ih h]

theorem get?_append (a b : Dict κ α) (k : κ) :
    get? (a ++ b) k = (get? a k).or (get? b k) := by
  induction a with
  | nil => simp
  | cons p r ih =>
    obtain ⟨k2, w⟩ := p
    simp only [List.cons_append, get?_cons, ih]
    split <;> simp

@[simp] theorem keys_nil : keys ([] : Dict κ α) = [] := rfl
@[simp] theorem keys_cons (k : κ) (v : α) (r : Dict κ α) : keys ((k, v) :: r) = k :: keys r := rfl
@[simp] theorem keys_append (a b : Dict κ α) : keys (a ++ b) = keys a ++ keys b := by
  simp [keys]
@[simp] theorem values_nil : values ([] : Dict κ α) = [] := rfl
@[simp] theorem values_cons (k : κ) (v : α) (r : Dict κ α) : values ((k, v) :: r) = v :: values r := rfl
@[simp] theorem values_append (a b : Dict κ α) : values (a ++ b) = values a ++ values b := by
  simp [values]

end Dict

/-- dictionaries of configuration values -/
abbrev VDict := Dict String Val

/-! ## Python equality -/

namespace Val

mutual
/-- Python `==` on JSON-like data: `True == 1`, dicts compare without order. -/
def pyEq : Val → Val → Bool
  | .none, .none => true
  | .bool a, .bool b => a == b
  | .bool a, .int b => (if a then 1 else 0) == b
  | .int a, .bool b => a == (if b then 1 else 0)
  | .int a, .int b => a == b
  | .str a, .str b => a == b
  | .list a, .list b => pyEqL a b
  | .dict a, .dict b => a.length == b.length && pyEqD a b
  | _, _ => false
  termination_by structural v => v
def pyEqL : List Val → List Val → Bool
  | [], [] => true
  | a :: as, b :: bs => pyEq a b && pyEqL as bs
  | _, _ => false
  termination_by structural v => v
/-- every item of the first dict is found (equal) in the second -/
def pyEqD : List (String × Val) → List (String × Val) → Bool
  | [], _ => true
  | (k, a) :: as, b => (match Dict.get? b k with | some w => pyEq a w | Option.none => false) && pyEqD as b
  termination_by structural v => v
end

/-- every dict inside the value has pairwise distinct keys (true of any Python
object; the association lists of the model do not enforce it) -/
inductive WF : Val → Prop
  | none : WF .none
  | bool (b) : WF (.bool b)
  | int (i) : WF (.int i)
  | str (s) : WF (.str s)
  | list (l : List Val) : (∀ v ∈ l, WF v) → WF (.list l)
  | dict (d : VDict) : (Dict.keys d).Nodup → (∀ p ∈ d, WF p.2) → WF (.dict d)

theorem WF.of_get? {d : VDict} (h : WF (.dict d)) {k v} (hk : Dict.get? d k = some v) : WF v := by
  cases h with
  | dict _ _ h => exact h _ (Dict.mem_of_get? hk)

theorem pyEq_refl {v : Val} (h : WF v) : pyEq v v = true := by
  induction v using Val.induct with
  | hn => rfl
  | hb b => simp [pyEq]
  | hi i => simp [pyEq]
  | hs s => simp [pyEq]
  | hl l ih =>
    cases h with
    | list _ h =>
      simp only [pyEq]
      induction l with
      | nil => rfl
      | cons a as ih2 =>
        simp only [pyEqL, Bool.and_eq_true]
        exact ⟨ih a (by simp) (h a (by simp)),
          ih2 (fun v hv => ih v (by simp [hv])) (fun v hv => h v (by simp [hv]))⟩
  | hd d ih =>
    cases h with
    | dict _ hn h =>
      simp only [pyEq, BEq.rfl, Bool.true_and]
      suffices H : ∀ e : List (String × Val), (∀ p ∈ e, p ∈ d) → pyEqD e d = true from
        H d (fun _ h => h)
      intro e he
      induction e with
      | nil => rfl
      | cons p ps ihp =>
        obtain ⟨k, a⟩ := p
        have hm := he (k, a) (by simp)
        simp only [pyEqD, Bool.and_eq_true, Dict.get?_of_mem hn hm]
        exact ⟨ih (k, a) hm (h _ hm), ihp (fun q hq => he q (by simp [hq]))⟩

end Val

end NJ
