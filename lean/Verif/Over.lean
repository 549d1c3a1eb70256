import Verif.Interfaces
import Verif.ZeroTier
import Verif.Radio
import Verif.MergeLemmas2
import Mathlib.Tactic.CasesM
import Verif.OverAttr

/-!
# Texts over a set of characters

`Over A x`: every text inside `x` (keys and values, at any depth) is made of characters in `A`. The rules say that the operations
of Python used by the converters keep this; the tactic `over` applies them.
-/

namespace NJ

/-- types with texts inside -/
class HasTexts (α : Type) where
  over : (Char → Prop) → α → Prop

/-- all texts inside are made of characters in `A` -/
def Over {α : Type} [HasTexts α] (A : Char → Prop) (x : α) : Prop := HasTexts.over A x

mutual
def Val.overV (A : Char → Prop) : Val → Prop
  | .str s => ∀ c ∈ s.toList, A c
  | .list l => Val.overL A l
  | .dict d => Val.overD A d
  | _ => True
  termination_by structural v => v
def Val.overL (A : Char → Prop) : List Val → Prop
  | [] => True
  | v :: r => Val.overV A v ∧ Val.overL A r
  termination_by structural v => v
def Val.overD (A : Char → Prop) : List (String × Val) → Prop
  | [] => True
  | (k, v) :: r => ((∀ c ∈ k.toList, A c) ∧ Val.overV A v) ∧ Val.overD A r
  termination_by structural v => v
end

instance : HasTexts Char := ⟨fun A c => A c⟩
instance : HasTexts Val := ⟨Val.overV⟩
instance : HasTexts String := ⟨fun A s => ∀ c ∈ s.toList, A c⟩
instance : HasTexts Nat := ⟨fun _ _ => True⟩
instance : HasTexts Int := ⟨fun _ _ => True⟩
instance : HasTexts Bool := ⟨fun _ _ => True⟩
instance : HasTexts Unit := ⟨fun _ _ => True⟩
instance : HasTexts IpIf := ⟨fun _ _ => True⟩
instance {α : Type} [HasTexts α] : HasTexts (List α) := ⟨fun A l => ∀ x ∈ l, Over A x⟩
instance {α β : Type} [HasTexts α] [HasTexts β] : HasTexts (α × β) := ⟨fun A p => Over A p.1 ∧ Over A p.2⟩
instance {α : Type} [HasTexts α] : HasTexts (Option α) := ⟨fun A o => ∀ x, o = some x → Over A x⟩
instance {α : Type} [HasTexts α] : HasTexts (Except PyErr α) := ⟨fun A e => ∀ x, e = .ok x → Over A x⟩
instance : HasTexts AddrAcc := ⟨fun A a => Over A a.interface ∧ Over A a.static ∧ Over A a.dhcp⟩

section rules
variable {A : Char → Prop} {α β : Type} [HasTexts α] [HasTexts β]

theorem over_pair {p : α × β} : Over A p ↔ Over A p.1 ∧ Over A p.2 := Iff.rfl
theorem over_mk {a : α} {b : β} : Over A (a, b) ↔ Over A a ∧ Over A b := Iff.rfl
theorem over_some {a : α} : Over A (some a) ↔ Over A a := ⟨fun h => h a rfl, fun h x e => by cases e; exact h⟩
theorem over_none : Over A (none : Option α) := fun _ e => nomatch e
theorem over_ok {a : α} : Over A (Except.ok a : Except PyErr α) ↔ Over A a := ⟨fun h => h a rfl, fun h x e => by cases e; exact h⟩
theorem over_pure {a : α} : Over A (pure a : Except PyErr α) ↔ Over A a := over_ok
theorem over_error {e : PyErr} : Over A (Except.error e : Except PyErr α) := fun _ e => nomatch e
theorem over_nat {n : Nat} : Over A n := trivial
theorem over_int {n : Int} : Over A n := trivial
theorem over_bool {n : Bool} : Over A n := trivial
theorem over_unit {n : Unit} : Over A n := trivial
theorem over_exBool {x : Except PyErr Bool} : Over A x := fun _ _ => trivial
theorem over_ip {n : IpIf} : Over A n := trivial
theorem over_vint {n : Int} : Over A (Val.int n) := trivial
theorem over_vbool {n : Bool} : Over A (Val.bool n) := trivial
theorem over_vnone : Over A Val.none := trivial
theorem over_vstr {s : String} : Over A (Val.str s) ↔ Over A s := Iff.rfl
theorem over_acc {a b : VDict} {c : List VDict} : Over A (AddrAcc.mk a b c) ↔ Over A a ∧ Over A b ∧ Over A c := Iff.rfl

theorem over_accI {a : AddrAcc} (h : Over A a) : Over A a.interface := h.1
theorem over_accS {a : AddrAcc} (h : Over A a) : Over A a.static := h.2.1
theorem over_accD {a : AddrAcc} (h : Over A a) : Over A a.dhcp := h.2.2

theorem over_nil : Over A ([] : List α) := fun _ h => nomatch h
theorem over_cons {a : α} {l : List α} : Over A (a :: l) ↔ Over A a ∧ Over A l :=
  ⟨fun h => ⟨h _ List.mem_cons_self, fun x hx => h x (List.mem_cons_of_mem _ hx)⟩, fun h x hx => by
    rcases List.mem_cons.1 hx with rfl | hx
    · exact h.1
    · exact h.2 x hx⟩
theorem over_append {l m : List α} : Over A (l ++ m) ↔ Over A l ∧ Over A m :=
  ⟨fun h => ⟨fun x hx => h x (List.mem_append_left _ hx), fun x hx => h x (List.mem_append_right _ hx)⟩, fun h x hx => by
    rcases List.mem_append.1 hx with hx | hx
    · exact h.1 x hx
    · exact h.2 x hx⟩

theorem over_vlist {l : List Val} : Over A (Val.list l) ↔ Over A l := by
  show Val.overL A l ↔ _
  induction l with
  | nil => exact ⟨fun _ => over_nil, fun _ => trivial⟩
  | cons v r ih => rw [over_cons, ← ih]; exact Iff.rfl

theorem over_vdict {d : VDict} : Over A (Val.dict d) ↔ Over A d := by
  show Val.overD A d ↔ _
  induction d with
  | nil => exact ⟨fun _ => over_nil, fun _ => trivial⟩
  | cons v r ih => rw [over_cons, ← ih]; exact Iff.rfl

theorem over_mem {l : List α} (h : Over A l) {x : α} (hx : x ∈ l) : Over A x := h x hx

theorem over_eq {a b : α} (e : a = b) (h : Over A a) : Over A b := e ▸ h

theorem over_bind {x : Except PyErr α} {f : α → Except PyErr β} (h : Over A x) (hf : ∀ a, Over A a → Over A (f a)) : Over A (x >>= f) := by
  intro b hb
  obtain ⟨a, ha, hb⟩ := bind_ok_iff.1 hb
  exact hf a (h a ha) b hb

theorem over_map {l : List α} {f : α → β} (h : Over A l) (hf : ∀ a, Over A a → Over A (f a)) : Over A (l.map f) := by
  intro b hb
  obtain ⟨a, ha, rfl⟩ := List.mem_map.1 hb
  exact hf a (h a ha)

theorem over_flatMap {l : List α} {f : α → List β} (h : Over A l) (hf : ∀ a, Over A a → Over A (f a)) : Over A (l.flatMap f) := by
  intro b hb
  obtain ⟨a, ha, hb⟩ := List.mem_flatMap.1 hb
  exact hf a (h a ha) b hb

theorem over_filterMap {l : List α} {f : α → Option β} (h : Over A l) (hf : ∀ a, Over A a → Over A (f a)) : Over A (l.filterMap f) := by
  intro b hb
  obtain ⟨a, ha, hb⟩ := List.mem_filterMap.1 hb
  exact hf a (h a ha) b hb

theorem over_matchPair {γ : Type} [HasTexts γ] {p : α × β} {f : α × β → γ} (h : Over A p) (hf : ∀ a b, Over A a → Over A b → Over A (f (a, b))) : Over A (f p) := by
  obtain ⟨a, b⟩ := p
  exact hf a b h.1 h.2

theorem over_flatten {l : List (List α)} (h : Over A l) : Over A l.flatten := by
  intro b hb
  obtain ⟨a, ha, hb⟩ := List.mem_flatten.1 hb
  exact h a ha b hb

theorem over_subset {l m : List α} (h : Over A m) (hs : ∀ x ∈ l, x ∈ m) : Over A l := fun x hx => h x (hs x hx)

theorem over_filter {l : List α} {p : α → Bool} (h : Over A l) : Over A (l.filter p) := over_subset h fun _ hx => (List.mem_filter.1 hx).1
theorem over_dropWhile {l : List α} {p : α → Bool} (h : Over A l) : Over A (l.dropWhile p) := over_subset h fun _ hx => (List.dropWhile_sublist p).mem hx
theorem over_drop {l : List α} {n : Nat} (h : Over A l) : Over A (l.drop n) := over_subset h fun _ hx => List.mem_of_mem_drop hx
theorem over_dropLast {l : List α} (h : Over A l) : Over A l.dropLast := over_subset h fun _ hx => (List.dropLast_sublist l).mem hx
theorem over_reverse {l : List α} (h : Over A l) : Over A l.reverse := over_subset h fun _ hx => List.mem_reverse.1 hx

theorem over_mapM {l : List α} {f : α → Except PyErr β} (h : Over A l) (hf : ∀ a, Over A a → Over A (f a)) : Over A (l.mapM f) := by
  induction l with
  | nil => rw [List.mapM_nil]; exact over_pure.2 over_nil
  | cons a l ih =>
    rw [List.mapM_cons]
    exact over_bind (hf a (over_cons.1 h).1) fun b hb => over_bind (ih (over_cons.1 h).2) fun r hr => over_pure.2 (over_cons.2 ⟨hb, hr⟩)

theorem over_foldlM {l : List α} {f : β → α → Except PyErr β} {b : β} (h : Over A l) (hb : Over A b)
    (hf : ∀ b a, Over A b → Over A a → Over A (f b a)) : Over A (l.foldlM f b) := by
  induction l generalizing b with
  | nil => rw [List.foldlM_nil]; exact over_pure.2 hb
  | cons a l ih =>
    rw [List.foldlM_cons]
    exact over_bind (hf b a hb (over_cons.1 h).1) fun r hr => ih (over_cons.1 h).2 hr

theorem over_foldl {l : List α} {f : β → α → β} {b : β} (h : Over A l) (hb : Over A b)
    (hf : ∀ b a, Over A b → Over A a → Over A (f b a)) : Over A (l.foldl f b) := by
  induction l generalizing b with
  | nil => exact hb
  | cons a l ih => exact ih (over_cons.1 h).2 (hf b a hb (over_cons.1 h).1)

theorem over_ite {c : Prop} [Decidable c] {a b : α} (ha : Over A a) (hb : Over A b) : Over A (if c then a else b) := by
  split
  · exact ha
  · exact hb

theorem over_fst {p : α × β} (h : Over A p) : Over A p.1 := h.1
theorem over_snd {p : α × β} (h : Over A p) : Over A p.2 := h.2

theorem over_optGetD {o : Option α} {d : α} (h : Over A o) (hd : Over A d) : Over A (o.getD d) := by
  cases o with
  | none => exact hd
  | some a => exact over_some.1 h

/-! ## Dictionaries -/

theorem over_get? {d : Dict String α} {k : String} (h : Over A d) : Over A (Dict.get? d k) :=
  fun _ hv => (h _ (Dict.mem_of_get? hv)).2

theorem over_set {d : Dict String α} {k : String} {v : α} (h : Over A d) (hk : Over A k) (hv : Over A v) : Over A (Dict.set d k v) := by
  induction d with
  | nil => exact over_cons.2 ⟨⟨hk, hv⟩, over_nil⟩
  | cons p r ih =>
    obtain ⟨k', v'⟩ := p
    rw [Dict.set]
    split
    · exact over_cons.2 ⟨⟨(over_cons.1 h).1.1, hv⟩, (over_cons.1 h).2⟩
    · exact over_cons.2 ⟨(over_cons.1 h).1, ih (over_cons.1 h).2⟩

theorem over_erase {d : Dict String α} {k : String} (h : Over A d) : Over A (Dict.erase d k) := over_filter h

theorem over_update {d e : Dict String α} (h : Over A d) (he : Over A e) : Over A (Dict.update d e) :=
  over_foldl he h fun _ _ hb ha => over_set hb ha.1 ha.2

theorem over_keys {d : Dict String α} (h : Over A d) : Over A (Dict.keys d) := over_map h fun _ hp => hp.1

theorem over_eraseList {ks : List String} {d : VDict} (h : Over A d) : Over A (ks.foldl Dict.erase d) := by
  induction ks generalizing d with
  | nil => exact h
  | cons k ks ih => exact ih (over_erase h)

theorem over_insertKey {p : String × Val} {d : VDict} (hp : Over A p) (h : Over A d) : Over A (insertKey p d) := by
  induction d with
  | nil => exact over_cons.2 ⟨hp, over_nil⟩
  | cons q r ih =>
    rw [insertKey]
    split
    · exact over_cons.2 ⟨hp, h⟩
    · exact over_cons.2 ⟨(over_cons.1 h).1, ih (over_cons.1 h).2⟩

theorem over_sorted {d : VDict} (h : Over A d) : Over A (sortedDict d) := by
  induction d with
  | nil => exact over_nil
  | cons p r ih => exact over_insertKey (over_cons.1 h).1 (ih (over_cons.1 h).2)

theorem over_getKey {d : VDict} {k : String} (h : Over A d) : Over A (getKey d k) := by
  unfold getKey
  split
  · rename_i v hv; exact over_ok.2 (over_some.1 (over_eq hv (over_get? h)))
  · exact over_error

theorem over_popKey {d : VDict} {k : String} (h : Over A d) : Over A (popKey d k) := by
  unfold popKey
  split
  · rename_i v hv; exact over_ok.2 ⟨over_some.1 (over_eq hv (over_get? h)), over_erase h⟩
  · exact over_error

theorem over_asDict {v : Val} (h : Over A v) : Over A (asDict v) := by
  unfold asDict
  split
  · exact over_ok.2 (over_vdict.1 h)
  · exact over_error

theorem over_asText {v : Val} (h : Over A v) : Over A (asText v) := by
  unfold asText
  split
  · exact over_ok.2 (fun c hc => (over_vstr.1 h) c hc)
  · exact over_error

theorem over_toList {s : String} : Over A s.toList ↔ Over A s := Iff.rfl
theorem over_ofList {s : Chars} : Over A (String.ofList s) ↔ Over A s := by
  show (∀ c ∈ (String.ofList s).toList, A c) ↔ _
  rw [String.toList_ofList]
  exact Iff.rfl
theorem over_txt {s : Chars} : Over A (txt s) ↔ Over A s := over_ofList
theorem over_strAppend {s t : String} : Over A (s ++ t) ↔ Over A s ∧ Over A t := by
  show (∀ c ∈ (s ++ t).toList, A c) ↔ _
  rw [String.toList_append]
  exact over_append (l := s.toList)

theorem over_appendTo {d : VDict} {k : String} {v : List Val} (h : Over A d) (hk : Over A k) (hv : Over A v) : Over A (appendTo d k v) := by
  unfold appendTo
  split
  · rename_i l hl
    exact over_set h hk (over_vlist.2 (over_append.2 ⟨over_vlist.1 (over_some.1 (over_eq hl (over_get? h))), hv⟩))
  · exact over_set h hk (over_vlist.2 hv)

theorem over_joinWith {sep : Chars} {l : List Chars} (hs : Over A sep) (h : Over A l) : Over A (joinWith sep l) := by
  induction l with
  | nil => exact over_nil
  | cons x l ih =>
    cases l with
    | nil => exact (over_cons.1 h).1
    | cons y l => exact over_append.2 ⟨over_append.2 ⟨(over_cons.1 h).1, hs⟩, ih (over_cons.1 h).2⟩

theorem over_splitOn {c : Char} {s : Chars} (h : Over A s) : Over A (splitOn c s) := by
  induction s with
  | nil => exact over_cons.2 ⟨over_nil, over_nil⟩
  | cons x s ih =>
    have ih := ih (over_cons.1 h).2
    have hx := (over_cons.1 h).1
    rw [splitOn]
    split
    · exact over_cons.2 ⟨over_nil, ih⟩
    · split
      · rename_i he; exact over_cons.2 ⟨over_cons.2 ⟨hx, over_nil⟩, over_nil⟩
      · rename_i a b he
        rw [he] at ih
        exact over_cons.2 ⟨over_cons.2 ⟨hx, (over_cons.1 ih).1⟩, (over_cons.1 ih).2⟩

end rules

/-- the characters of the texts the program itself writes -/
def isPlainChar (c : Char) : Bool := 32 ≤ c.toNat && c.toNat ≤ 126

/-- a set of characters with those of the program, kept by the library functions -/
structure Wide (A : Char → Prop) (env : Env) : Prop where
  plain : ∀ c, isPlainChar c = true → A c
  repr : ∀ v : Val, Over A v → Over A (env.reprC v)
  lower : ∀ s : Chars, Over A s → Over A (env.lower s)
  upper : ∀ s : Chars, Over A s → Over A (env.upper s)
  tz : ∀ z t : String, env.tz z = some t → Over A t
  ip6 : ∀ n, Over A (env.ip6.write n)

section rules2
variable {A : Char → Prop} {env : Env}

theorem over_lit (hA : ∀ c, isPlainChar c = true → A c) {s : String} (h : s.toList.all isPlainChar = true) : Over A s :=
  fun c hc => hA c (List.all_eq_true.1 h c hc)
theorem over_lits (hA : ∀ c, isPlainChar c = true → A c) {l : List String} (h : l.all (fun s => s.toList.all isPlainChar) = true) : Over A l :=
  fun s hs => over_lit hA (List.all_eq_true.1 h s hs)
theorem over_litd (hA : ∀ c, isPlainChar c = true → A c) {l : Dict String String} (h : l.all (fun p => p.1.toList.all isPlainChar && p.2.toList.all isPlainChar) = true) :
    Over A l := fun p hp => ⟨over_lit hA (Bool.and_eq_true_iff.1 (List.all_eq_true.1 h p hp)).1, over_lit hA (Bool.and_eq_true_iff.1 (List.all_eq_true.1 h p hp)).2⟩
theorem over_litc (hA : ∀ c, isPlainChar c = true → A c) {c : Char} (h : isPlainChar c = true) : Over A c := hA c h

theorem plain_digit {n : Nat} (h : n < 10) : isPlainChar (digitChar n) = true := by
  have : n = 0 ∨ n = 1 ∨ n = 2 ∨ n = 3 ∨ n = 4 ∨ n = 5 ∨ n = 6 ∨ n = 7 ∨ n = 8 ∨ n = 9 := by omega
  rcases this with rfl | rfl | rfl | rfl | rfl | rfl | rfl | rfl | rfl | rfl <;> decide

theorem over_showNat (hA : ∀ c, isPlainChar c = true → A c) (n : Nat) : Over A (showNat n) := by
  unfold showNat
  generalize n + 1 = k
  induction k generalizing n with
  | zero => exact over_nil
  | succ k ih =>
    rw [natDigits]
    split
    · exact over_cons.2 ⟨hA _ (plain_digit (by omega)), over_nil⟩
    · exact over_append.2 ⟨ih _, over_cons.2 ⟨hA _ (plain_digit (by omega)), over_nil⟩⟩

theorem over_showInt (hA : ∀ c, isPlainChar c = true → A c) (n : Int) : Over A (showInt n) := by
  unfold showInt
  split
  · exact over_showNat hA _
  · exact over_cons.2 ⟨hA _ (by decide), over_showNat hA _⟩

theorem over_pyStr (hA : Wide A env) {v : Val} (h : Over A v) : Over A (pyStr env.reprC v) := by
  cases v with
  | none => exact over_lit hA.plain (s := "None") (by decide +kernel)
  | bool b =>
    cases b
    · exact over_lit hA.plain (s := "False") (by decide +kernel)
    · exact over_lit hA.plain (s := "True") (by decide +kernel)
  | int i => exact over_ofList.2 (over_showInt hA.plain i)
  | str s => exact h
  | list l => exact hA.repr _ h
  | dict d => exact hA.repr _ h

theorem over_uciName (hA : ∀ c, isPlainChar c = true → A c) {s : Chars} (h : Over A s) : Over A (uciName s) := by
  unfold uciName
  refine over_map h fun c hc => ?_
  exact over_ite (hA _ (by decide)) (over_ite (hA _ (by decide)) hc)

theorem over_showIp4 (hA : ∀ c, isPlainChar c = true → A c) (n : Nat) : Over A (showIp4 n) := by
  unfold showIp4
  refine over_joinWith (over_cons.2 ⟨hA _ (by decide), over_nil⟩) ?_
  simp only [over_cons, over_nil, and_true, over_showNat hA]

theorem over_showIp (hA : Wide A env) (b : Bool) (n : Nat) : Over A (showIp env.ip6 b n) := by
  unfold showIp
  exact over_ite (hA.ip6 n) (over_showIp4 hA.plain n)

theorem over_ipText (hA : Wide A env) (i : IpIf) : Over A (i.text env.ip6) := by
  unfold IpIf.text
  exact over_append.2 ⟨over_showIp hA _ _, over_cons.2 ⟨hA.plain _ (by decide), over_showNat hA.plain _⟩⟩

theorem over_popOrElse {d : VDict} {k : String} {f : VDict → Except PyErr Val} (h : Over A d) (hf : ∀ d, Over A d → Over A (f d)) :
    Over A (popOrElse d k f) := by
  unfold popOrElse
  split
  · rename_i v hv
    split
    · exact over_ok.2 ⟨over_some.1 (over_eq hv (over_get? h)), over_erase h⟩
    · exact over_bind (hf _ (over_erase h)) fun a ha => over_pure.2 ⟨ha, over_erase h⟩
  · exact over_bind (hf _ (over_erase h)) fun a ha => over_pure.2 ⟨ha, over_erase h⟩

theorem over_fwdList {loop : Option Nat → Val → VDict → Except PyErr VDict} {i : Nat} {r : VDict} {l : List Val} (hr : Over A r) (h : Over A l)
    (hf : ∀ i v r, Over A v → Over A r → Over A (loop i v r)) : Over A (fwdList loop i r l) := by
  induction l generalizing i r with
  | nil => exact over_ok.2 hr
  | cons b l ih =>
    rw [fwdList]
    exact over_bind (hf _ _ _ (over_cons.1 h).1 hr) fun r' hr' => ih hr' (over_cons.1 h).2

theorem over_fwd {key : String} {loop : Option Nat → Val → VDict → Except PyErr VDict} {config : VDict} (h : Over A (Dict.get? config key))
    (hf : ∀ i v r, Over A v → Over A r → Over A (loop i v r)) : Over A (fwd key loop config) := by
  unfold fwd
  have hv : Over A ((Dict.get? config key).getD .none) := over_optGetD h over_vnone
  generalize (Dict.get? config key).getD .none = v at hv
  split
  · exact over_fwdList over_nil (over_vlist.1 hv) hf
  · exact hf _ _ _ hv over_nil

end rules2

/-- closes a goal `Over A x` by the rules -/
syntax "over_close" : tactic
/-- one rule for the goal, or a case distinction -/
syntax "over_step" : tactic

open Lean Elab Tactic Meta in
/-- for every equation `a = b` of the context, `Over A b` when `Over A a` can be shown -/
elab "over_eqs" : tactic => withMainContext do
  for d in (← getLCtx) do
    unless d.isImplementationDetail do
      if (← instantiateMVars d.type).isAppOf ``Eq then
        let h ← Term.exprToSyntax d.toExpr
        let s ← saveState
        let attempt : TacticM Unit := do
          evalTactic (← `(tactic| refine (fun this => ?_) (over_eq (A := $(mkIdent `A)) $h ?_)))
          match ← getGoals with
          | main :: side :: rest =>
            setGoals [side]
            evalTactic (← `(tactic| repeat' over_step))
            unless (← getGoals).isEmpty do throwError "no"
            setGoals (main :: rest)
          | _ => throwError "no"
        tryCatch attempt (fun _ => s.restore)

open Lean Elab Tactic Meta in
/-- one of the labelled rules -/
elab "over_label" : tactic => do
  let rules ← labelled `over_rule
  let g ← getMainGoal
  for r in rules do
    let s ← saveState
    let attempt : TacticM Unit := do
      let gs ← g.withContext (withReducible (do g.apply (← mkConstWithFreshMVarLevels r)))
      let mut left := []
      for x in gs do
        unless (← x.isAssigned) do
          let (_, x) ← x.intros
          unless ← x.withContext (withReducible x.assumptionCore) do
            left := left ++ [x]
      replaceMainGoal left
    let done ← tryCatch (do attempt; pure true) (fun _ => do s.restore; pure false)
    if done then return
  throwError "no rule"

macro_rules
  | `(tactic| over_step) => do
    let hA := Lean.mkIdent `hA
    `(tactic| with_reducible first
    | assumption
    | exact over_nat | exact over_int | exact over_bool | exact over_exBool | exact over_unit | exact over_ip | exact over_vint | exact over_vbool | exact over_vnone
    | exact (($hA).tz _ _ (by assumption))
    | exact over_nil | exact over_none | exact over_error
    | exact over_lit ($hA).plain (by decide +kernel) | exact over_litc ($hA).plain (by decide +kernel) | exact over_lits ($hA).plain (by decide +kernel)
    | exact over_litd ($hA).plain (by decide +kernel)
    | exact over_showNat ($hA).plain _ | exact over_showInt ($hA).plain _ | exact over_showIp4 ($hA).plain _ | exact over_showIp $hA _ _ | exact over_ipText $hA _
    | refine over_ok.2 ?_ | refine over_pure.2 ?_ | refine over_some.2 ?_
    | refine over_cons.2 ⟨?_, ?_⟩ | refine over_append.2 ⟨?_, ?_⟩ | refine over_mk.2 ⟨?_, ?_⟩ | refine over_acc.2 ⟨?_, ?_, ?_⟩
    | refine over_vstr.2 ?_ | refine over_vlist.2 ?_ | refine over_vdict.2 ?_ | refine over_txt.2 ?_ | refine over_ofList.2 ?_
    | refine over_toList.2 ?_ | refine over_strAppend.2 ⟨?_, ?_⟩
    | refine ($hA).lower _ ?_ | refine ($hA).upper _ ?_ | refine over_pyStr $hA ?_ | refine over_uciName ($hA).plain ?_ | refine over_set ?_ ?_ ?_ | refine over_erase ?_ | refine over_eraseList ?_
    | refine over_update ?_ ?_ | refine over_get? ?_ | refine over_optGetD ?_ ?_ | refine over_sorted ?_ | refine over_keys ?_
    | refine over_getKey ?_ | refine over_popKey ?_ | refine over_asDict ?_ | refine over_asText ?_
    | refine over_appendTo ?_ ?_ ?_ | refine over_joinWith ?_ ?_ | refine over_splitOn ?_
    | refine over_popOrElse ?_ (fun _ _ => ?_)
    | over_label
    | refine over_filter ?_ | refine over_dropWhile ?_ | refine over_drop ?_ | refine over_dropLast ?_ | refine over_reverse ?_ | refine over_flatten ?_
    | refine over_filterMap ?_ (fun _ _ => ?_) | refine over_map ?_ (fun _ _ => ?_) | refine over_flatMap ?_ (fun _ _ => ?_) | refine over_mapM ?_ (fun _ _ => ?_)
    | refine over_foldlM ?_ ?_ (fun _ _ _ _ => ?_) | refine over_foldl ?_ ?_ (fun _ _ _ _ => ?_)
    | refine over_ite ?_ ?_
    | refine over_accI ?_ | refine over_accS ?_ | refine over_accD ?_
    | refine over_fst ?_ | refine over_snd ?_
    | refine And.intro ?_ ?_
    | refine over_bind ?_ (fun _ _ => ?_))

macro_rules
  | `(tactic| over_close) => `(tactic| ((repeat' over_step); done))

/-- the facts of the context taken apart -/
macro "over_norm" : tactic =>
  `(tactic| ((try simp only [over_some, over_ok, over_pure, over_cons, over_append, over_mk, over_pair, over_acc, over_vstr, over_vlist, over_vdict, over_txt, over_ofList, over_toList,
      over_strAppend] at *); (try casesm* _ ∧ _)))

/-- rules and case distinctions -/
macro "over" : tactic => `(tactic| (repeat' (first | over_step | (split <;> (over_eqs; over_norm)))))

end NJ
