import Verif.PropsOwLines

/-!
# C86: tc_script.sh, and the theorem on all scripts
-/

namespace NJ

/-- what is found on the lines of a text -/
def found (f : Chars → Option Chars) (t : Chars) : List Chars := (linesOf t).filterMap f

theorem found_line (f : Chars → Option Chars) {w : Chars} (h : '\n' ∉ w) (r : Chars) : found f (w ++ '\n' :: r) = [w].filterMap f ++ found f r := by
  unfold found linesOf
  rw [splitOn_append w r h, show w :: splitOn '\n' r = [w] ++ splitOn '\n' r from rfl, List.filterMap_append]

theorem found_full (f : Chars → Option Chars) {l : List Chars} (h : ∀ x ∈ l, '\n' ∉ x) (r : Chars) :
    found f (fullLines l ++ r) = l.filterMap f ++ found f r := by
  induction l with
  | nil => rfl
  | cons x xs ih =>
    have e : fullLines (x :: xs) ++ r = x ++ '\n' :: (fullLines xs ++ r) := by
      unfold fullLines
      simp
    rw [e, found_line f (h x List.mem_cons_self), ih (fun y hy => h y (List.mem_cons_of_mem _ hy)),
      show x :: xs = [x] ++ xs from rfl, List.filterMap_append, List.append_assoc]

/-- a text that adds `ws` to what is found, whatever is around it; only spaces stay on its last line -/
def Adds (f : Chars → Option Chars) (x : Chars) (ws : List Chars) : Prop := ∀ n r, ∃ m, found f (sp n ++ (x ++ r)) = ws ++ found f (sp m ++ r)

theorem adds_nil (f : Chars → Option Chars) : Adds f [] [] := fun n _ => ⟨n, rfl⟩

theorem adds_append {f : Chars → Option Chars} {x y : Chars} {v w : List Chars} (hx : Adds f x v) (hy : Adds f y w) : Adds f (x ++ y) (v ++ w) := by
  intro n r
  obtain ⟨m, e⟩ := hx n (y ++ r)
  obtain ⟨k, e'⟩ := hy m r
  refine ⟨k, ?_⟩
  rw [List.append_assoc, e, e', List.append_assoc]

theorem sp_add (a b : Nat) : sp a ++ sp b = sp (a + b) := by
  unfold sp
  exact List.replicate_append_replicate

theorem adds_sp (f : Chars → Option Chars) (k : Nat) : Adds f (sp k) [] := by
  intro n r
  exact ⟨n + k, by rw [← List.append_assoc, sp_add, List.nil_append]⟩

theorem nl_sp (n : Nat) : '\n' ∉ sp n := by
  unfold sp
  intro h
  exact absurd (List.eq_of_mem_replicate h) (by decide)

theorem adds_full {f : Chars → Option Chars} (hf : ∀ n, f (sp n) = none) {l : List Chars} (h : ∀ x ∈ l, '\n' ∉ x) (k : Nat) :
    Adds f (fullLines ([] :: l) ++ sp k) (l.filterMap f) := by
  intro n r
  refine ⟨k, ?_⟩
  have e : sp n ++ (fullLines ([] :: l) ++ sp k ++ r) = sp n ++ '\n' :: (fullLines l ++ (sp k ++ r)) := by
    unfold fullLines
    simp
  rw [e, found_line f (nl_sp n), found_full f h, List.filterMap_cons_none (hf n)]
  rfl

theorem adds_flatMap {α : Type} {f : Chars → Option Chars} {g : α → Chars} {w : α → List Chars} (l : List α) (h : ∀ a ∈ l, Adds f (g a) (w a)) :
    Adds f (l.flatMap g) (l.flatMap w) := by
  induction l with
  | nil => exact adds_nil f
  | cons x xs ih =>
    rw [List.flatMap_cons, List.flatMap_cons]
    exact adds_append (h x List.mem_cons_self) (ih (fun a ha => h a (List.mem_cons_of_mem _ ha)))

theorem found_after {f : Chars → Option Chars} (hf : ∀ n, f (sp n) = none) {x : Chars} {ws : List Chars} (h : Adds f x ws) (r : Chars) :
    found f (x ++ '\n' :: r) = ws ++ found f r := by
  obtain ⟨m, e⟩ := h 0 ('\n' :: r)
  have e0 : sp 0 ++ (x ++ '\n' :: r) = x ++ '\n' :: r := rfl
  rw [e0, found_line f (nl_sp m), List.filterMap_cons_none (hf m)] at e
  exact e

theorem between_sp {a b : Chars} (h : a.any (fun c => c != ' ') = true) (n : Nat) : between a b (sp n) = none := by
  unfold between
  refine if_neg (fun hp => ?_)
  obtain ⟨c, hc, hne⟩ := List.any_eq_true.1 h
  have := hp.1.subset hc
  unfold sp at this
  rw [List.eq_of_mem_replicate this] at hne
  exact absurd hne (by decide)

theorem nl_int (i : Int) : '\n' ∉ showInt i := by
  intro h
  exact absurd rfl ((showInt_plain i).1 '\n' h).1

/-- an interface whose limits are texts without line breaks -/
theorem stop_adds {f : Chars → Option Chars} (hf : ∀ n, f (sp n) = none) (hnil : f [] = none) {e : TcEntry} (hn : '\n' ∉ e.name) :
    Adds f (tcStop e)
      ((if e.output.isSome then ["    tc qdisc del dev ".toList ++ e.name ++ " root".toList].filterMap f else []) ++
       (if e.input.isSome then ["    tc qdisc del dev ".toList ++ e.name ++ " ingress".toList].filterMap f else [])) := by
  have key : ∀ (b : Bool) (x : Chars), '\n' ∉ x →
      Adds f (if b = true then fullLines [[], x, []] ++ sp 4 else []) (if b = true then [x].filterMap f else []) := by
    intro b x hx
    cases b with
    | false => exact adds_nil f
    | true =>
      have := adds_full hf (l := [x, []]) (by
        intro y hy
        rcases List.mem_cons.1 hy with rfl | hy
        · exact hx
        · rw [List.mem_singleton.1 hy]; exact List.not_mem_nil) 4
      have e : [x, []].filterMap f = [x].filterMap f := by
        rw [show [x, ([] : Chars)] = [x] ++ [[]] from rfl, List.filterMap_append, List.filterMap_cons_none hnil]
        simp
      rw [e] at this
      exact this
  have := adds_append (adds_append (adds_append (adds_sp f 4)
    (key e.output.isSome _ (line_app (line_app (a := "    tc qdisc del dev ".toList) (by decide +kernel) hn) (b := " root".toList) (by decide +kernel)))) (adds_sp f 4))
    (key e.input.isSome _ (line_app (line_app (a := "    tc qdisc del dev ".toList) (by decide +kernel) hn) (b := " ingress".toList) (by decide +kernel)))
  simp only [List.nil_append, List.append_nil] at this
  exact this

local macro "lineParts" : tactic => `(tactic| (
  repeat' (first
    | exact List.forall_mem_nil _
    | refine List.forall_mem_cons.2 ⟨?_, ?_⟩
    | assumption
    | exact nl_int _
    | exact nl_sp _
    | decide +kernel
    | refine line_app ?_ ?_)))

theorem output_lines (burst : Int → Int) {name : Chars} (hn : '\n' ∉ name) (o : Int) : ∀ x ∈ tcOutput burst name o, '\n' ∉ x := by
  unfold tcOutput
  lineParts

theorem input_lines (burst : Int → Int) {name : Chars} (hn : '\n' ∉ name) (o : Int) : ∀ x ∈ tcInput burst name o, '\n' ∉ x := by
  unfold tcInput
  lineParts

theorem start_adds (burst : Int → Int) {f : Chars → Option Chars} (hf : ∀ n, f (sp n) = none) {e : TcEntry} (hn : '\n' ∉ e.name) :
    Adds f (tcStart burst e)
      ((match e.output with | some o => (tcOutput burst e.name o).filterMap f | none => []) ++
       (match e.input with | some o => (tcInput burst e.name o).filterMap f | none => [])) := by
  have a : Adds f (match e.output with | some o => fullLines ([] :: tcOutput burst e.name o) ++ sp 8 | none => [])
      (match e.output with | some o => (tcOutput burst e.name o).filterMap f | none => []) := by
    cases e.output with
    | none => exact adds_nil f
    | some o => exact adds_full hf (output_lines burst hn o) 8
  have b : Adds f (match e.input with | some o => fullLines ([] :: tcInput burst e.name o) ++ sp 8 | none => [])
      (match e.input with | some o => (tcInput burst e.name o).filterMap f | none => []) := by
    cases e.input with
    | none => exact adds_nil f
    | some o => exact adds_full hf (input_lines burst hn o) 8
  have := adds_append (adds_append (adds_append (adds_sp f 4) a) (adds_sp f 4)) b
  simp only [List.nil_append, List.append_nil] at this
  exact this

theorem flatMap_same {α β : Type} {f g : α → List β} (h : ∀ a, f a = g a) (l : List α) : l.flatMap f = l.flatMap g := by
  rw [show f = g from funext h]

/-- what is found in the parts of tc_script.sh: `A`, `B` in stop(), `C`, `D` in start() -/
def tcFound (A B : Chars → List Chars) (C D : Chars → Int → List Chars) (es : List TcEntry) : List Chars :=
  es.flatMap (fun e => (if e.output.isSome then A e.name else []) ++ (if e.input.isSome then B e.name else [])) ++
  es.flatMap (fun e => e.output.elim [] (C e.name) ++ e.input.elim [] (D e.name))

theorem tc_query (burst : Int → Int) (es : List TcEntry) (hn : ∀ e ∈ es, '\n' ∉ e.name) {f : Chars → Option Chars} (hf : ∀ n, f (sp n) = none)
    (hfix : (tcHead ++ tcMiddle ++ tcTail).filterMap f = []) {A B : Chars → List Chars} {C D : Chars → Int → List Chars}
    (h1 : ∀ n, ["    tc qdisc del dev ".toList ++ n ++ " root".toList].filterMap f = A n)
    (h2 : ∀ n, ["    tc qdisc del dev ".toList ++ n ++ " ingress".toList].filterMap f = B n)
    (h3 : ∀ n o, (tcOutput burst n o).filterMap f = C n o) (h4 : ∀ n o, (tcInput burst n o).filterMap f = D n o) :
    found f (tcLines burst es) = tcFound A B C D es := by
  simp only [List.filterMap_append, List.append_eq_nil_iff] at hfix
  obtain ⟨⟨ha, hm⟩, ht⟩ := hfix
  unfold tcLines
  have e1 : fullLines tcMiddle = '\n' :: fullLines tcMiddle.tail := rfl
  have e2 : joinLines tcTail = '\n' :: joinLines tcTail.tail := rfl
  have m1 : tcMiddle.tail.filterMap f = [] := by
    rw [show tcMiddle = [] :: tcMiddle.tail from rfl, List.filterMap_cons_none (show f [] = none from hf 0)] at hm
    exact hm
  have t1 : tcTail.tail.filterMap f = [] := by
    rw [show tcTail = [] :: tcTail.tail from rfl, List.filterMap_cons_none (show f [] = none from hf 0)] at ht
    exact ht
  rw [e1, e2]
  simp only [List.append_assoc]
  rw [found_full f (by decide +kernel), ha, List.nil_append, List.cons_append,
    found_after hf (adds_flatMap es (fun e he => stop_adds hf (hf 0) (hn e he))),
    found_full f (by decide +kernel), m1, List.nil_append, found_after hf (adds_flatMap es (fun e he => start_adds burst hf (hn e he)))]
  have : found f (joinLines tcTail.tail) = [] := by
    unfold found linesOf joinLines
    rw [splitOn_joinWith _ (by decide) (by decide +kernel)]
    exact t1
  rw [this, List.append_nil]
  unfold tcFound
  simp only [h1, h2, h3, h4]
  congr 1
  apply flatMap_same
  intro e
  cases e.output <;> cases e.input <;> rfl

/-! ## The queries -/

theorem between_other7 {a b x : Chars} (h : clash a x = true) (y z u v w : Chars) : between a b (x ++ y ++ z ++ u ++ v ++ w) = none := by
  simp only [List.append_assoc]; exact between_other h _

/-- skips a line -/
local macro "skipLine" : tactic => `(tactic|
  rw [List.filterMap_cons_none (by first
    | decide +kernel
    | exact between_other (by decide +kernel) _
    | exact between_other3 (by decide +kernel) _ _
    | exact between_other5 (by decide +kernel) _ _ _ _
    | exact between_other7 (by decide +kernel) _ _ _ _ _
    | exact between_end (by decide +kernel) _)])

local macro "skipLines" : tactic => `(tactic| (repeat skipLine))

theorem tc_add_root (burst : Int → Int) (es : List TcEntry) (hn : ∀ e ∈ es, '\n' ∉ e.name) :
    named "    tc qdisc add dev " " root handle 1: htb default 2" (tcLines burst es) =
      tcFound (fun _ => [])
        (fun _ => [])
        (fun n _ => [n])
        (fun _ _ => []) es := by
  refine tc_query burst es hn (f := between "    tc qdisc add dev ".toList " root handle 1: htb default 2".toList) (fun n => between_sp (by decide +kernel) n) (by decide +kernel) (fun n => ?_) (fun n => ?_) (fun n o => ?_) (fun n o => ?_)
  · skipLines; rfl
  · skipLines; rfl
  · unfold tcOutput
    skipLines
    rw [List.filterMap_cons_some (between_self _ _ _)]
    skipLines
    rfl
  · unfold tcInput
    skipLines
    rfl

theorem tc_del_root (burst : Int → Int) (es : List TcEntry) (hn : ∀ e ∈ es, '\n' ∉ e.name) :
    named "    tc qdisc del dev " " root" (tcLines burst es) =
      tcFound (fun n => [n])
        (fun _ => [])
        (fun _ _ => [])
        (fun _ _ => []) es := by
  refine tc_query burst es hn (f := between "    tc qdisc del dev ".toList " root".toList) (fun n => between_sp (by decide +kernel) n) (by decide +kernel) (fun n => ?_) (fun n => ?_) (fun n o => ?_) (fun n o => ?_)
  · rw [List.filterMap_cons_some (between_self _ _ _)]; rfl
  · skipLines; rfl
  · unfold tcOutput
    skipLines
    rfl
  · unfold tcInput
    skipLines
    rfl

theorem tc_add_ingress (burst : Int → Int) (es : List TcEntry) (hn : ∀ e ∈ es, '\n' ∉ e.name) :
    named "    tc qdisc add dev " " ingress" (tcLines burst es) =
      tcFound (fun _ => [])
        (fun _ => [])
        (fun _ _ => [])
        (fun n _ => [n]) es := by
  refine tc_query burst es hn (f := between "    tc qdisc add dev ".toList " ingress".toList) (fun n => between_sp (by decide +kernel) n) (by decide +kernel) (fun n => ?_) (fun n => ?_) (fun n o => ?_) (fun n o => ?_)
  · skipLines; rfl
  · skipLines; rfl
  · unfold tcOutput
    skipLines
    rfl
  · unfold tcInput
    skipLines
    rw [List.filterMap_cons_some (between_self _ _ _)]
    skipLines
    rfl

theorem tc_del_ingress (burst : Int → Int) (es : List TcEntry) (hn : ∀ e ∈ es, '\n' ∉ e.name) :
    named "    tc qdisc del dev " " ingress" (tcLines burst es) =
      tcFound (fun _ => [])
        (fun n => [n])
        (fun _ _ => [])
        (fun _ _ => []) es := by
  refine tc_query burst es hn (f := between "    tc qdisc del dev ".toList " ingress".toList) (fun n => between_sp (by decide +kernel) n) (by decide +kernel) (fun n => ?_) (fun n => ?_) (fun n o => ?_) (fun n o => ?_)
  · skipLines; rfl
  · rw [List.filterMap_cons_some (between_self _ _ _)]; rfl
  · unfold tcOutput
    skipLines
    rfl
  · unfold tcInput
    skipLines
    rfl

theorem tc_class (burst : Int → Int) (es : List TcEntry) (hn : ∀ e ∈ es, '\n' ∉ e.name) :
    named "    tc class add dev " "k" (tcLines burst es) =
      tcFound (fun _ => [])
        (fun _ => [])
        (fun n o => [n ++ " parent 1 classid 1:1 htb rate ".toList ++ number o ++ "kbit burst ".toList ++ number (burst o)])
        (fun _ _ => []) es := by
  refine tc_query burst es hn (f := between "    tc class add dev ".toList "k".toList) (fun n => between_sp (by decide +kernel) n) (by decide +kernel) (fun n => ?_) (fun n => ?_) (fun n o => ?_) (fun n o => ?_)
  · skipLines; rfl
  · skipLines; rfl
  · unfold tcOutput
    skipLines
    rw [List.filterMap_cons_some (b := n ++ " parent 1 classid 1:1 htb rate ".toList ++ number o ++ "kbit burst ".toList ++ number (burst o)) (by
      have := between_self "    tc class add dev ".toList "k".toList (n ++ " parent 1 classid 1:1 htb rate ".toList ++ number o ++ "kbit burst ".toList ++ number (burst o))
      simp only [List.append_assoc, number] at this ⊢
      exact this)]
    skipLines
    rfl
  · unfold tcInput
    skipLines
    rfl

theorem tc_filter (burst : Int → Int) (es : List TcEntry) (hn : ∀ e ∈ es, '\n' ∉ e.name) :
    named "    tc filter add dev " "k drop flowid :1" (tcLines burst es) =
      tcFound (fun _ => [])
        (fun _ => [])
        (fun _ _ => [])
        (fun n o => [n ++ " parent ffff: preference 0 u32 match u32 0x0 0x0 police rate ".toList ++ number o ++ "kbit burst ".toList ++ number (burst o)]) es := by
  refine tc_query burst es hn (f := between "    tc filter add dev ".toList "k drop flowid :1".toList) (fun n => between_sp (by decide +kernel) n) (by decide +kernel) (fun n => ?_) (fun n => ?_) (fun n o => ?_) (fun n o => ?_)
  · skipLines; rfl
  · skipLines; rfl
  · unfold tcOutput
    skipLines
    rfl
  · unfold tcInput
    skipLines
    rw [List.filterMap_cons_some (b := n ++ " parent ffff: preference 0 u32 match u32 0x0 0x0 police rate ".toList ++ number o ++ "kbit burst ".toList ++ number (burst o)) (by
      have := between_self "    tc filter add dev ".toList "k drop flowid :1".toList (n ++ " parent ffff: preference 0 u32 match u32 0x0 0x0 police rate ".toList ++ number o ++ "kbit burst ".toList ++ number (burst o))
      simp only [List.append_assoc, number] at this ⊢
      exact this)]
    skipLines
    rfl

end NJ
