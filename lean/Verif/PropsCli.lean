import Verif.Cli
import Verif.PropsConv
import Verif.PropsVpnSamples

/-!
# C68: the command line program
-/

namespace NJ

/-! ## The arguments of the method -/

theorem count_splitOn {s : Chars} (h : s.count '=' = 1) : ∃ k v, splitOn '=' s = [k, v] ∧ s = k ++ '=' :: v ∧ '=' ∉ k ∧ '=' ∉ v := by
  have hm : '=' ∈ s := by rw [← List.count_pos_iff]; omega
  obtain ⟨k, v, rfl, hk⟩ := List.eq_append_cons_of_mem hm
  have hv : '=' ∉ v := by
    rw [List.count_append, List.count_cons_self, List.count_eq_zero_of_not_mem hk] at h
    exact List.count_eq_zero.1 (by omega)
  exact ⟨k, v, by rw [splitOn_append _ _ hk, splitOn_single _ hv], rfl, hk, hv⟩

theorem cliArguments_some (as : List Chars) (kw : VDict) : (cliArguments as kw).isSome = as.all (fun a => decide (a.count '=' = 1)) := by
  induction as generalizing kw with
  | nil => rfl
  | cons a as ih =>
    unfold cliArguments
    by_cases h : a.count '=' = 1
    · obtain ⟨k, v, e, _⟩ := count_splitOn h
      simp only [h, ne_eq, not_true_eq_false, if_false, e, ih]
      simp [h]
    · simp [h]

/-- **C68.** The arguments of the method are accepted exactly when each of them has exactly one equals sign. -/
theorem C68_accepted (as : List Chars) : (∃ kw, cliArguments as [] = some kw) ↔ ∀ a ∈ as, a.count '=' = 1 := by
  rw [← Option.isSome_iff_exists, cliArguments_some]
  simp

/-- **C68.** `k=v` arguments become keyword arguments: each key has the value it was given last, `True` and `1` as the value true,
`False` and `0` as the value false, anything else as text. -/
theorem C68_arguments (ps : List (Chars × Chars)) (h : ∀ p ∈ ps, '=' ∉ p.1 ∧ '=' ∉ p.2) :
    ∃ kw, cliArguments (ps.map (fun p => p.1 ++ '=' :: p.2)) [] = some kw ∧
      ∀ k, Dict.get? kw k = (ps.reverse.find? (fun p => decide (String.ofList p.1 = k))).map (fun p =>
        if String.ofList p.2 = "True" ∨ String.ofList p.2 = "1" then .bool true
        else if String.ofList p.2 = "False" ∨ String.ofList p.2 = "0" then .bool false
        else .str (String.ofList p.2)) := by
  suffices hs : ∀ kw0 : VDict, ∃ kw, cliArguments (ps.map (fun p => p.1 ++ '=' :: p.2)) kw0 = some kw ∧
      ∀ k, Dict.get? kw k = ((ps.reverse.find? (fun p => decide (String.ofList p.1 = k))).map (fun p =>
        if String.ofList p.2 = "True" ∨ String.ofList p.2 = "1" then .bool true
        else if String.ofList p.2 = "False" ∨ String.ofList p.2 = "0" then .bool false
        else .str (String.ofList p.2))).or (Dict.get? kw0 k) by
    obtain ⟨kw, h1, h2⟩ := hs []
    exact ⟨kw, h1, fun k => by rw [h2 k]; simp⟩
  induction ps with
  | nil => exact fun kw0 => ⟨kw0, rfl, fun k => by simp⟩
  | cons p ps ih =>
    intro kw0
    obtain ⟨h1, h2⟩ := h p (by simp)
    have hv : cliValue p.2 = if String.ofList p.2 = "True" ∨ String.ofList p.2 = "1" then .bool true
        else if String.ofList p.2 = "False" ∨ String.ofList p.2 = "0" then .bool false else .str (String.ofList p.2) := by
      unfold cliValue txt
      have e : ∀ s : String, (p.2 = s.toList) = (String.ofList p.2 = s) := by
        intro s
        apply propext
        constructor
        · intro e; rw [e, String.ofList_toList]
        · intro e; rw [← e, String.toList_ofList]
      simp only [List.mem_cons, List.not_mem_nil, or_false, e]
    obtain ⟨kw, hk, hg⟩ := ih (fun q hq => h q (by simp [hq])) (Dict.set kw0 (String.ofList p.1) (cliValue p.2))
    refine ⟨kw, ?_, fun k => ?_⟩
    · rw [List.map_cons]
      unfold cliArguments
      rw [if_neg (by simp [List.count_append, List.count_eq_zero_of_not_mem h1, List.count_eq_zero_of_not_mem h2]), splitOn_append _ _ h1, splitOn_single _ h2]
      exact hk
    · rw [hg k, List.reverse_cons, List.find?_append, Dict.get?_set']
      cases hf : List.find? (fun p => decide (String.ofList p.1 = k)) ps.reverse with
      | some q => simp
      | none =>
        by_cases e : String.ofList p.1 = k
        · simp [e, hv]
        · simp [e, Ne.symm e]

/-! ## Exit statuses and output -/

/-- the text an option stands for: itself (without blanks at its ends) when it begins with a brace, else the file of that name -/
def TextOf (fs : Chars → Option Chars) (o t : Chars) : Prop := (['{'] <+: strip o ∧ t = strip o) ∨ (¬ ['{'] <+: strip o ∧ fs o = some t)

theorem cliLoad_iff {fs : Chars → Option Chars} {o t : Chars} : cliLoad fs o = some t ↔ TextOf fs o t := by
  unfold cliLoad TextOf
  by_cases h : ['{'] <+: strip o
  · simp [h, eq_comm]
  · simp [h]

theorem mapM_cliLoad {fs : Chars → Option Chars} {os ts : List Chars} : os.mapM (cliLoad fs) = some ts ↔ List.Forall₂ (TextOf fs) os ts := by
  induction os generalizing ts with
  | nil => simp [eq_comm]
  | cons o os ih =>
    rw [List.mapM_cons]
    constructor
    · intro h
      obtain ⟨t, ht, h⟩ := Option.bind_eq_some_iff.1 h
      obtain ⟨us, hu, h⟩ := Option.bind_eq_some_iff.1 h
      cases h
      exact .cons (cliLoad_iff.1 ht) (ih.1 hu)
    · intro h
      cases h with
      | cons h1 h2 =>
        rw [cliLoad_iff.2 h1, ih.2 h2]
        rfl

/-- **C68.** `netjsonconfig --config … --templates … --method render [--args files=0]` prints exactly the text that `render` gives for the
object made of the configuration, the templates in their order and the environment as context, followed by a line break. A violation of the
schema ends it with status 4, and a `TypeError` with status 5; no other outcome prints a configuration. -/
theorem C68_render (cls : Class) (other : CliMethod → BState → VDict → Except PyErr (Option Chars)) (fs : Chars → Option Chars) (environ : VDict)
    {c config : Chars} {native : Option Chars} {os ts : List Chars} (files : Bool) (hne : c ≠ []) (hc : TextOf fs c config)
    (ht : List.Forall₂ (TextOf fs) os ts) {st : BState}
    (hst : construct cls (some (.text config)) none (.list (ts.map .text)) (some environ) = .ok st) :
    cli cls other fs environ ⟨some c, native, os, .render, if files then [] else ["files=0".toList]⟩ =
      match (render cls files st).2 with
      | .ok [] => .done []
      | .ok text => .done (text ++ ['\n'])
      | .error .validation => .exit 4
      | .error .typeError => .exit 5
      | .error e => .crash e := by
  have hsrc : cliSource fs ⟨some c, native, os, .render, if files then [] else ["files=0".toList]⟩ = some (.inl config) := by
    unfold cliSource
    cases c with
    | nil => exact absurd rfl hne
    | cons x xs =>
      simp only [given]
      rw [cliLoad_iff.2 hc]
      rfl
  have hcall : ∃ kw, cliArguments (if files then [] else ["files=0".toList]) [] = some kw ∧
      cliCall cls other .render st kw = (do let t ← (render cls files st).2; pure (some t)) := by
    cases files
    · refine ⟨[("files", .bool false)], by decide +kernel, ?_⟩
      unfold cliCall
      rfl
    · exact ⟨[], rfl, rfl⟩
  obtain ⟨kw, hk, hcall⟩ := hcall
  unfold cli
  rw [hsrc]
  dsimp only
  rw [mapM_cliLoad.2 ht]
  dsimp only
  rw [hk]
  dsimp only [cliInstance]
  rw [hst]
  dsimp only
  rw [hcall]
  cases hr : (render cls files st).2 with
  | ok t => cases t <;> rfl
  | error e => cases e <;> rfl

/-- **C68.** `--method validate` ends normally, printing nothing, exactly when the object passes `validate`, and with status 4 exactly when
that finds the configuration invalid. -/
theorem C68_validate (cls : Class) (other : CliMethod → BState → VDict → Except PyErr (Option Chars)) (fs : Chars → Option Chars) (environ : VDict)
    {c config : Chars} {native : Option Chars} {os ts : List Chars} (hne : c ≠ []) (hc : TextOf fs c config)
    (ht : List.Forall₂ (TextOf fs) os ts) {st : BState}
    (hst : construct cls (some (.text config)) none (.list (ts.map .text)) (some environ) = .ok st) :
    (cli cls other fs environ ⟨some c, native, os, .validate, []⟩ = .done [] ↔ validate cls st.config = .ok ()) ∧
      (cli cls other fs environ ⟨some c, native, os, .validate, []⟩ = .exit 4 ↔ validate cls st.config = .error .validation) := by
  have hsrc : cliSource fs ⟨some c, native, os, .validate, []⟩ = some (.inl config) := by
    unfold cliSource
    cases c with
    | nil => exact absurd rfl hne
    | cons x xs =>
      simp only [given]
      rw [cliLoad_iff.2 hc]
      rfl
  have e : cli cls other fs environ ⟨some c, native, os, .validate, []⟩ = cliEnd (do validate cls st.config; pure none) := by
    unfold cli
    rw [hsrc]
    dsimp only
    rw [mapM_cliLoad.2 ht]
    simp only [cliArguments, cliInstance]
    rw [hst]
    rfl
  rw [e]
  cases validate cls st.config with
  | ok u => simp [cliEnd, bind, Except.bind, pure, Except.pure, cliPrint]
  | error x => cases x <;> simp [cliEnd, bind, Except.bind]

/-- **C68.** The program uses status 1 exactly when the configuration (or native configuration) is missing or cannot be opened, or a template
cannot be opened. -/
theorem C68_missing (cls : Class) (other : CliMethod → BState → VDict → Except PyErr (Option Chars)) (fs : Chars → Option Chars) (environ : VDict)
    (a : CliArgs) : cli cls other fs environ a = .exit 1 ↔
      (match given a.config, given a.native with
        | some o, _ => ∀ t, ¬ TextOf fs o t
        | none, some o => ∀ t, ¬ TextOf fs o t
        | none, none => True) ∨ ∃ o ∈ a.templates, ∀ t, ¬ TextOf fs o t := by
  have hl : ∀ o, (∀ t, ¬ TextOf fs o t) ↔ cliLoad fs o = none := by
    intro o
    constructor
    · intro h
      cases e : cliLoad fs o with
      | none => rfl
      | some t => exact absurd (cliLoad_iff.1 e) (h t)
    · intro h t ht
      rw [cliLoad_iff.2 ht] at h; cases h
  have hm : ∀ os : List Chars, (∃ o ∈ os, ∀ t, ¬ TextOf fs o t) ↔ os.mapM (cliLoad fs) = none := by
    intro os
    induction os with
    | nil => simp
    | cons o os ih =>
      rw [List.mapM_cons]
      rw [show (∃ x ∈ o :: os, ∀ t, ¬ TextOf fs x t) ↔ cliLoad fs o = none ∨ os.mapM (cliLoad fs) = none from by
        rw [← ih, ← hl o]; simp]
      cases h1 : cliLoad fs o with
      | none => simp
      | some t =>
        cases h2 : os.mapM (cliLoad fs) with
        | none => simp
        | some ts => simp
  have hend : ∀ x, cliEnd x ≠ .exit 1 := by
    intro x
    cases x with
    | ok o => simp [cliEnd]
    | error e => cases e <;> simp [cliEnd]
  have hsrc : (match given a.config, given a.native with
        | some o, _ => ∀ t, ¬ TextOf fs o t
        | none, some o => ∀ t, ¬ TextOf fs o t
        | none, none => True) ↔ cliSource fs a = none := by
    unfold cliSource
    cases given a.config with
    | some o => simp [hl]
    | none =>
      cases given a.native with
      | some o => simp [hl]
      | none => simp
  rw [hsrc, hm]
  unfold cli
  cases h1 : cliSource fs a with
  | none => simp
  | some src =>
    dsimp only
    cases h2 : a.templates.mapM (cliLoad fs) with
    | none => simp
    | some ts =>
      dsimp only
      simp only [reduceCtorEq, or_self, iff_false]
      cases cliArguments a.args [] with
      | none => simp
      | some kw =>
        dsimp only
        cases cliInstance cls environ ts src with
        | error e => cases e <;> simp
        | ok st => exact hend _

/-- **C68.** An argument without exactly one equals sign ends the program with status 3 before anything is converted or written. -/
theorem C68_refused (cls : Class) (other : CliMethod → BState → VDict → Except PyErr (Option Chars)) (fs : Chars → Option Chars) (environ : VDict)
    (a : CliArgs) : cli cls other fs environ a = .exit 3 ↔ cli cls other fs environ a ≠ .exit 1 ∧ ∃ x ∈ a.args, x.count '=' ≠ 1 := by
  have hend : ∀ x, cliEnd x ≠ .exit 3 := by
    intro x
    cases x with
    | ok o => simp [cliEnd]
    | error e => cases e <;> simp [cliEnd]
  have ha : (∃ x ∈ a.args, x.count '=' ≠ 1) ↔ cliArguments a.args [] = none := by
    rw [← Option.not_isSome_iff_eq_none, cliArguments_some]
    simp
  rw [ha]
  unfold cli
  cases cliSource fs a with
  | none => simp
  | some src =>
    dsimp only
    cases a.templates.mapM (cliLoad fs) with
    | none => simp
    | some ts =>
      dsimp only
      cases cliArguments a.args [] with
      | none => simp
      | some kw =>
        dsimp only
        cases cliInstance cls environ ts src with
        | error e => cases e <;> simp
        | ok st => simpa using hend _

/-! ## Cases -/

/-- arguments: the last value of a key counts, and blanks are part of it -/
example : cliArguments ["files=True".toList, "name=a b".toList, "files=0".toList] [] = some [("files", .bool false), ("name", .str "a b")] := by
  decide +kernel

/-- an argument with two equals signs is refused although Python would accept the text -/
example : cliArguments ["name=a=b".toList] [] = none := by decide +kernel

deriving instance DecidableEq for BState

/-- a class whose `json.loads` knows one text: a VPN whose port is to be filled in from the environment -/
def cliClass : Class := openvpnClass sampleEnv (fun _ => .ok ()) (fun _ => false) (fun t =>
  if t = "{ vpn }".toList then some (.dict [("openvpn", .list [.dict [("name", .str "test"), ("port", .str "{{ PORT }}")]])])
  else if t = "{ mode }".toList then some (.dict [("openvpn", .list [.dict [("name", .str "test"), ("mode", .str "server")]])]) else none)

/-- one template from a file, the configuration on the command line, a variable from the environment: the hypotheses of `C68_render` hold,
and this is printed -/
example : cli cliClass (fun _ _ _ => .error .typeError) (fun f => if f = "t.json".toList then some "{ mode }".toList else none)
    [("PORT", .str "1195")] ⟨some " { vpn }".toList, none, ["t.json".toList], .render, ["files=0".toList]⟩ =
      .done "# openvpn config: test\n\nmode server\nport 1195\n\n".toList := by
  rw [show ["files=0".toList] = (if false then [] else ["files=0".toList]) from rfl, C68_render cliClass _ _ _ (config := "{ vpn }".toList)
    (ts := ["{ mode }".toList]) (st := ⟨[("openvpn", .list [.dict [("name", .str "test"), ("mode", .str "server"), ("port", .str "1195")]])], none⟩)
    false (by decide +kernel) (.inl ⟨by decide +kernel, by decide +kernel⟩) (.cons (.inr ⟨by decide +kernel, by decide +kernel⟩) .nil) (by decide +kernel)]
  decide +kernel

end NJ
