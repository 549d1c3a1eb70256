import Verif.CliMore
import Verif.PropsCli
import Verif.PropsMeaning
import Verif.PropsVars
import Verif.PropsZtArchive

/-!
# C96: the methods of the command line program, and its output given back to it
-/

namespace NJ

/-- the text of a document that the program prints: `json.dumps` without keyword arguments -/
def PlainDumps (dumps : VDict → VDict → Except PyErr Chars) : Prop := ∀ d, dumps [] d = .ok (jsonDumps (.dict d))

/-- the status, or the text, in the terms of `Cli.lean` -/
def CliResult.plain : CliResult → Option CliEnd
  | .exit n => some (.exit n)
  | .crash e => some (.crash e)
  | .done .nothing [] => some (.done [])
  | .done (.text t) [] => some (.done (t ++ ['\n']))
  | .done _ _ => none

section
variable {cls : Class} {dumps : VDict → VDict → Except PyErr Chars} {fs : Chars → Option Chars} {environ : VDict}

/-- the program once the texts are read, the arguments split and the object made -/
theorem cliRun_made {a : CliArgs} {src : Chars ⊕ Chars} {ts : List Chars} {kw : VDict} {st : BState} (h1 : cliSource fs a = some src)
    (h2 : a.templates.mapM (cliLoad fs) = some ts) (h3 : cliArguments a.args [] = some kw) (h4 : cliInstance cls environ ts src = .ok st) :
    cliRun cls dumps fs environ a = match cliMethod cls dumps a.method st kw with
      | .ok (out, ops) => .done out ops
      | .error .validation => .exit 4
      | .error .typeError => .exit 5
      | .error e => .crash e := by
  unfold cliRun
  rw [h1]; dsimp only
  rw [h2]; dsimp only
  rw [h3]; dsimp only
  rw [h4]
  rfl

theorem cliSource_config {c config : Chars} {native : Option Chars} {os as : List Chars} {m : CliMethod} (hne : c ≠ []) (hc : TextOf fs c config) :
    cliSource fs ⟨some c, native, os, m, as⟩ = some (.inl config) := by
  unfold cliSource
  cases c with
  | nil => exact absurd rfl hne
  | cons x xs =>
    simp only [given]
    rw [cliLoad_iff.2 hc]
    rfl

/-- `render` and `validate` are as in `Cli.lean`, about which C68 is -/
theorem C96_extends (other : CliMethod → BState → VDict → Except PyErr (Option Chars)) (a : CliArgs) (hm : a.method = .render ∨ a.method = .validate) :
    (cliRun cls dumps fs environ a).plain = some (cli cls other fs environ a) := by
  unfold cliRun cli
  cases cliSource fs a with
  | none => rfl
  | some src =>
    dsimp only
    cases a.templates.mapM (cliLoad fs) with
    | none => rfl
    | some ts =>
      dsimp only
      cases cliArguments a.args [] with
      | none => rfl
      | some kw =>
        dsimp only
        cases cliInstance cls environ ts src with
        | error e => cases e <;> rfl
        | ok st =>
          dsimp only
          rcases hm with hm | hm
          · rw [hm]
            unfold cliMethod cliCall
            dsimp only
            by_cases hk : (kw.all fun p => decide (p.1 = "files")) = true
            · rw [if_pos hk, if_pos hk]
              cases (render cls ((Dict.get? kw "files").getD (.bool true)).truthy st).2 with
              | ok t => cases t <;> rfl
              | error e => cases e <;> rfl
            · rw [if_neg hk, if_neg hk]; rfl
          · rw [hm]
            unfold cliMethod cliCall
            dsimp only
            by_cases hk : kw.isEmpty = true
            · rw [if_pos hk, if_pos hk]
              cases validate cls st.config with
              | ok t => rfl
              | error e => cases e <;> rfl
            · rw [if_neg hk, if_neg hk]; rfl

/-- no argument but the ones of `write` reach the disk, and only after everything else has succeeded -/
theorem C96_only_write (a : CliArgs) (out : CliOut) (ops : List FsOp) (h : cliRun cls dumps fs environ a = .done out ops) (ho : ops ≠ []) : a.method = .write := by
  unfold cliRun at h
  split at h
  · cases h
  split at h
  · cases h
  split at h
  · cases h
  split at h
  · cases h
  · cases h
  rename_i kw _ st _
  split at h
  · rename_i o p hm
    cases h
    unfold cliMethod at hm
    cases hm' : a.method with
    | write => rfl
    | render =>
      rw [hm'] at hm; dsimp only at hm
      split at hm
      · obtain ⟨t, _, hm⟩ := bind_ok_iff.1 hm
        cases hm; exact absurd rfl ho
      · cases hm
    | validate =>
      rw [hm'] at hm; dsimp only at hm
      split at hm
      · obtain ⟨t, _, hm⟩ := bind_ok_iff.1 hm
        cases hm; exact absurd rfl ho
      · cases hm
    | json =>
      rw [hm'] at hm; dsimp only at hm
      split at hm
      · cases hm
      · obtain ⟨t, _, hm⟩ := bind_ok_iff.1 hm
        obtain ⟨t, _, hm⟩ := bind_ok_iff.1 hm
        cases hm; exact absurd rfl ho
    | generate =>
      rw [hm'] at hm; dsimp only at hm
      split at hm
      · obtain ⟨t, _, hm⟩ := bind_ok_iff.1 hm
        cases hm; exact absurd rfl ho
      · cases hm
  · cases h
  · cases h
  · cases h

/-- **C96**, `--method generate`: prints the archive that `generate` returns, and nothing else -/
theorem C96_generate {c config : Chars} {native : Option Chars} {os ts : List Chars} (hne : c ≠ []) (hc : TextOf fs c config)
    (ht : List.Forall₂ (TextOf fs) os ts) {st : BState} (hst : construct cls (some (.text config)) none (.list (ts.map .text)) (some environ) = .ok st) :
    cliRun cls dumps fs environ ⟨some c, native, os, .generate, []⟩ = match (generate cls st).2 with
      | .ok l => .done (.archive l) []
      | .error .validation => .exit 4
      | .error .typeError => .exit 5
      | .error e => .crash e := by
  rw [cliRun_made (ts := ts) (kw := []) (st := st) (cliSource_config hne hc) (mapM_cliLoad.2 ht) rfl hst]
  unfold cliMethod
  dsimp only
  rw [if_pos (show (List.isEmpty ([] : VDict)) = true from rfl)]
  cases (generate cls st).2 with
  | ok l => rfl
  | error e => cases e <;> rfl

/-- **C96**, `--method json`: prints the JSON text of the document that `json()` returns; with `validate=0` also the one of a configuration that is not valid -/
theorem C96_json (hd : PlainDumps dumps) {c config : Chars} {native : Option Chars} {os ts : List Chars} (check : Bool) (hne : c ≠ []) (hc : TextOf fs c config)
    (ht : List.Forall₂ (TextOf fs) os ts) {st : BState} (hst : construct cls (some (.text config)) none (.list (ts.map .text)) (some environ) = .ok st) :
    cliRun cls dumps fs environ ⟨some c, native, os, .json, if check then [] else ["validate=0".toList]⟩ =
      match (if check then validate cls st.config else .ok ()) with
      | .ok () => .done (.text (jsonDumps (.dict (Dict.set st.config "type" (.str "DeviceConfiguration"))))) []
      | .error .validation => .exit 4
      | .error .typeError => .exit 5
      | .error e => .crash e := by
  have text : ∀ d : VDict, cliText (jsonDumps (.dict d)) = .text (jsonDumps (.dict d)) := by
    intro d
    cases d with
    | nil => rfl
    | cons p d => rfl
  cases check with
  | true =>
    rw [cliRun_made (ts := ts) (kw := []) (st := st) (cliSource_config hne hc) (mapM_cliLoad.2 ht) rfl hst]
    unfold cliMethod
    dsimp only
    rw [if_neg (show ¬ Dict.has ([] : VDict) "self" = true by decide), if_pos rfl,
      show jsonDocument cls ((Dict.get? ([] : VDict) "validate").getD (.bool true)).truthy st = jsonDoc cls st from rfl]
    unfold jsonDoc
    cases validate cls st.config with
    | ok u =>
      change (match (do let t ← dumps [] (Dict.set st.config "type" (.str "DeviceConfiguration")); pure (cliText t, ([] : List FsOp)) : Except PyErr (CliOut × List FsOp)) with
        | .ok (out, ops) => CliResult.done out ops | .error .validation => .exit 4 | .error .typeError => .exit 5 | .error e => .crash e) = _
      rw [hd]
      change CliResult.done (cliText _) _ = _
      rw [text]
    | error e => cases e <;> rfl
  | false =>
    rw [show (if false = true then [] else ["validate=0".toList]) = ["validate=0".toList] from rfl]
    rw [cliRun_made (ts := ts) (kw := [("validate", .bool false)]) (st := st) (cliSource_config hne hc) (mapM_cliLoad.2 ht)
      (show cliArguments ["validate=0".toList] [] = some [("validate", .bool false)] by decide +kernel) hst]
    unfold cliMethod
    dsimp only
    rw [if_neg (show ¬ Dict.has ([("validate", .bool false)] : VDict) "self" = true by decide)]
    change (match (do let t ← dumps [] (Dict.set st.config "type" (.str "DeviceConfiguration")); pure (cliText t, ([] : List FsOp)) : Except PyErr (CliOut × List FsOp)) with
      | .ok (out, ops) => CliResult.done out ops | .error .validation => .exit 4 | .error .typeError => .exit 5 | .error e => .crash e) = _
    rw [hd]
    change CliResult.done (cliText _) _ = _
    rw [text]
    rfl

/-- **C96**, `--method write --args name=NAME path=PATH` (texts that are not taken for booleans): prints nothing; if `generate` succeeds, the file PATH/NAME.tar.gz holds
afterwards the archive it returns, whatever was there before, and every other file is as it was; otherwise nothing is done to files -/
theorem C96_write {c config : Chars} {native : Option Chars} {os ts : List Chars} {name path : Chars} (hne : c ≠ []) (hc : TextOf fs c config)
    (ht : List.Forall₂ (TextOf fs) os ts) {st : BState} (hst : construct cls (some (.text config)) none (.list (ts.map .text)) (some environ) = .ok st)
    (h1 : '=' ∉ name ∧ '=' ∉ path) (h2 : cliValue name = .str (String.ofList name)) (h3 : cliValue path = .str (String.ofList path)) :
    cliRun cls dumps fs environ ⟨some c, native, os, .write, ["name=".toList ++ name, "path=".toList ++ path]⟩ = (match (generate cls st).2 with
      | .ok l => .done .nothing [.truncate (archivePath name path), .append (archivePath name path) l]
      | .error .validation => .exit 4
      | .error .typeError => .exit 5
      | .error e => .crash e) ∧
    ∀ l, (generate cls st).2 = .ok l → ∀ (disk : Fs) q, ([.truncate (archivePath name path), .append (archivePath name path) l].foldl FsOp.run disk) q =
      if q = archivePath name path then some l else disk q := by
  have hk : cliArguments ["name=".toList ++ name, "path=".toList ++ path] [] = some [("name", .str (String.ofList name)), ("path", .str (String.ofList path))] := by
    have e1 : ("name=".toList ++ name).count '=' = 1 := by
      rw [List.count_append, List.count_eq_zero_of_not_mem h1.1]; decide +kernel
    have e2 : ("path=".toList ++ path).count '=' = 1 := by
      rw [List.count_append, List.count_eq_zero_of_not_mem h1.2]; decide +kernel
    have s1 : splitOn '=' ("name=".toList ++ name) = ["name".toList, name] := by
      rw [show "name=".toList ++ name = "name".toList ++ '=' :: name from rfl, splitOn_append _ _ (by decide), splitOn_single _ h1.1]
    have s2 : splitOn '=' ("path=".toList ++ path) = ["path".toList, path] := by
      rw [show "path=".toList ++ path = "path".toList ++ '=' :: path from rfl, splitOn_append _ _ (by decide), splitOn_single _ h1.2]
    rw [cliArguments, if_neg (by rw [e1]; decide), s1]
    dsimp only
    rw [cliArguments, if_neg (by rw [e2]; decide), s2]
    dsimp only
    rw [cliArguments, h2, h3]
    rfl
  refine ⟨?_, ?_⟩
  · rw [cliRun_made (ts := ts) (st := st) (cliSource_config hne hc) (mapM_cliLoad.2 ht) hk hst]
    unfold cliMethod writeOps
    dsimp only
    rw [show Dict.get? ([("name", Val.str (String.ofList name)), ("path", .str (String.ofList path))] : VDict) "name" = some (.str (String.ofList name)) from rfl,
      show (List.all ([("name", Val.str (String.ofList name)), ("path", .str (String.ofList path))] : VDict) fun p => decide (p.1 = "name" ∨ p.1 = "path")) = true from rfl]
    dsimp only
    cases hg : generate cls st with
    | mk s r =>
      cases r with
      | ok l =>
        have e : (pyStr cls.reprC (.str (String.ofList name))).toList = name := by
          show (String.ofList name).toList = name
          exact String.toList_ofList
        have e2 : ((Dict.get? ([("name", Val.str (String.ofList name)), ("path", .str (String.ofList path))] : VDict) "path").getD (.str "./")) = .str (String.ofList path) := rfl
        rw [e2, e]
        dsimp only
        rw [String.toList_ofList]
        rfl
      | error e => cases e <;> rfl
  · intro l _ disk q
    simp only [List.foldl_cons, List.foldl_nil, FsOp.run]
    split
    · rfl
    · rfl

/-! ## The output of `json` given back -/

theorem set_twice (d : VDict) (k : String) (v : Val) : Dict.set (Dict.set d k v) k v = Dict.set d k v := by
  induction d with
  | nil => simp [Dict.set]
  | cons p d ih =>
    obtain ⟨k', w⟩ := p
    rw [Dict.set]
    split
    · rw [Dict.set, if_pos (by assumption)]
    · rw [Dict.set, if_neg (by assumption), ih]

/-- the methods on two objects that mean the same -/
theorem cliMethod_beside {m : String × Val → Bool} (hb : BlindClass m cls) {st st' : BState} (h : BesideState m st st')
    (ht : Dict.set st.config "type" (.str "DeviceConfiguration") = Dict.set st'.config "type" (.str "DeviceConfiguration")) (q : CliMethod) (kw : VDict) :
    cliMethod cls dumps q st kw = cliMethod cls dumps q st' kw := by
  unfold cliMethod jsonDocument jsonDoc writeOps
  cases q with
  | render => dsimp only; rw [(render_beside hb _ h).1]
  | validate => dsimp only; rw [validate_beside hb h.1]
  | json => dsimp only; rw [validate_beside hb h.1, ht]
  | generate => dsimp only; rw [(generate_beside hb h).1]
  | write =>
    dsimp only
    have hg := (generate_beside hb h).1
    generalize generate cls st = x at hg ⊢
    generalize generate cls st' = x' at hg ⊢
    obtain ⟨s, r⟩ := x
    obtain ⟨s', r'⟩ := x'
    cases hg
    cases r with
    | ok l => rfl
    | error e => rfl

/-- no text of the configuration names a variable of the environment -/
def Settled (environ : VDict) (c : VDict) : Prop := ∀ s ∈ strings (.dict c), ∀ p : Ph, PhWF p → p.text <:+: s → Dict.get? environ (String.ofList p.name) = none

theorem strings_set {k : String} {x : String} : ∀ {c : VDict} {s : Chars}, s ∈ stringsD (Dict.set c k (.str x)) → s ∈ stringsD c ∨ s = x.toList := by
  intro c
  induction c with
  | nil => intro s h; right; simpa [Dict.set, stringsD, strings] using h
  | cons p c ih =>
    obtain ⟨k', w⟩ := p
    intro s h
    rw [Dict.set] at h
    split at h
    · rw [stringsD, List.mem_append] at h
      rcases h with h | h
      · right; simpa [strings] using h
      · left; rw [stringsD]; exact List.mem_append_right _ h
    · rw [stringsD, List.mem_append] at h
      rcases h with h | h
      · left; rw [stringsD]; exact List.mem_append_left _ h
      · rcases ih h with h | h
        · left; rw [stringsD]; exact List.mem_append_right _ h
        · exact .inr h

theorem settled_doc {c : VDict} (h : Settled environ c) (reprC : Val → String) :
    evaluateConfig reprC (some environ) (Dict.set c "type" (.str "DeviceConfiguration")) = .ok (Dict.set c "type" (.str "DeviceConfiguration")) := by
  have hv := C17_irrelevant_context reprC environ (.dict (Dict.set c "type" (.str "DeviceConfiguration"))) (by
    intro s hs p hp hi
    rcases strings_set (c := c) (by simpa [strings] using hs) with h' | rfl
    · exact h s (by simpa [strings] using h') p hp hi
    · exfalso
      have h2 : '{' ∈ p.text := by simp [Ph.text]
      have := hi.subset h2
      revert this
      decide +kernel)
  rw [evalVars] at hv
  obtain ⟨r, h1, h2⟩ := bind_ok_iff.1 hv
  cases h2
  unfold evaluateConfig
  split
  · rfl
  · rfl
  · rename_i heq; cases heq; exact h1

theorem jsonLoads_printed {v : Val} (hw : v.WF) : jsonLoads (jsonDumps v ++ ['\n']) = some v := by
  have h := reads_dumpV (st := ⟨escChar, none⟩) escChar_ok hw 0 ((jsonDumps v ++ ['\n']).length + 1) ['\n'] (by
    unfold jsonDumps
    rw [List.length_append]; omega) (.inr ⟨'\n', [], rfl, by simp⟩)
  have hs := skipWs_dumpV ⟨escChar, none⟩ 0 v ['\n']
  unfold jsonLoads
  rw [show jsonDumps v = dumpV ⟨escChar, none⟩ 0 v from rfl] at h ⊢
  rw [hs, h]
  rfl

/-- the text of an object begins and ends with braces -/
theorem dict_text {d : VDict} (h : d ≠ []) : ['{'] <+: jsonDumps (.dict d) ∧ (jsonDumps (.dict d)).getLast? = some '}' := by
  cases d with
  | nil => exact absurd rfl h
  | cons p d =>
    obtain ⟨k, v⟩ := p
    unfold jsonDumps
    rw [dumpV]
    refine ⟨⟨_, rfl⟩, ?_⟩
    rw [← List.cons_append, ← List.append_assoc, ← List.append_assoc, ← List.append_assoc, ← List.append_assoc, ← List.append_assoc, List.getLast?_append]
    rfl

/-- the parameters of the methods; `json` passes further ones on -/
def methodParameters : CliMethod → Option (List String)
  | .render => some ["files"]
  | .validate => some []
  | .generate => some []
  | .write => some ["name", "path"]
  | .json => none

/-- **C96**, arguments: one that the method does not have, or `write` without a name, ends the program with status 5, and nothing is written -/
theorem C96_arguments {c config : Chars} {native : Option Chars} {os ts : List Chars} {as : List Chars} {kw : VDict} (m : CliMethod) (hne : c ≠ [])
    (hc : TextOf fs c config) (ht : List.Forall₂ (TextOf fs) os ts) (hk : cliArguments as [] = some kw) {st : BState}
    (hst : construct cls (some (.text config)) none (.list (ts.map .text)) (some environ) = .ok st)
    (hbad : (∃ l, methodParameters m = some l ∧ ∃ k ∈ Dict.keys kw, k ∉ l) ∨ (m = .write ∧ "name" ∉ Dict.keys kw)) :
    cliRun cls dumps fs environ ⟨some c, native, os, m, as⟩ = .exit 5 := by
  rw [cliRun_made (ts := ts) (kw := kw) (st := st) (cliSource_config hne hc) (mapM_cliLoad.2 ht) hk hst]
  have hE : cliMethod cls dumps m st kw = .error .typeError := by
    rcases hbad with ⟨l, hl, k, hk, hkl⟩ | ⟨rfl, hn⟩
    · obtain ⟨p, hp, rfl⟩ := List.mem_map.1 hk
      cases m with
      | render =>
        cases hl
        have : kw.all (fun p => decide (p.1 = "files")) = false := List.all_eq_false.2 ⟨p, hp, by simpa using hkl⟩
        unfold cliMethod
        rw [if_neg (by rw [this]; simp)]
      | validate =>
        cases kw with
        | nil => cases hp
        | cons q r => rfl
      | generate =>
        cases kw with
        | nil => cases hp
        | cons q r => rfl
      | json => cases hl
      | write =>
        cases hl
        have : kw.all (fun p => decide (p.1 = "name" ∨ p.1 = "path")) = false := List.all_eq_false.2 ⟨p, hp, by simpa using hkl⟩
        unfold cliMethod
        rw [this]
        cases Dict.get? kw "name" <;> rfl
    · have : Dict.get? kw "name" = none := (Dict.get?_eq_none_iff kw "name").2 hn
      unfold cliMethod
      rw [this]
  rw [hE]

/-- **C96**, pipelines: what `--method json` prints, given as the configuration on the command line or in a file (with the line break at its end, without the templates),
makes every method end as with the configuration and templates it was made of: the same output, the same files written, the same status. -/
theorem C96_again {env : Env} {sh : Val → Bool} {dsa : Bool} {schema : VDict} {packages : Bool} (hx : (cls, schema, packages) ∈ backendsWithSchema env sh dsa)
    (hd : PlainDumps dumps) {c config : Chars} {native : Option Chars} {os ts : List Chars} (hne : c ≠ []) (hc : TextOf fs c config)
    (ht : List.Forall₂ (TextOf fs) os ts) {st : BState} (hst : construct cls (some (.text config)) none (.list (ts.map .text)) (some environ) = .ok st)
    (hw : (Val.dict st.config).WF) (hp : packages = true → ∀ l, Dict.get? st.config "type" ≠ some (.list l)) (hs : Settled environ st.config)
    {t : Chars} (hj : cliRun cls dumps fs environ ⟨some c, native, os, .json, []⟩ = .done (.text t) []) (o : Chars)
    (ho : o = t ++ ['\n'] ∨ (o ≠ [] ∧ ¬ ['{'] <+: strip o ∧ fs o = some (t ++ ['\n']))) (native' : Option Chars) (q : CliMethod) (as : List Chars) :
    cliRun cls dumps fs environ ⟨some o, native', [], q, as⟩ = cliRun cls dumps fs environ ⟨some c, native, os, q, as⟩ := by
  have hb : BlindClass (fun p => decide (p.1 ∈ definedKeys schema) || (packages && isJsonList p.2)) cls := blind_backends hx
  have hl : cls.loads = jsonLoads := by
    simp only [backendsWithSchema, List.mem_cons, List.not_mem_nil, or_false, Prod.mk.injEq] at hx
    rcases hx with hx | hx | hx | hx | hx <;> rw [hx.1] <;> rfl
  have hty : "type" ∉ definedKeys schema := by
    have : ∀ s ∈ schemas, "type" ∉ definedKeys s := by decide +kernel
    simp only [backendsWithSchema, List.mem_cons, List.not_mem_nil, or_false, Prod.mk.injEq] at hx
    rcases hx with hx | hx | hx | hx | hx <;> rw [hx.2.1] <;> exact this _ (by simp [schemas])
  -- the text
  have ht' : t = jsonDumps (.dict (Dict.set st.config "type" (.str "DeviceConfiguration"))) := by
    have := C96_json (cls := cls) (fs := fs) (environ := environ) (native := native) hd true hne hc ht hst
    rw [if_pos rfl, hj, if_pos rfl] at this
    split at this
    · cases this; rfl
    · cases this
    · cases this
    · cases this
  generalize hdoc : Dict.set st.config "type" (.str "DeviceConfiguration") = doc at ht'
  have hwd : (Val.dict doc).WF := by
    rw [← hdoc]
    cases hw with
    | dict _ hd' hv =>
      refine .dict _ (Dict.nodup_set hd' _ _) (fun p hp => ?_)
      have := Dict.get?_of_mem (Dict.nodup_set hd' _ _) hp
      rw [Dict.get?_set] at this
      split at this
      · rw [← Option.some.inj this]
        exact .str _
      · exact hv (p.1, p.2) (Dict.mem_of_get? this)
  have hstart : ['{'] <+: t ∧ t.getLast? = some '}' := by
    rw [ht']
    exact dict_text fun e => by
      have := Dict.get?_set_self st.config "type" (.str "DeviceConfiguration")
      rw [hdoc, e] at this
      cases this
  -- the instance
  have made : ∀ text, text = t ∨ text = t ++ ['\n'] → construct cls (some (.text text)) none (.list []) (some environ) = .ok ⟨doc, none⟩ := by
    intro text h
    have hload : load cls (.text text) = .ok doc := by
      unfold load
      dsimp only
      rw [hl]
      rcases h with rfl | rfl
      · rw [ht', C75_json _ hwd]
      · rw [ht', jsonLoads_printed hwd]
    unfold construct
    dsimp only
    rw [hload]
    have he : evaluateConfig cls.reprC (some environ) doc = .ok doc := by rw [← hdoc]; exact settled_doc hs _
    change (mergeTemplates cls doc (.list []) >>= fun m => evaluateConfig cls.reprC (some environ) m >>= fun e => pure (⟨e, none⟩ : BState)) = _
    rw [show mergeTemplates cls doc (.list []) = .ok doc from rfl]
    change (evaluateConfig cls.reprC (some environ) doc >>= fun e => pure (⟨e, none⟩ : BState)) = _
    rw [he]
    rfl
  have hinter : st.inter = none := by
    unfold construct at hst
    obtain ⟨_, _, hst⟩ := bind_ok_iff.1 hst
    obtain ⟨_, _, hst⟩ := bind_ok_iff.1 hst
    obtain ⟨_, _, hst⟩ := bind_ok_iff.1 hst
    cases hst
    rfl
  -- the text the option stands for
  obtain ⟨text, hto, htext⟩ : ∃ text, TextOf fs o text ∧ (text = t ∨ text = t ++ ['\n']) := by
    rcases ho with rfl | ⟨_, h1, h2⟩
    · have e : strip (t ++ ['\n']) = t := by
        rw [show ['\n'] = List.replicate 1 '\n' from rfl, strip_append_breaks t 1]
        refine strip_eq_self (fun c hc => ?_) fun c hc => ?_
        · obtain ⟨r, hr⟩ := hstart.1
          rw [← hr] at hc
          cases hc; decide
        · rw [hstart.2] at hc
          cases hc; decide
      exact ⟨t, .inl ⟨by rw [e]; exact hstart.1, e.symm⟩, .inl rfl⟩
    · exact ⟨_, .inr ⟨h1, h2⟩, .inr rfl⟩
  have hone : o ≠ [] := by
    rcases ho with rfl | h
    · simp
    · exact h.1
  cases hk : cliArguments as [] with
  | none =>
    unfold cliRun
    rw [cliSource_config hone hto, cliSource_config hne hc]
    dsimp only
    rw [mapM_cliLoad.2 ht, hk]
    rfl
  | some kw =>
    rw [cliRun_made (ts := []) (st := ⟨doc, none⟩) (cliSource_config hone hto) rfl hk (made text htext),
      cliRun_made (ts := ts) (st := st) (cliSource_config hne hc) (mapM_cliLoad.2 ht) hk hst]
    dsimp only
    rw [cliMethod_beside hb (st := ⟨doc, none⟩) (st' := st) ⟨?_, hinter.symm⟩ ?_]
    · show doc.filter _ = st.config.filter _
      rw [← hdoc]
      refine set_dropped ?_ fun w hw => ?_
      · rw [decide_eq_false hty, Bool.false_or]
        cases packages <;> rfl
      · rw [decide_eq_false hty, Bool.false_or]
        cases packages with
        | false => rfl
        | true => cases w with
          | list l => exact absurd hw (hp rfl l)
          | _ => rfl
    · dsimp only
      rw [← hdoc, set_twice]

end

end NJ
