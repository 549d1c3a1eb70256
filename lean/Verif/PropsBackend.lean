import Verif.Backend
import Verif.PropsFiles

/-!
# Properties of the life cycle of a backend object: C26-C29, C31, C32, C69
-/

namespace NJ

/-! ## What a successful `render` does -/

theorem render_ok {cls : Class} {f : Bool} {st st' : BState} {t : Chars} (h : render cls f st = (st', .ok t)) :
    validate cls st.config = .ok () ∧ ∃ st1, ensureIntermediate cls st = (st1, .ok ()) ∧ renderTail cls f st1 = (st', .ok t) := by
  unfold render at h
  split at h
  · cases h
  · next hv =>
    refine ⟨hv, ?_⟩
    split at h
    · cases h
    · next st1 he => exact ⟨st1, he, h⟩

theorem convLoop_inter (cls : Class) (cs : List Conv) (config inter : VDict) : ∃ i, (convLoop cls cs config inter).1.inter = some i := by
  induction cs generalizing config inter with
  | nil => exact ⟨_, rfl⟩
  | cons c cs ih =>
    unfold convLoop
    split
    · exact ih _ _
    · split
      · exact ⟨_, rfl⟩
      · split
        · exact ih _ _
        · split
          · exact ⟨_, rfl⟩
          · exact ih _ _

theorem ensure_inter {cls : Class} {st st1 : BState} (h : ensureIntermediate cls st = (st1, .ok ())) : ∃ i, st1.inter = some i := by
  unfold ensureIntermediate at h
  split at h
  · next i hi => cases h; exact ⟨i, hi⟩
  · unfold toIntermediate at h
    split at h
    · cases h
    · obtain ⟨i, hi⟩ := convLoop_inter cls cls.convs st.config []
      rw [h] at hi
      exact ⟨i, hi⟩

theorem renderTail_ok {cls : Class} {f : Bool} {st st' : BState} {t : Chars} (h : renderTail cls f st = (st', .ok t)) :
    ∃ c, deduplicateFiles st.config = .ok c ∧ st' = ⟨c, st.inter⟩ ∧ ∃ out, cls.native (st.inter.getD []) = .ok out ∧
      ((f = false ∧ t = out) ∨ (f = true ∧ ∃ s, filesSection c = .ok s ∧ t = out ++ s)) := by
  unfold renderTail at h
  split at h
  · cases h
  · next c hc =>
    obtain ⟨h0, h9⟩ := (Prod.mk.injEq _ _ _ _).mp h
    clear h
    subst h0
    obtain ⟨out, ho, h⟩ := bind_ok_iff.1 h9
    refine ⟨c, hc, rfl, out, ho, ?_⟩
    cases f with
    | false => cases h; exact .inl ⟨rfl, rfl⟩
    | true =>
      obtain ⟨s, hs, h⟩ := bind_ok_iff.1 h
      cases h
      exact .inr ⟨rfl, s, hs, rfl⟩

/-! ## C26 -/

/-- `render` called `n` times in a row: the texts returned and the final state -/
def renderMany (cls : Class) (f : Bool) : Nat → BState → BState × List (Except PyErr Chars)
  | 0, st => (st, [])
  | n + 1, st => ((renderMany cls f n (render cls f st).1).1, (render cls f st).2 :: (renderMany cls f n (render cls f st).1).2)

theorem render_again {cls : Class} {f : Bool} {st st1 : BState} {t : Chars} (h : render cls f st = (st1, .ok t))
    (hv : validate cls st1.config = .ok ()) : render cls f st1 = (st1, .ok t) := by
  obtain ⟨_, st2, he, ht⟩ := render_ok h
  obtain ⟨c, hc, rfl, out, ho, ho'⟩ := renderTail_ok ht
  obtain ⟨i, hi⟩ := ensure_inter he
  have hd := C21_idempotent _ _ hc
  unfold render
  rw [hv]
  simp only [ensureIntermediate, hi]
  unfold renderTail
  rw [hd]
  rw [hi] at ho
  simp only [ho]
  rcases ho' with ⟨rfl, rfl⟩ | ⟨rfl, s, hs, rfl⟩
  · rfl
  · simp only [hs]; rfl

/-- C26: if `render` succeeds and the configuration held by the object afterwards is still valid, then any number of further calls
return the same text and leave the object as it is. -/
theorem C26_repeatable (cls : Class) (f : Bool) (st st1 : BState) (t : Chars) (h : render cls f st = (st1, .ok t))
    (hv : validate cls st1.config = .ok ()) (n : Nat) : renderMany cls f n st1 = (st1, List.replicate n (.ok t)) := by
  induction n with
  | zero => rfl
  | succ n ih => simp only [renderMany, render_again h hv, ih, List.replicate_succ]

/-- a converter that does not change the configuration of the backend -/
def Conv.Keeps (c : Conv) : Prop := ∀ config inter, (c.run config inter).1 = config

theorem convLoop_config {cls : Class} {cs : List Conv} (hk : ∀ c ∈ cs, c.Keeps) (config inter : VDict) :
    (convLoop cls cs config inter).1.config = config := by
  induction cs generalizing inter with
  | nil => rfl
  | cons c cs ih =>
    have hc := hk c (by simp) config inter
    have ih := fun i => ih (fun c hc => hk c (by simp [hc])) i
    unfold convLoop
    split
    · exact ih _
    · split
      · next he => rw [he] at hc; exact hc
      · next he =>
        rw [he] at hc
        simp only at hc
        subst hc
        split
        · exact ih _
        · split
          · rfl
          · exact ih _

theorem ensure_config {cls : Class} (hk : ∀ c ∈ cls.convs, c.Keeps) (st : BState) : (ensureIntermediate cls st).1.config = st.config := by
  unfold ensureIntermediate
  split
  · rfl
  · unfold toIntermediate
    split
    · rfl
    · exact convLoop_config hk _ _

/-- If the converters keep the configuration, rendering changes it only by removing duplicate files. -/
theorem render_config {cls : Class} (hk : ∀ c ∈ cls.convs, c.Keeps) {f : Bool} {st st1 : BState} {t : Chars}
    (h : render cls f st = (st1, .ok t)) : deduplicateFiles st.config = .ok st1.config := by
  obtain ⟨_, st2, he, ht⟩ := render_ok h
  obtain ⟨c, hc, rfl, _⟩ := renderTail_ok ht
  have := ensure_config hk st
  rw [he] at this
  rw [← this]; exact hc

theorem dedup_validates {config c : VDict} (h : deduplicateFiles config = .ok c) (hv : validateFilePaths config = .ok ()) :
    validateFilePaths c = .ok () := by
  obtain ⟨ps, hps, hps', hf, _⟩ := C21_one_file_per_path config c h
  have hv := validateFilePaths_ok.1 hv
  refine validateFilePaths_ok.2 ?_
  intro f hfm
  obtain ⟨p, hp, hl⟩ := hf f hfm
  have : f ∈ filesOf config := by
    unfold lastFile at hl
    have := List.mem_of_find?_eq_some hl
    simpa using this
  exact hv f this

/-- C26 without the condition on the state reached: when the converters keep the configuration and the schema and the additional
checks accept an accepted configuration also after removing duplicate files, every successful `render` can be repeated. -/
theorem C26_repeatable_keeping (cls : Class) (hk : ∀ c ∈ cls.convs, c.Keeps)
    (hs : ∀ c c', deduplicateFiles c = .ok c' → cls.pre c = .ok () → cls.schema c = .ok () → cls.post c = .ok () →
      cls.pre c' = .ok () ∧ cls.schema c' = .ok () ∧ cls.post c' = .ok ())
    (f : Bool) (st st1 : BState) (t : Chars) (h : render cls f st = (st1, .ok t)) (n : Nat) :
    renderMany cls f n st1 = (st1, List.replicate n (.ok t)) := by
  refine C26_repeatable cls f st st1 t h ?_ n
  have hd := render_config hk h
  obtain ⟨hv, _⟩ := render_ok h
  unfold validate at hv
  obtain ⟨_, h1, hv⟩ := bind_ok_iff.1 hv
  obtain ⟨_, h2, hv⟩ := bind_ok_iff.1 hv
  obtain ⟨_, h3, h4⟩ := bind_ok_iff.1 hv
  obtain ⟨a, b, c⟩ := hs _ _ hd h1 h2 h4
  unfold validate
  rw [a, b, c, dedup_validates hd h3]; rfl

theorem deduplicateFiles_nodup {config : VDict} {ps : List Chars} (hp : (filesOf config).mapM filePath = .ok ps) (hn : ps.Nodup) :
    deduplicateFiles config = .ok config := by
  unfold deduplicateFiles
  split
  · rfl
  · next fs hne =>
    rw [dedupLoop_eq _ _ hp]
    show Except.ok _ = _
    have hz : (Dict.keys (ps.zip (filesOf config))).Nodup := by
      rw [keys_zip _ _ (mapM_length hp)]; exact hn
    rw [foldl_set_eq_collapse, collapse_of_nodup hz, values_zip _ _ (mapM_length hp)]
    congr 1
    have : Dict.get? config "files" = some (.list (filesOf config)) := by
      unfold filesOf at hne ⊢
      split
      · next l hl => simp [hl] at hne ⊢
      · next hx =>
        exfalso; apply hne
        split
        · next l hl => exact absurd hl (hx l)
        · rfl
    exact Dict.set_eq_self this

/-! ## C27 -/

/-- C27: when the converters keep the configuration and no path is given twice, `json()` gives the same document
before and after `render()`. -/
theorem C27_json_unchanged (cls : Class) (hk : ∀ c ∈ cls.convs, c.Keeps) (f : Bool) (st st1 : BState) (t : Chars)
    (h : render cls f st = (st1, .ok t)) (ps : List Chars) (hp : (filesOf st.config).mapM filePath = .ok ps) (hn : ps.Nodup) :
    jsonDoc cls st1 = jsonDoc cls st := by
  have hd := render_config hk h
  have : st1.config = st.config := by
    have := deduplicateFiles_nodup hp hn
    rw [this] at hd
    exact (Except.ok.inj hd).symm
  unfold jsonDoc
  rw [this]

/-- C27, with repeated paths: every other key of the document is unchanged. -/
theorem C27_json_other_keys (cls : Class) (hk : ∀ c ∈ cls.convs, c.Keeps) (f : Bool) (st st1 : BState) (t : Chars)
    (h : render cls f st = (st1, .ok t)) (d d1 : VDict) (hd : jsonDoc cls st = .ok d) (hd1 : jsonDoc cls st1 = .ok d1)
    (k : String) (hkey : k ≠ "files") : Dict.get? d1 k = Dict.get? d k := by
  obtain ⟨_, _, _, _, hk⟩ := C21_one_file_per_path _ _ (render_config hk h)
  obtain ⟨_, _, hd⟩ := bind_ok_iff.1 hd
  obtain ⟨_, _, hd1⟩ := bind_ok_iff.1 hd1
  cases hd; cases hd1
  by_cases he : "type" = k
  · subst he; rw [Dict.get?_set_self, Dict.get?_set_self]
  · rw [Dict.get?_set_ne _ _ he, Dict.get?_set_ne _ _ he, hk k hkey]

/-! ## C28 -/

/-- what the user of an object does with it -/
inductive Op where
  /-- change the `config` attribute in any way -/
  | change (f : VDict → VDict)
  | render (files : Bool)
  | json
  | generate

/-- the state after a list of operations, and the texts returned by the successful `render` calls -/
def runOps (cls : Class) : List Op → BState → BState × List (Bool × Chars)
  | [], st => (st, [])
  | .change f :: ops, st => runOps cls ops ⟨f st.config, st.inter⟩
  | .json :: ops, st => runOps cls ops st
  | .generate :: ops, st => runOps cls ops (generate cls st).1
  | .render files :: ops, st =>
    match render cls files st with
    | (st', .ok t) => ((runOps cls ops st').1, (files, t) :: (runOps cls ops st').2)
    | (st', .error _) => runOps cls ops st'

theorem render_keeps_inter {cls : Class} {f : Bool} {st : BState} {i : VDict} (h : st.inter = some i) :
    (render cls f st).1.inter = some i := by
  unfold render
  split
  · exact h
  · simp only [ensureIntermediate, h]
    unfold renderTail
    split <;> exact h

theorem generate_keeps_inter {cls : Class} {st : BState} {i : VDict} (h : st.inter = some i) :
    (generate cls st).1.inter = some i := by
  have := render_keeps_inter (cls := cls) (f := false) h
  unfold generate
  split <;> (next he => rw [he] at this; exact this)

theorem runOps_spec {cls : Class} (ops : List Op) {st : BState} {i : VDict} (h : st.inter = some i) :
    (runOps cls ops st).1.inter = some i ∧
    ∀ r ∈ (runOps cls ops st).2, ∃ out, cls.native i = .ok out ∧ (r.1 = false → r.2 = out) ∧ out <+: r.2 := by
  induction ops generalizing st with
  | nil => exact ⟨h, by simp [runOps]⟩
  | cons op ops ih =>
    cases op with
    | change f => exact ih (st := ⟨f st.config, st.inter⟩) h
    | json => exact ih h
    | generate => exact ih (generate_keeps_inter h)
    | render files =>
      have hk := render_keeps_inter (cls := cls) (f := files) h
      unfold runOps
      cases hr : render cls files st with
      | mk st' res =>
        rw [hr] at hk
        cases res with
        | error e => exact ih hk
        | ok t =>
          refine ⟨(ih hk).1, ?_⟩
          intro r hrm
          rcases List.mem_cons.1 hrm with rfl | hrm
          · obtain ⟨_, st2, he, ht⟩ := render_ok hr
            simp only [ensureIntermediate, h] at he
            cases he
            obtain ⟨c, _, _, out, ho, ho'⟩ := renderTail_ok ht
            rw [h] at ho
            refine ⟨out, ho, ?_⟩
            rcases ho' with ⟨rfl, rfl⟩ | ⟨rfl, s, hs, rfl⟩
            · exact ⟨fun _ => rfl, List.prefix_refl _⟩
            · exact ⟨by simp, List.prefix_append _ _⟩
          · exact (ih hk).2 r hrm

/-- C28: after one successful `render(files=False)`, whatever is done to the configuration and however often the object is
rendered, every later `render(files=False)` that succeeds returns that same text, and every successful `render(files=True)` begins with it. -/
theorem C28_converted_once (cls : Class) (st st1 : BState) (t : Chars) (h : render cls false st = (st1, .ok t)) (ops : List Op) :
    ∀ r ∈ (runOps cls ops st1).2, (r.1 = false → r.2 = t) ∧ t <+: r.2 := by
  obtain ⟨_, st2, he, ht⟩ := render_ok h
  obtain ⟨i, hi⟩ := ensure_inter he
  obtain ⟨c, _, rfl, out, ho, ho'⟩ := renderTail_ok ht
  intro r hr
  obtain ⟨out', ho2, h1, h2⟩ := (runOps_spec (cls := cls) ops (st := ⟨c, st2.inter⟩) hi).2 r hr
  rw [hi] at ho
  simp only [Option.getD_some] at ho
  rw [ho] at ho2; cases ho2
  rcases ho' with ⟨_, rfl⟩ | ⟨hf, _⟩
  · exact ⟨h1, h2⟩
  · cases hf

/-! ## C29 -/

/-- C29: `render(files=True)` leaves the same object behind as `render(files=False)`; it fails whenever that fails, with the same
exception; otherwise its text is the text without files followed by the section of the files. -/
theorem C29_files_appended (cls : Class) (st : BState) :
    (render cls true st).1 = (render cls false st).1 ∧
    (∀ e, (render cls false st).2 = .error e → (render cls true st).2 = .error e) ∧
    (∀ t, (render cls false st).2 = .ok t →
      (render cls true st).2 = (filesSection (render cls false st).1.config).map (t ++ ·)) := by
  unfold render
  split
  · exact ⟨rfl, fun _ h => h, fun _ h => by cases h⟩
  · split
    · exact ⟨rfl, fun _ h => h, fun _ h => by cases h⟩
    · unfold renderTail
      split
      · exact ⟨rfl, fun _ h => h, fun _ h => by cases h⟩
      · refine ⟨rfl, ?_, ?_⟩
        · intro e h
          cases hn : cls.native (BState.inter ‹_›|>.getD []) with
          | error e' => rw [hn] at h; exact h
          | ok o => rw [hn] at h; cases h
        · intro t h
          cases hn : cls.native (BState.inter ‹_›|>.getD []) with
          | error e' => rw [hn] at h; cases h
          | ok o =>
            rw [hn] at h; cases h
            show (filesSection _ >>= fun s => pure (t ++ s)) = _
            cases filesSection _ <;> rfl

/-- C29: with no files the two texts are equal. -/
theorem C29_no_files (cls : Class) (st : BState) (h : filesOf (render cls false st).1.config = []) :
    (render cls true st).2 = (render cls false st).2 := by
  obtain ⟨_, h1, h2⟩ := C29_files_appended cls st
  cases hr : (render cls false st).2 with
  | error e => exact h1 e hr
  | ok t =>
    rw [h2 t hr, C24_no_files _ h]
    show Except.ok (t ++ []) = _
    rw [List.append_nil]

/-! ## C31 -/

/-- what can be loaded: a dictionary, or a text whose JSON value is a dictionary -/
def Loads (cls : Class) (a : Arg) (d : VDict) : Prop :=
  match a with
  | .val v => v = .dict d
  | .text s => cls.loads s = some (.dict d)

theorem load_ok {cls : Class} {a : Arg} {d : VDict} : load cls a = .ok d ↔ Loads cls a d := by
  cases a with
  | val v => cases v <;> simp [load, Loads]
  | text s =>
    simp only [load, Loads]
    split
    · next h => rw [h]; simp
    · next h =>
      constructor
      · intro h; cases h
      · intro h'; exact absurd h' (h d)

theorem load_error {cls : Class} {a : Arg} (h : ∀ d, ¬ Loads cls a d) : load cls a = .error .typeError := by
  cases a with
  | val v => cases v <;> simp_all [load, Loads]
  | text s =>
    simp only [load]
    split
    · next d h' => exact absurd h' (h d)
    · rfl

/-- C31: neither config nor native. -/
theorem C31_nothing_given (cls : Class) (templates : TemplatesArg) (context : Option VDict) :
    construct cls none none templates context = .error .valueError := rfl

/-- C31: a config that is neither a dictionary nor the text of one is refused, whatever the other arguments are. -/
theorem C31_bad_config (cls : Class) (c : Arg) (h : ∀ d, ¬ Loads cls c d) (native : Option Chars) (templates : TemplatesArg)
    (context : Option VDict) : construct cls (some c) native templates context = .error .typeError := by
  simp only [construct, load_error h]; rfl

/-- C31: templates that are not a list are refused. -/
theorem C31_bad_templates (cls : Class) (c : Arg) (native : Option Chars) (context : Option VDict) :
    construct cls (some c) native .other context = .error .typeError := by
  simp only [construct]
  cases h : load cls c with
  | ok d => rfl
  | error e =>
    cases c with
    | val v => cases v <;> cases h <;> rfl
    | text s =>
      simp only [load] at h
      split at h
      · cases h
      · cases h; rfl

/-- C31: a template that cannot be loaded is refused. -/
theorem C31_bad_template (cls : Class) (c : Arg) (native : Option Chars) (l : List Arg) (context : Option VDict)
    (t : Arg) (pre post : List Arg) (hl : l = pre ++ t :: post) (ht : ∀ d, ¬ Loads cls t d) :
    ∃ e, construct cls (some c) native (.list l) context = .error e := by
  simp only [construct]
  cases h : load cls c with
  | error e => exact ⟨e, rfl⟩
  | ok d =>
    have : ∃ e, mergeTemplates cls d (.list l) = .error e := by
      subst hl
      unfold mergeTemplates
      split
      · next h => exact absurd h (by simp)
      · next h => cases h
      · next h => simp at h
      · next l' _ h =>
        cases h
        rw [List.append_assoc, List.foldlM_append]
        generalize hp : List.foldlM (m := Except PyErr) _ _ pre = r
        cases r with
        | error e => exact ⟨e, rfl⟩
        | ok x =>
          refine ⟨.typeError, ?_⟩
          simp only [List.cons_append, List.foldlM_cons, load_error ht]
          rfl
    obtain ⟨e, he⟩ := this
    refine ⟨e, ?_⟩
    show (mergeTemplates cls d (.list l) >>= _) = _
    rw [he]; rfl

/-- C31: when a config is given it is used and `native` is ignored: the object has the merged configuration with the variables of
the context replaced, and no intermediate data. -/
theorem C31_config_used (cls : Class) (c : Arg) (native native' : Option Chars) (templates : TemplatesArg) (context : Option VDict) :
    construct cls (some c) native templates context = construct cls (some c) native' templates context ∧
    ∀ st, construct cls (some c) native templates context = .ok st ↔
      ∃ d m, Loads cls c d ∧ mergeTemplates cls d templates = .ok m ∧ evaluateConfig cls.reprC context m = .ok st.config ∧ st.inter = none := by
  refine ⟨rfl, ?_⟩
  intro st
  simp only [construct]
  rw [bind_ok_iff]
  constructor
  · rintro ⟨d, hd, h⟩
    obtain ⟨m, hm, h⟩ := bind_ok_iff.1 h
    obtain ⟨e, he, h⟩ := bind_ok_iff.1 h
    cases h
    exact ⟨d, m, load_ok.1 hd, hm, he, rfl⟩
  · rintro ⟨d, m, hd, hm, he, hi⟩
    refine ⟨d, load_ok.2 hd, ?_⟩
    rw [bind_ok_iff]; refine ⟨m, hm, ?_⟩
    rw [bind_ok_iff]; refine ⟨_, he, ?_⟩
    cases st; cases hi; rfl

/-! ## C32 -/

/-- C32: an object made from native text has as intermediate data exactly what the parser produced, whatever the converters
removed while converting, and a configuration that is valid. -/
theorem C32_intermediate_kept (cls : Class) (native : Chars) (st : BState) (h : parse cls native = .ok st) :
    ∃ p i, cls.parser = some p ∧ p native = .ok i ∧ st.inter = some i ∧ validate cls st.config = .ok () := by
  unfold parse at h
  split at h
  · cases h
  · next p hp =>
    obtain ⟨i, hi, h⟩ := bind_ok_iff.1 h
    refine ⟨p, i, hp, hi, ?_⟩
    split at h
    · cases h
    · next st' ht =>
      cases h
      unfold toNetjson at ht
      split at ht
      · cases ht
      · obtain ⟨rfl, hv⟩ := (Prod.mk.injEq _ _ _ _).mp ht
        exact ⟨rfl, hv⟩

/-- C32: so rendering it (files left out) gives the renderer's text for exactly the parsed data. -/
theorem C32_render_of_parsed (cls : Class) (native : Chars) (st st' : BState) (h : parse cls native = .ok st) (t : Chars)
    (hr : render cls false st = (st', .ok t)) : ∃ p i, cls.parser = some p ∧ p native = .ok i ∧ cls.native i = .ok t := by
  obtain ⟨p, i, hp, hi, hst, _⟩ := C32_intermediate_kept cls native st h
  refine ⟨p, i, hp, hi, ?_⟩
  obtain ⟨_, st2, he, ht⟩ := render_ok hr
  simp only [ensureIntermediate, hst] at he
  cases he
  obtain ⟨c, _, _, out, ho, ho'⟩ := renderTail_ok ht
  rw [hst] at ho
  rcases ho' with ⟨_, rfl⟩ | ⟨hf, _⟩
  · exact ho
  · cases hf

/-! ## C69 -/

theorem convLoop_append {cls : Class} (pre post : List Conv) (config inter : VDict) :
    convLoop cls (pre ++ post) config inter =
      match convLoop cls pre config inter with
      | (st, .error e) => (st, .error e)
      | (st, .ok ()) => convLoop cls post st.config (st.inter.getD []) := by
  induction pre generalizing config inter with
  | nil => rfl
  | cons c cs ih =>
    simp only [List.cons_append, convLoop]
    split
    · exact ih _ _
    · cases hr : c.run config inter with
      | mk config' r =>
        cases r with
        | error e => rfl
        | ok v =>
          simp only
          split
          · exact ih _ _
          · cases mergeConfig cls.sh [".name"] inter v with
            | error e => rfl
            | ok i => exact ih _ _

/-- C69: when a converter raises an exception during the first `render`, the object keeps the output of the converters that
ran before it; if the configuration is valid, the next `render` succeeds with the text of this partial output. -/
theorem C69_after_failed_conversion (cls : Class) (f : Bool) (config : VDict) (pre post : List Conv) (c : Conv)
    (hcs : cls.convs = pre ++ c :: post) (config1 partial_ : VDict) (hv : validate cls config = .ok ())
    (hpre : convLoop cls pre config [] = (⟨config1, some partial_⟩, .ok ()))
    (hshould : c.should config1 = true) (config2 : VDict) (e : PyErr) (hrun : c.run config1 partial_ = (config2, .error e)) :
    render cls f ⟨config, none⟩ = (⟨config2, some partial_⟩, .error e) ∧
    (validate cls config2 = .ok () → ∀ out, cls.native partial_ = .ok out → ∀ c', deduplicateFiles config2 = .ok c' →
      render cls false ⟨config2, some partial_⟩ = (⟨c', some partial_⟩, .ok out)) := by
  constructor
  · unfold render
    rw [hv]
    simp only [ensureIntermediate, toIntermediate, hv, hcs, convLoop_append, hpre, Option.getD_some]
    unfold convLoop
    simp only [hshould, hrun]
    rfl
  · intro hv2 out ho c' hd
    unfold render
    rw [hv2]
    simp only [ensureIntermediate, renderTail, hd, Option.getD_some, ho]
    rfl

end NJ
