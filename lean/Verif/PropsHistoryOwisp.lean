import Verif.PropsHistoryReal
import Verif.PropsOwFiles

/-!
# C91 for OpenWISP 1.x

Its `validate` writes `disabled` into the radios, and its `generate` writes the scripts into the configuration.
-/

namespace NJ

/-- one call on an object of this backend: `validate` and `json` change the configuration too (openwisp.py l.23-34, base/backend.py l.255-269) -/
def owAsk (cls : Class) (sc : OwScripts) : Call → BState → BState × Except PyErr Answer
  | .validate, st => (⟨(owispValidate cls st.config).1, st.inter⟩, (owispValidate cls st.config).2.map fun _ => .done)
  | .json, st => (⟨(owispValidate cls st.config).1, st.inter⟩,
      (owispValidate cls st.config).2.map fun _ => .doc (Dict.set (owispValidate cls st.config).1 "type" (.str "DeviceConfiguration")))
  | .render files, st => ((owRender cls files st).1, (owRender cls files st).2.map .text)
  | .generate, st => ((owGenerate cls sc st).1, (owGenerate cls sc st).2.map .archive)

/-- the object after a history -/
def owAfter (cls : Class) (sc : OwScripts) (past : List Call) (st : BState) : BState := past.foldl (fun st q => (owAsk cls sc q st).1) st

section
variable {cls : Class} {sc : OwScripts} {c cs : VDict} {st1 st2 : BState} {t : Chars}

/-- a configuration whose radios are explicit is left as it is -/
theorem owAsk_sane (hs : owSanitize c = (cs, .ok ())) (inter : Option VDict) (q : Call) :
    owAsk cls sc q ⟨cs, inter⟩ = owAsk cls sc q ⟨c, inter⟩ := by
  have hs' := owSanitize_again c cs hs
  have hv : owispValidate cls cs = owispValidate cls c := by unfold owispValidate; rw [hs, hs']
  have hr : ∀ f, owRender cls f ⟨cs, inter⟩ = owRender cls f ⟨c, inter⟩ := by intro f; unfold owRender; simp only [hs, hs']
  cases q with
  | validate => simp only [owAsk, hv]
  | json => simp only [owAsk, hv]
  | render f => simp only [owAsk, hr]
  | generate => simp only [owAsk, owGenerate, hr]

theorem sane_of_valid {config : VDict} (h : owispValidate cls config = (config, .ok ())) :
    owSanitize config = (config, .ok ()) ∧ validate cls config = .ok () := by
  unfold owispValidate at h
  cases hs : owSanitize config with
  | mk x r =>
    rw [hs] at h
    cases r with
    | error e => cases h
    | ok u =>
      obtain ⟨e, h'⟩ := (Prod.mk.injEq _ _ _ _).mp h
      subst e
      exact ⟨rfl, h'⟩

/-- the states an object can be in: fresh, with explicit radios, rendered, archived -/
def OwReached (c cs : VDict) (st1 st2 st : BState) : Prop := st = ⟨c, none⟩ ∨ st = ⟨cs, none⟩ ∨ st = st1 ∨ st = st2

structure OwStates (cls : Class) (sc : OwScripts) (c cs : VDict) (st1 st2 : BState) (t : Chars) (ms : List Member) : Prop where
  sane : owSanitize c = (cs, .ok ())
  rendered : render cls false ⟨cs, none⟩ = (st1, .ok t)
  valid1 : owispValidate cls st1.config = (st1.config, .ok ())
  gen : owGenerate cls sc ⟨c, none⟩ = (st2, .ok ms)
  valid2 : owispValidate cls st2.config = (st2.config, .ok ())
  inter : st2.inter = st1.inter
  again : owGenerate cls sc st2 = (st2, .ok ms)
  dedup : deduplicateFiles st2.config = .ok st2.config

variable {ms : List Member} (hw : OwStates cls sc c cs st1 st2 t ms)
include hw

theorem owRender_st1 (f : Bool) : owRender cls f st1 = render cls f st1 := by
  unfold owRender
  rw [(sane_of_valid hw.valid1).1]

theorem owRender_fresh (f : Bool) : owRender cls f ⟨c, none⟩ = render cls f ⟨cs, none⟩ := by
  unfold owRender
  simp only [hw.sane]

theorem ow_reaches_render (f : Bool) : owRender cls f ⟨c, none⟩ = owRender cls f st1 ∧ (owRender cls f st1).1 = st1 := by
  obtain ⟨a, b, d⟩ := render_reaches hw.rendered (sane_of_valid hw.valid1).2 f
  rw [owRender_st1 hw, owRender_fresh hw]
  exact ⟨Prod.ext (a.trans b.symm) d, b⟩

theorem ow_inter : ∃ i, st1.inter = some i ∧ cls.native i = .ok t := by
  obtain ⟨_, s, he, htl⟩ := render_ok hw.rendered
  obtain ⟨i, hi⟩ := ensure_inter he
  obtain ⟨c2, _, rfl, out, ho, ho'⟩ := renderTail_ok htl
  refine ⟨i, hi, ?_⟩
  rcases ho' with ⟨_, rfl⟩ | ⟨hf, _⟩
  · rw [hi] at ho; exact ho
  · cases hf

theorem owRender_st2 (f : Bool) : (owRender cls f st2).1 = st2 ∧ (owRender cls false st2).2 = .ok t := by
  obtain ⟨hsan, hval⟩ := sane_of_valid hw.valid2
  obtain ⟨i, hi, hn⟩ := ow_inter hw
  have hi2 : st2.inter = some i := hw.inter.trans hi
  have e : ∀ f, owRender cls f st2 = renderTail cls f st2 := by
    intro f
    unfold owRender
    rw [hsan]
    dsimp only
    unfold render
    rw [hval]
    simp only [ensureIntermediate, hi2]
    rw [← hi2]
  rw [e, e]
  unfold renderTail
  rw [hw.dedup]
  simp only [hi2]
  refine ⟨by rw [← hi2], ?_⟩
  simp only [Option.getD_some, hn]
  rfl

theorem ow_step (q : Call) (st : BState) (hst : OwReached c cs st1 st2 st) : OwReached c cs st1 st2 (owAsk cls sc q st).1 := by
  have fresh : OwReached c cs st1 st2 (owAsk cls sc q ⟨c, none⟩).1 := by
    cases q with
    | validate => exact Or.inr (Or.inl (by simp only [owAsk, owispValidate, hw.sane]))
    | json => exact Or.inr (Or.inl (by simp only [owAsk, owispValidate, hw.sane]))
    | render f => exact Or.inr (Or.inr (Or.inl (by
        obtain ⟨a, b⟩ := ow_reaches_render hw f
        change (owRender cls f ⟨c, none⟩).1 = st1
        rw [a, b])))
    | generate => exact Or.inr (Or.inr (Or.inr (by simp only [owAsk, hw.gen])))
  rcases hst with rfl | rfl | rfl | rfl
  · exact fresh
  · rw [owAsk_sane hw.sane]; exact fresh
  · cases q with
    | validate => exact Or.inr (Or.inr (Or.inl (by simp only [owAsk, hw.valid1])))
    | json => exact Or.inr (Or.inr (Or.inl (by simp only [owAsk, hw.valid1])))
    | render f => exact Or.inr (Or.inr (Or.inl (ow_reaches_render hw f).2))
    | generate =>
      refine Or.inr (Or.inr (Or.inr ?_))
      have := (ow_reaches_render hw false).1
      have e : owGenerate cls sc st = owGenerate cls sc ⟨c, none⟩ := by unfold owGenerate; rw [this]
      simp only [owAsk, e, hw.gen]
  · refine Or.inr (Or.inr (Or.inr ?_))
    cases q with
    | validate => simp only [owAsk, hw.valid2]
    | json => simp only [owAsk, hw.valid2]
    | render f => exact (owRender_st2 hw f).1
    | generate => simp only [owAsk, hw.again]

theorem ow_after (past : List Call) : OwReached c cs st1 st2 (owAfter cls sc past ⟨c, none⟩) := by
  have main : ∀ (past : List Call) st, OwReached c cs st1 st2 st → OwReached c cs st1 st2 (owAfter cls sc past st) := by
    intro past
    induction past with
    | nil => exact fun _ h => h
    | cons q qs ih => exact fun st h => ih _ (ow_step hw q st h)
  exact main past _ (Or.inl rfl)

/-- until the archive is generated, the first three states only -/
theorem ow_after_render (past : List Call) (hg : Call.generate ∉ past) :
    owAfter cls sc past ⟨c, none⟩ = ⟨c, none⟩ ∨ owAfter cls sc past ⟨c, none⟩ = ⟨cs, none⟩ ∨ owAfter cls sc past ⟨c, none⟩ = st1 := by
  have step : ∀ q, q ≠ Call.generate → ∀ st, (st = ⟨c, none⟩ ∨ st = ⟨cs, none⟩ ∨ st = st1) →
      ((owAsk cls sc q st).1 = ⟨c, none⟩ ∨ (owAsk cls sc q st).1 = ⟨cs, none⟩ ∨ (owAsk cls sc q st).1 = st1) := by
    intro q hq st hst
    have fresh : (owAsk cls sc q ⟨c, none⟩).1 = ⟨cs, none⟩ ∨ (owAsk cls sc q ⟨c, none⟩).1 = st1 := by
      cases q with
      | validate => exact Or.inl (by simp only [owAsk, owispValidate, hw.sane])
      | json => exact Or.inl (by simp only [owAsk, owispValidate, hw.sane])
      | render f => exact Or.inr (by
          obtain ⟨a, b⟩ := ow_reaches_render hw f
          change (owRender cls f ⟨c, none⟩).1 = st1
          rw [a, b])
      | generate => exact absurd rfl hq
    rcases hst with rfl | rfl | rfl
    · exact Or.inr fresh
    · rw [owAsk_sane hw.sane]; exact Or.inr fresh
    · refine Or.inr (Or.inr ?_)
      cases q with
      | validate => simp only [owAsk, hw.valid1]
      | json => simp only [owAsk, hw.valid1]
      | render f => exact (ow_reaches_render hw f).2
      | generate => exact absurd rfl hq
  have main : ∀ (past : List Call), Call.generate ∉ past → ∀ st, (st = ⟨c, none⟩ ∨ st = ⟨cs, none⟩ ∨ st = st1) →
      (owAfter cls sc past st = ⟨c, none⟩ ∨ owAfter cls sc past st = ⟨cs, none⟩ ∨ owAfter cls sc past st = st1) := by
    intro past
    induction past with
    | nil => exact fun _ _ h => h
    | cons q qs ih =>
      intro hg st h
      rw [List.mem_cons, not_or] at hg
      exact ih hg.2 _ (step q (Ne.symm hg.1) st h)
  exact main past hg _ (Or.inl rfl)

theorem ow_answers (past : List Call) (q : Call) (hq : q ≠ .json) (hf : q = .render true → Call.generate ∉ past) :
    (owAsk cls sc q (owAfter cls sc past ⟨c, none⟩)).2 = (owAsk cls sc q ⟨c, none⟩).2 := by
  have at1 : (owAsk cls sc q st1).2 = (owAsk cls sc q ⟨c, none⟩).2 := by
    cases q with
    | validate =>
      have := (render_ok hw.rendered).1
      simp only [owAsk, hw.valid1]
      simp only [owispValidate, hw.sane, this]
    | json => exact absurd rfl hq
    | render f => simp only [owAsk, (ow_reaches_render hw f).1]
    | generate => simp only [owAsk, owGenerate, (ow_reaches_render hw false).1]
  have old : ∀ st, (st = ⟨c, none⟩ ∨ st = ⟨cs, none⟩ ∨ st = st1) → (owAsk cls sc q st).2 = (owAsk cls sc q ⟨c, none⟩).2 := by
    rintro st (rfl | rfl | rfl)
    · rfl
    · rw [owAsk_sane hw.sane]
    · exact at1
  by_cases hg : Call.generate ∈ past
  · rcases ow_after hw past with e | e | e | e
    · exact old _ (Or.inl e)
    · exact old _ (Or.inr (Or.inl e))
    · exact old _ (Or.inr (Or.inr e))
    · rw [e]
      cases q with
      | validate =>
        have := (render_ok hw.rendered).1
        simp only [owAsk, hw.valid2]
        simp only [owispValidate, hw.sane, this]
      | json => exact absurd rfl hq
      | render f =>
        cases f with
        | true => exact absurd hg (hf rfl)
        | false =>
          simp only [owAsk, (owRender_st2 hw false).2, owRender_fresh hw, hw.rendered]
      | generate => simp only [owAsk, hw.again, hw.gen]
  · exact old _ (ow_after_render hw past hg)

end

/-! ## With its schema -/

theorem script_valid {ip6 : Ip6} {root : VDict} {n : Nat} {p t : Chars} (hp : 2 ≤ p.length) : valid ip6 root (n + 2) fileSchema (owScript p t) = true := by
  have hpat : patternOk "^[0-7]*$" ['7', '5', '5'] = true := by decide +kernel
  unfold owScript
  simp [fileSchema, owSchema_pro_files, Dict.get?, valid, keywordOk, typeOk, Dict.has, textsOf, Dict.keys, txt, hpat]
  exact ⟨by exact_mod_cast hp, by decide, by decide⟩

/-- the scripts are files the schema accepts -/
def LongScript (f : Val) : Prop := ∃ p t, f = owScript p t ∧ 2 ≤ p.length

theorem added_long {sc : OwScripts} {config : VDict} {fs : List Val} (h : owAdded sc config = .ok fs) : ∀ f ∈ fs, LongScript f := by
  obtain ⟨a, v, b, d, rfl, hv⟩ := owAdded_ok h
  intro f hf
  simp only [List.mem_append, List.mem_cons, List.not_mem_nil, or_false] at hf
  rcases hf with ((rfl | rfl) | hf) | rfl
  · exact ⟨_, _, rfl, by decide⟩
  · exact ⟨_, _, rfl, by decide⟩
  · obtain ⟨n, t, rfl⟩ := hv f hf
    refine ⟨_, _, rfl, ?_⟩
    rw [List.length_append]
    exact Nat.le_trans (by decide) (Nat.le_add_right "/openvpn/".toList.length _)
  · exact ⟨_, _, rfl, by decide⟩

theorem owisp_steady (env : Env) (sh : Val → Bool) (loads : Chars → Option Val) (dsa : Bool) :
    Steady (owispBackend env sh loads dsa) (knownKeys ++ ["tc_options"]) env.ip6 owispSchema (MadeAccepted env) := by
  have hk : ∀ v ∈ (owispBackend env sh loads dsa).convs, KeepsBut env (knownKeys ++ ["tc_options"]) v := by
    intro v hv
    simp only [owispBackend, openwispClass, List.mem_cons, List.not_mem_nil, or_false] at hv
    rcases hv with rfl | rfl | rfl | rfl | rfl | rfl | rfl | rfl | rfl | rfl | rfl | rfl | rfl
    all_goals first
      | exact keepsBut_pure _ _ _ _
      | exact keepsBut_vpn.2
      | exact fun config inter => ⟨default_kept (fun _ h => h) (by decide) config inter, fun _ => default_kept (fun _ h => h) (by decide) config inter⟩
      | exact keepsBut_zt
  refine ⟨rfl, by decide +kernel, ?_, ?_, loop_kept hk, loop_accepted (by decide) (by decide) hk⟩
  · intro c c' h
    change validateRadios c' = validateRadios c
    unfold validateRadios
    rw [h _ (by decide) (by decide)]
  · intro c c' h
    change validatePvid c' = validatePvid c
    unfold validatePvid dictsAt
    rw [h _ (by decide) (by decide)]

/-- radios stay explicit -/
theorem sane_same {a b : VDict} (h : owSanitize a = (a, .ok ())) (hr : Dict.get? b "radios" = Dict.get? a "radios") : owSanitize b = (b, .ok ()) := by
  unfold owSanitize at h ⊢
  rw [hr]
  split at h
  · rfl
  · next l e =>
    obtain ⟨h1, h2⟩ := (Prod.mk.injEq _ _ _ _).mp h
    have h3 : (owRadios l).1 = l := by
      have := congrArg (fun x => Dict.get? x "radios") h1
      rw [Dict.get?_set_self, e] at this
      exact Val.list.inj (Option.some.inj this)
    rw [h2, h3, Dict.set_eq_self (hr.trans e)]
  all_goals
    obtain ⟨_, h2⟩ := (Prod.mk.injEq _ _ _ _).mp h
    rw [h2]

section
variable {env : Env} {sh : Val → Bool} {loads : Chars → Option Val} {dsa : Bool} {sc : OwScripts} {c : VDict} {st2 : BState} {ms : List Member} {ps : List Chars}

theorem owisp_states (h : owGenerate (owispBackend env sh loads dsa) sc ⟨c, none⟩ = (st2, .ok ms)) (hp : (filesOf st2.config).mapM filePath = .ok ps)
    (hn : ps.Nodup) (ha : ∀ p ∈ ps, validPath p = true) :
    ∃ cs st1 t, OwStates (owispBackend env sh loads dsa) sc c cs st1 st2 t ms ∧ (∀ k, k ≠ "files" → Dict.get? st2.config k = Dict.get? st1.config k) ∧
      (∀ k ∈ knownKeys ++ ["tc_options"], k ≠ "files" → Dict.get? st1.config k = Dict.get? cs k) := by
  obtain ⟨st1, t, ms1, fs, more, hr, h1, h2, h3, h4, h5, rfl⟩ := owGenerate_ok h
  obtain ⟨added, hm⟩ := addFiles_ok fs (owAdded_scripts h2) h3
  obtain ⟨cs, hs, hr'⟩ := owRender_ok hr
  dsimp only at hs hr'
  have hst := owisp_steady env sh loads dsa
  obtain ⟨c', hk, hd⟩ := render_kept (hst.kept cs) hr'
  obtain ⟨_, _, _, _, hrest⟩ := C21_one_file_per_path _ _ hd
  have hsame : ∀ k ∈ knownKeys ++ ["tc_options"], k ≠ "files" → Dict.get? st1.config k = Dict.get? cs k :=
    fun k hP hf => (hrest k hf).trans (hk.same k hP hf)
  have paths2 : validateFilePaths st2.config = .ok () := by
    refine validateFilePaths_ok.2 fun f hf => ?_
    obtain ⟨p, hp', e⟩ := mapM_into hp hf
    exact ⟨p, e, ha p hp'⟩
  have paths1 : validateFilePaths st1.config = .ok () := by
    refine validateFilePaths_ok.2 fun f hf => validateFilePaths_ok.1 paths2 f ?_
    rw [hm.files]; exact List.mem_append_left _ hf
  have hv1 := steady_left hst hr' paths1
  have hne : fs ≠ [] := by
    obtain ⟨a, v, b, d, rfl, hv⟩ := owAdded_ok h2
    simp
  have hl := addFiles_list fs hne h3
  have hdd := deduplicateFiles_nodup hp hn
  have hv2 : validate (owispBackend env sh loads dsa) st2.config = .ok () := by
    unfold validate at hv1 ⊢
    obtain ⟨_, g1, hv⟩ := bind_ok_iff.1 hv1
    obtain ⟨_, g2, hv⟩ := bind_ok_iff.1 hv
    obtain ⟨_, g3, g4⟩ := bind_ok_iff.1 hv
    have hkk : Kept LongScript (knownKeys ++ ["tc_options"]) st1.config st2.config := by
      refine ⟨fun k _ hf => hm.rest k hf, fun k hk => ?_, Or.inr ⟨_, hl⟩, fun f hf => ?_⟩
      · rw [Dict.has_eq] at hk ⊢
        by_cases e : k = "files"
        · subst e; rw [hl]; rfl
        · rw [hm.rest k e]; exact hk
      · rw [hm.files] at hf
        rcases List.mem_append.1 hf with hf | hf
        · exact Or.inl hf
        · exact Or.inr (added_long h2 f (hm.only f hf))
    have g2' : (owispBackend env sh loads dsa).schema st2.config = .ok () := by
      rw [hst.schema] at g2 ⊢
      unfold schemaValidate at g2 ⊢
      rw [if_pos]
      refine left_schema (n := 20) hst.top (K := LongScript) ?_ ?_ hkk hdd
      · rintro f ⟨p, t, rfl, hp⟩
        exact script_valid hp
      · split at g2
        · assumption
        · cases g2
    have same : ∀ k ∈ knownKeys ++ ["tc_options"], k ≠ "files" → Dict.get? st2.config k = Dict.get? st1.config k := fun k _ hf => hm.rest k hf
    rw [hst.pre _ _ same, g1, g2', paths2, hst.post _ _ same, g4]
    rfl
  have sane1 : owSanitize st1.config = (st1.config, .ok ()) := sane_same (owSanitize_again c cs hs) (hsame "radios" (by decide) (by decide))
  have sane2 : owSanitize st2.config = (st2.config, .ok ()) := sane_same sane1 (hm.rest "radios" (by decide))
  have ov1 : owispValidate (owispBackend env sh loads dsa) st1.config = (st1.config, .ok ()) := by
    unfold owispValidate; rw [sane1]; dsimp only; rw [hv1]
  have ov2 : owispValidate (owispBackend env sh loads dsa) st2.config = (st2.config, .ok ()) := by
    unfold owispValidate; rw [sane2]; dsimp only; rw [hv2]
  exact ⟨cs, st1, t, ⟨hs, hr', ov1, h, ov2, h4, C65_generate_again _ sc _ st2 _ h ps hp hn ov2, hdd⟩, hm.rest, hsame⟩

end

/-- **C91**, OpenWISP 1.x: let `c` be a configuration whose archive can be generated, with files (those given, those made by the converters and the
scripts) whose paths are distinct and accepted. Then after any history each call but `json` answers what it answers on a fresh object; `render`
with the files, which shows the scripts once they have been added, does so until `generate` is called. -/
theorem C91_openwisp (env : Env) (sh : Val → Bool) (loads : Chars → Option Val) (dsa : Bool) (sc : OwScripts) (c : VDict) (st2 : BState) (ms : List Member)
    (h : owGenerate (owispBackend env sh loads dsa) sc ⟨c, none⟩ = (st2, .ok ms)) (ps : List Chars) (hp : (filesOf st2.config).mapM filePath = .ok ps)
    (hn : ps.Nodup) (ha : ∀ p ∈ ps, validPath p = true) (past : List Call) (q : Call) (hq : q ≠ .json) (hf : q = .render true → Call.generate ∉ past) :
    (owAsk (owispBackend env sh loads dsa) sc q (owAfter (owispBackend env sh loads dsa) sc past ⟨c, none⟩)).2 =
    (owAsk (owispBackend env sh loads dsa) sc q ⟨c, none⟩).2 := by
  obtain ⟨_, _, _, hw, _⟩ := owisp_states h hp hn ha
  exact ow_answers hw past q hq hf

/-- **C91**, `json` of OpenWISP 1.x: under the same conditions it succeeds after any history and shows every section of the schema but the files as
a fresh object does. -/
theorem C91_openwisp_json (env : Env) (sh : Val → Bool) (loads : Chars → Option Val) (dsa : Bool) (sc : OwScripts) (c : VDict) (st2 : BState)
    (ms : List Member) (h : owGenerate (owispBackend env sh loads dsa) sc ⟨c, none⟩ = (st2, .ok ms)) (ps : List Chars)
    (hp : (filesOf st2.config).mapM filePath = .ok ps) (hn : ps.Nodup) (ha : ∀ p ∈ ps, validPath p = true) (past : List Call) :
    ∃ d d', (owAsk (owispBackend env sh loads dsa) sc .json ⟨c, none⟩).2 = .ok (.doc d) ∧
      (owAsk (owispBackend env sh loads dsa) sc .json (owAfter (owispBackend env sh loads dsa) sc past ⟨c, none⟩)).2 = .ok (.doc d') ∧
      ∀ k ∈ knownKeys ++ ["tc_options"], k ≠ "files" → Dict.get? d' k = Dict.get? d k := by
  obtain ⟨cs, st1, t, hw, hrest, hsame⟩ := owisp_states h hp hn ha
  have fresh : (owAsk (owispBackend env sh loads dsa) sc .json ⟨c, none⟩).2 = .ok (.doc (Dict.set cs "type" (.str "DeviceConfiguration"))) := by
    have := (render_ok hw.rendered).1
    simp only [owAsk, owispValidate, hw.sane, this]; rfl
  refine ⟨Dict.set cs "type" (.str "DeviceConfiguration"), ?_⟩
  rcases ow_after hw past with e | e | e | e <;> rw [e]
  · exact ⟨_, fresh, fresh, fun _ _ _ => rfl⟩
  · exact ⟨_, fresh, by rw [owAsk_sane hw.sane]; exact fresh, fun _ _ _ => rfl⟩
  · refine ⟨Dict.set st1.config "type" (.str "DeviceConfiguration"), fresh, by simp only [owAsk, hw.valid1]; rfl, fun k hP hf => ?_⟩
    rw [Dict.get?_set', Dict.get?_set', hsame k hP hf]
  · refine ⟨Dict.set st2.config "type" (.str "DeviceConfiguration"), fresh, by simp only [owAsk, hw.valid2]; rfl, fun k hP hf => ?_⟩
    rw [Dict.get?_set', Dict.get?_set', hrest k hf, hsame k hP hf]

end NJ
