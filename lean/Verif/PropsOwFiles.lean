import Verif.PropsOpenWisp
import Verif.PropsBackend
import Verif.PropsConv

/-!
# C65: the OpenWISP 1.x backend, radios, scripts and the archive
-/

namespace NJ

/-! ## Radios -/

/-- the radio afterwards: `disabled` explicit, nothing else changed -/
def RadioSane (a b : Val) : Prop :=
  ∃ r r', a = .dict r ∧ b = .dict r' ∧ Dict.get? r' "disabled" = some ((Dict.get? r "disabled").getD (.bool false)) ∧
    ∀ k, k ≠ "disabled" → Dict.get? r' k = Dict.get? r k

theorem owRadio_ok {a b : Val} (h : owRadio a = .ok b) : RadioSane a b := by
  cases a with
  | dict r =>
    simp only [owRadio, Except.ok.injEq] at h
    subst h
    cases hd : Dict.get? r "disabled" with
    | some v => exact ⟨r, r, rfl, by simp, by rw [hd]; rfl, fun _ _ => rfl⟩
    | none =>
      refine ⟨r, Dict.set r "disabled" (.bool false), rfl, by simp, by rw [hd, Dict.get?_set_self]; rfl, ?_⟩
      intro k hk
      exact Dict.get?_set_ne _ _ (Ne.symm hk)
  | _ => cases h

theorem owRadios_ok (l : List Val) (h : (owRadios l).2 = .ok ()) : List.Forall₂ RadioSane l (owRadios l).1 := by
  induction l with
  | nil => exact .nil
  | cons a l ih =>
    unfold owRadios at h ⊢
    cases ha : owRadio a with
    | error e => rw [ha] at h; cases h
    | ok b =>
      rw [ha] at h
      exact .cons (owRadio_ok ha) (ih h)

/-- **C65.** What `validate()` does to the configuration: every radio has an explicit `disabled` afterwards, false where it was missing, and
nothing else changes. -/
theorem C65_radios (config c : VDict) (h : owSanitize config = (c, .ok ())) :
    (∀ k, k ≠ "radios" → Dict.get? c k = Dict.get? config k) ∧
    (∀ l, Dict.get? config "radios" = some (.list l) → ∃ l', Dict.get? c "radios" = some (.list l') ∧ List.Forall₂ RadioSane l l') ∧
    ((∀ l, Dict.get? config "radios" ≠ some (.list l)) → c = config) := by
  unfold owSanitize at h
  cases hr : Dict.get? config "radios" with
  | none =>
    rw [hr] at h
    cases h
    exact ⟨fun _ _ => rfl, fun l hl => by simp at hl, fun _ => rfl⟩
  | some v =>
    rw [hr] at h
    cases v with
    | list l =>
      obtain ⟨rfl, h2⟩ := (Prod.mk.injEq _ _ _ _).mp h
      refine ⟨fun k hk => Dict.get?_set_ne _ _ (Ne.symm hk), ?_, fun hn => absurd rfl (hn l)⟩
      intro l' hl
      cases hl
      exact ⟨_, Dict.get?_set_self _ _ _, owRadios_ok l h2⟩
    | dict d =>
      obtain ⟨rfl, _⟩ := (Prod.mk.injEq _ _ _ _).mp h
      exact ⟨fun _ _ => rfl, fun l hl => (by cases hl), fun _ => rfl⟩
    | str s =>
      obtain ⟨rfl, _⟩ := (Prod.mk.injEq _ _ _ _).mp h
      exact ⟨fun _ _ => rfl, fun l hl => (by cases hl), fun _ => rfl⟩
    | none => cases h
    | bool b => cases h
    | int i => cases h

/-- a radio list whose elements are explicit stays as it is -/
theorem owRadios_explicit (l : List Val) (h : ∀ a ∈ l, ∃ r, a = .dict r ∧ (Dict.get? r "disabled").isSome) : owRadios l = (l, .ok ()) := by
  induction l with
  | nil => rfl
  | cons a l ih =>
    obtain ⟨r, rfl, hr⟩ := h a (by simp)
    unfold owRadios
    simp [owRadio, hr, ih (fun b hb => h b (by simp [hb]))]

/-- `_sanitize_radios` run again changes nothing (see `owRender`) -/
theorem owSanitize_again (config c : VDict) (h : owSanitize config = (c, .ok ())) : owSanitize c = (c, .ok ()) := by
  obtain ⟨h1, h2, h3⟩ := C65_radios config c h
  cases hr : Dict.get? config "radios" with
  | none => rw [h3 (by simp [hr])] at h ⊢; exact h
  | some v =>
    by_cases hl : ∃ l, v = .list l
    · obtain ⟨l, rfl⟩ := hl
      obtain ⟨l', hl', hs⟩ := h2 l hr
      unfold owSanitize
      rw [hl']
      have e : owRadios l' = (l', .ok ()) := by
        refine owRadios_explicit l' ?_
        intro b hb
        clear h h1 h2 h3 hr hl'
        induction hs with
        | nil => cases hb
        | cons hab hs ih =>
          rcases List.mem_cons.1 hb with rfl | hb
          · obtain ⟨r, r', _, rfl, hd, _⟩ := hab
            exact ⟨r', rfl, by rw [hd]; rfl⟩
          · exact ih hb
      dsimp only
      rw [e, Dict.set_eq_self hl']
    · rw [h3 (by intro l hc; rw [hr] at hc; exact hl ⟨l, by simpa using hc⟩)] at h ⊢
      exact h

/-! ## Scripts -/

theorem script_refl (p c : Chars) : Val.pyEq (owScript p c) (owScript p c) = true := by
  simp [owScript, Val.pyEq, Val.pyEqD, txt, Dict.get?_cons]

/-- a file equal to a script is that script -/
theorem script_eq {p c : Chars} {f : Val} (h : Val.pyEq (owScript p c) f = true) : fileItem f = .ok ⟨p, "755".toList, c⟩ := by
  cases f with
  | dict d =>
    simp only [owScript, Val.pyEq, Bool.and_eq_true] at h
    have h := h.2
    have g : ∀ k s, Dict.get? [("path", txt p), ("contents", txt c), ("mode", .str "755")] k = some (.str s) → Dict.get? d k = some (.str s) := by
      intro k s hk
      have := Dict.mem_of_get? hk
      simp only [Val.pyEqD, Bool.and_eq_true, and_true] at h
      obtain ⟨h1, h2, h3⟩ := h
      have e : ∀ k' s', (match Dict.get? d k' with | some w => Val.pyEq (.str s') w | none => false) = true → Dict.get? d k' = some (.str s') := by
        intro k' s' he
        cases hd : Dict.get? d k' with
        | none => rw [hd] at he; cases he
        | some w =>
          rw [hd] at he
          cases w with
          | str t =>
            have : s' = t := by simpa [Val.pyEq] using he
            rw [this]
          | _ => simp [Val.pyEq] at he
      have e1 := e _ _ h1
      have e2 := e _ _ h2
      have e3 := e _ _ h3
      simp only [List.mem_cons, List.not_mem_nil, or_false, Prod.mk.injEq, txt, Val.str.injEq] at this
      rcases this with ⟨rfl, rfl⟩ | ⟨rfl, rfl⟩ | ⟨rfl, rfl⟩
      · exact e1
      · exact e2
      · exact e3
    have hp := g "path" (String.ofList p) (by simp [txt])
    have hc := g "contents" (String.ofList c) (by simp [txt, Dict.get?_cons])
    have hm := g "mode" "755" (by simp [Dict.get?_cons])
    simp [fileItem, reqStr, optStr, hp, hc, hm, bind, Except.bind, pure, Except.pure]
  | _ => simp [owScript, Val.pyEq] at h

/-- scripts: mode 755 -/
def IsScript (f : Val) : Prop := ∃ p c, f = owScript p c

/-- what adding scripts does -/
structure Added (config config' : VDict) (scripts more : List Val) : Prop where
  /-- the files there were come first, unchanged -/
  files : filesOf config' = filesOf config ++ more
  /-- only scripts are added -/
  only : ∀ m ∈ more, m ∈ scripts
  /-- every script is among the files -/
  all : ∀ s ∈ scripts, ∃ f ∈ filesOf config', Val.pyEq s f = true
  /-- none is added that is there already -/
  new : more.Pairwise (fun a b => Val.pyEq b a = false) ∧ ∀ m ∈ more, ∀ f ∈ filesOf config, Val.pyEq m f = false
  /-- nothing else changes -/
  rest : ∀ k, k ≠ "files" → Dict.get? config' k = Dict.get? config k

theorem owAddFile_ok {config config' : VDict} {item : Val} (h : owAddFile config item = .ok config') :
    (config' = config ∧ ∃ f ∈ filesOf config, Val.pyEq item f = true) ∨
      (filesOf config' = filesOf config ++ [item] ∧ (∀ f ∈ filesOf config, Val.pyEq item f = false) ∧ ∀ k, k ≠ "files" → Dict.get? config' k = Dict.get? config k) := by
  unfold owAddFile at h
  cases hf : Dict.get? config "files" with
  | none =>
    rw [hf] at h
    cases h
    have e : filesOf config = [] := by simp [filesOf, hf]
    exact .inr ⟨by rw [filesOf_set, e]; rfl, by simp [e], fun k hk => Dict.get?_set_ne _ _ (Ne.symm hk)⟩
  | some v =>
    rw [hf] at h
    cases v with
    | list l =>
      have e : filesOf config = l := by simp [filesOf, hf]
      simp only [Except.ok.injEq] at h
      by_cases ha : l.any (fun f => Val.pyEq item f) = true
      · rw [if_pos ha] at h
        obtain ⟨f, hf1, hf2⟩ := List.any_eq_true.1 ha
        exact .inl ⟨h.symm, f, by rw [e]; exact hf1, hf2⟩
      · rw [if_neg ha] at h
        subst h
        refine .inr ⟨by rw [filesOf_set, e], ?_, fun k hk => Dict.get?_set_ne _ _ (Ne.symm hk)⟩
        intro f hfm
        rw [e] at hfm
        cases hq : Val.pyEq item f with
        | false => rfl
        | true => exact absurd (List.any_eq_true.2 ⟨f, hfm, hq⟩) ha
    | _ => cases h

theorem addFiles_ok (scripts : List Val) (hs : ∀ s ∈ scripts, IsScript s) {config config' : VDict} (h : scripts.foldlM owAddFile config = .ok config') :
    ∃ more, Added config config' scripts more := by
  induction scripts generalizing config with
  | nil =>
    cases h
    exact ⟨[], by simp, by simp, by simp, by simp, fun _ _ => rfl⟩
  | cons s scripts ih =>
    rw [List.foldlM_cons] at h
    obtain ⟨c1, h1, h⟩ := bind_ok_iff.1 h
    obtain ⟨more, hf, ho, ha, hn, hr⟩ := ih (fun x hx => hs x (by simp [hx])) h
    obtain ⟨p, c, rfl⟩ := hs s (by simp)
    rcases owAddFile_ok h1 with ⟨rfl, f, hfm, hq⟩ | ⟨e, hq, hr1⟩
    · refine ⟨more, hf, fun m hm => by simp [ho m hm], ?_, hn, hr⟩
      intro x hx
      rcases List.mem_cons.1 hx with rfl | hx
      · exact ⟨f, by rw [hf]; simp [hfm], hq⟩
      · exact ha x hx
    · refine ⟨owScript p c :: more, by rw [hf, e]; simp, ?_, ?_, ⟨?_, ?_⟩, fun k hk => (hr k hk).trans (hr1 k hk)⟩
      · intro m hm
        rcases List.mem_cons.1 hm with rfl | hm
        · simp
        · simp [ho m hm]
      · intro x hx
        rcases List.mem_cons.1 hx with rfl | hx
        · exact ⟨_, by rw [hf, e]; simp, script_refl p c⟩
        · exact ha x hx
      · refine List.pairwise_cons.2 ⟨?_, hn.1⟩
        intro m hm
        exact hn.2 m hm _ (by rw [e]; simp)
      · intro m hm f hfm
        rcases List.mem_cons.1 hm with rfl | hm
        · exact hq f hfm
        · exact hn.2 m hm f (by rw [e]; simp [hfm])

theorem vpnFile_ok {v : VDict} {k : String} {t : Chars} {fs : List Val} (h : owVpnFile v k t = .ok fs) :
    ∀ f ∈ fs, ∃ n, f = owScript ("/openvpn/".toList ++ n) t := by
  unfold owVpnFile at h
  split at h
  · split at h
    · next s _ =>
      cases h
      intro f hf
      split at hf
      · cases hf
      · exact ⟨_, by simpa using hf⟩
    · cases h
  · cases h; simp

theorem vpnFiles_ok {sc : OwScripts} {config : VDict} {fs : List Val} (h : owVpnFiles sc config = .ok fs) :
    ∀ f ∈ fs, ∃ n t, f = owScript ("/openvpn/".toList ++ n) t := by
  unfold owVpnFiles at h
  obtain ⟨vpns, _, h⟩ := bind_ok_iff.1 h
  obtain ⟨taps, _, h⟩ := bind_ok_iff.1 h
  obtain ⟨gs, hg, h⟩ := bind_ok_iff.1 h
  cases h
  clear * - hg
  induction taps generalizing gs with
  | nil =>
    rw [mapM_ok_nil] at hg; cases hg; simp
  | cons v taps ih =>
    obtain ⟨g, gs', h1, h2, rfl⟩ := (mapM_ok_cons _ _ _ _).1 hg
    intro f hf
    simp only [List.flatten_cons, List.mem_append] at hf
    rcases hf with hf | hf
    · obtain ⟨up, hu, h1⟩ := bind_ok_iff.1 h1
      obtain ⟨down, hd, h1⟩ := bind_ok_iff.1 h1
      cases h1
      rcases List.mem_append.1 hf with hf | hf
      · obtain ⟨n, rfl⟩ := vpnFile_ok hu f hf
        exact ⟨n, _, rfl⟩
      · obtain ⟨n, rfl⟩ := vpnFile_ok hd f hf
        exact ⟨n, _, rfl⟩
    · exact ih gs' h2 f hf

/-- the scripts: `install.sh`, `uninstall.sh`, those of the layer 2 VPNs, `tc_script.sh` -/
theorem owAdded_ok {sc : OwScripts} {config : VDict} {fs : List Val} (h : owAdded sc config = .ok fs) :
    (∃ a v b c, fs = [owScript "/install.sh".toList a, owScript "/uninstall.sh".toList b] ++ v ++ [owScript "/tc_script.sh".toList c] ∧
      ∀ f ∈ v, ∃ n t, f = owScript ("/openvpn/".toList ++ n) t) := by
  unfold owAdded at h
  obtain ⟨ctx, _, h⟩ := bind_ok_iff.1 h
  obtain ⟨a, _, h⟩ := bind_ok_iff.1 h
  obtain ⟨b, _, h⟩ := bind_ok_iff.1 h
  obtain ⟨v, hv, h⟩ := bind_ok_iff.1 h
  obtain ⟨c, _, h⟩ := bind_ok_iff.1 h
  cases h
  exact ⟨a, v, b, c, rfl, vpnFiles_ok hv⟩

theorem owAdded_scripts {sc : OwScripts} {config : VDict} {fs : List Val} (h : owAdded sc config = .ok fs) : ∀ f ∈ fs, IsScript f := by
  obtain ⟨a, v, b, c, rfl, hv⟩ := owAdded_ok h
  intro f hf
  simp only [List.mem_append, List.mem_cons, List.not_mem_nil, or_false] at hf
  rcases hf with ((rfl | rfl) | hf) | rfl
  · exact ⟨_, _, rfl⟩
  · exact ⟨_, _, rfl⟩
  · obtain ⟨n, t, rfl⟩ := hv f hf
    exact ⟨_, _, rfl⟩
  · exact ⟨_, _, rfl⟩

/-! ## The archive -/

theorem owGenerate_ok {cls : Class} {sc : OwScripts} {st st' : BState} {ms : List Member} (h : owGenerate cls sc st = (st', .ok ms)) :
    ∃ st1 text ps fs more, owRender cls false st = (st1, .ok text) ∧ cls.split text = .ok ps ∧ owAdded sc st1.config = .ok fs ∧
      fs.foldlM owAddFile st1.config = .ok st'.config ∧ st'.inter = st1.inter ∧ processFiles st'.config = .ok more ∧ ms = ps ++ more := by
  unfold owGenerate at h
  cases hr : owRender cls false st with
  | mk st1 res =>
    rw [hr] at h
    cases res with
    | error e => cases h
    | ok text =>
      dsimp only at h
      split at h
      · cases h
      · next ms1 config hd =>
        obtain ⟨h0, h9⟩ := (Prod.mk.injEq _ _ _ _).mp h
        clear h
        subst h0
        obtain ⟨ps, h1, hd⟩ := bind_ok_iff.1 hd
        obtain ⟨fs, h2, hd⟩ := bind_ok_iff.1 hd
        obtain ⟨c, h3, hd⟩ := bind_ok_iff.1 hd
        cases hd
        obtain ⟨more, h4, h9⟩ := bind_ok_iff.1 h9
        cases h9
        exact ⟨st1, text, _, fs, more, rfl, h1, h2, h3, rfl, h4, rfl⟩

theorem owRender_ok {cls : Class} {f : Bool} {st st1 : BState} {t : Chars} (h : owRender cls f st = (st1, .ok t)) :
    ∃ c, owSanitize st.config = (c, .ok ()) ∧ render cls f ⟨c, st.inter⟩ = (st1, .ok t) := by
  unfold owRender at h
  cases hs : owSanitize st.config with
  | mk c r =>
    rw [hs] at h
    cases r with
    | error e => cases h
    | ok u => exact ⟨c, rfl, h⟩

/-- **C65.** The archive: one member `uci/NAME.conf` per package, followed by one member for every file: those of the configuration, and the
scripts, which are now part of it. -/
theorem C65_archive (cls : Class) (reprC : Val → String) (sc : OwScripts) (hn : cls.native = owNative reprC) (hs : cls.split = owSplit)
    (st st' : BState) (ms : List Member) (h : owGenerate cls sc st = (st', .ok ms)) (inter : VDict) (hi : st'.inter = some inter)
    (data : List (String × List VDict)) (hd : packagesOf inter = .ok data) (ht : Typed data) (hc : CleanOw reprC data) (ha : PlainOw reprC data) :
    ∃ st1 text ps fs scripts more, owRender cls false st = (st1, .ok text) ∧ owAdded sc st1.config = .ok scripts ∧
      Added st1.config st'.config scripts more ∧ ms = ps ++ fs ∧ List.Forall₂ (IsOwMember reprC) data ps ∧ processFiles st'.config = .ok fs := by
  obtain ⟨st1, text, ps, scripts, fs, hr, h1, h2, h3, h4, h5, rfl⟩ := owGenerate_ok h
  obtain ⟨more, hm⟩ := addFiles_ok scripts (owAdded_scripts h2) h3
  obtain ⟨c, _, hr'⟩ := owRender_ok hr
  obtain ⟨_, st2, he, htl⟩ := render_ok hr'
  obtain ⟨c2, _, rfl, out, ho, ho'⟩ := renderTail_ok htl
  have ho' : text = out := by
    rcases ho' with ⟨_, rfl⟩ | ⟨hf, _⟩
    · rfl
    · cases hf
  subst ho'
  rw [hi] at h4
  simp only at h4
  rw [← h4, hn] at ho
  unfold owNative at ho
  simp only [Option.getD_some] at ho
  rw [hd] at ho
  have ho : Except.ok (owText reprC data) = (Except.ok text : Except PyErr Chars) := ho
  cases ho
  obtain ⟨ps', h6, h7⟩ := C65_one_member_per_package reprC data ht hc ha
  rw [hs, h6] at h1
  cases h1
  exact ⟨_, _, ps, fs, scripts, more, hr, h2, hm, rfl, h7, h5⟩

/-- **C65.** Every script is in the archive: with the path of the script, mode 755 and its text (as bytes, see C22). -/
theorem C65_scripts_in_archive (cls : Class) (sc : OwScripts) (st st' : BState) (ms : List Member) (h : owGenerate cls sc st = (st', .ok ms)) :
    ∃ st1 text install uninstall tc vpn, owRender cls false st = (st1, .ok text) ∧
      owAdded sc st1.config = .ok ([owScript "/install.sh".toList install, owScript "/uninstall.sh".toList uninstall] ++ vpn ++
        [owScript "/tc_script.sh".toList tc]) ∧
      (∀ f ∈ vpn, ∃ n t, f = owScript ("/openvpn/".toList ++ n) t) ∧
      ∀ p c, owScript p c ∈ [owScript "/install.sh".toList install, owScript "/uninstall.sh".toList uninstall] ++ vpn ++
        [owScript "/tc_script.sh".toList tc] → (⟨memberName p, 0o755, (utf8 c).take c.length⟩ : Member) ∈ ms := by
  obtain ⟨st1, text, ps, scripts, fs, hr, h1, h2, h3, h4, h5, rfl⟩ := owGenerate_ok h
  obtain ⟨more, hm⟩ := addFiles_ok scripts (owAdded_scripts h2) h3
  obtain ⟨a, v, b, c, rfl, hv⟩ := owAdded_ok h2
  refine ⟨st1, text, a, b, c, v, hr, h2, hv, ?_⟩
  intro p t hp
  obtain ⟨f, hf, hq⟩ := hm.all _ hp
  have hfi := script_eq hq
  unfold processFiles at h5
  obtain ⟨items, hit, h5⟩ := bind_ok_iff.1 h5
  have hmem : (⟨p, "755".toList, t⟩ : FileItem) ∈ items := by
    generalize filesOf st'.config = l at hit hf
    clear * - hit hf hfi
    induction l generalizing items with
    | nil => cases hf
    | cons g gs ih =>
      obtain ⟨x, xs, hx, hxs, rfl⟩ := (mapM_ok_cons _ _ _ _).1 hit
      rcases List.mem_cons.1 hf with rfl | hf
      · rw [hfi] at hx; cases hx; simp
      · exact List.mem_cons_of_mem _ (ih _ hxs hf)
  refine List.mem_append_right _ ?_
  clear * - h5 hmem
  induction items generalizing fs with
  | nil => cases hmem
  | cons g gs ih =>
    obtain ⟨x, xs, hx, hxs, rfl⟩ := (mapM_ok_cons _ _ _ _).1 h5
    rcases List.mem_cons.1 hmem with rfl | hmem
    · unfold addFile at hx
      rw [show parseOct "755".toList = .ok 0o755 by decide] at hx
      cases hx
      simp
    · exact List.mem_cons_of_mem _ (ih _ hxs hmem)

theorem addFile_name {n c m : Chars} {x : Member} (h : addFile n c m = .ok x) : x.name = n := by
  unfold addFile at h
  obtain ⟨k, _, h⟩ := bind_ok_iff.1 h
  cases h
  rfl

/-- **C65.** The archive cannot be read back: as far as the parser is concerned it is empty (unless one of the files is in `etc/config`). -/
theorem C65_not_read_back (cls : Class) (sc : OwScripts) (st st' : BState) (ms : List Member) (h : owGenerate cls sc st = (st', .ok ms))
    (hs : cls.split = owSplit)
    (hp : ∀ fs, processFiles st'.config = .ok fs → ∀ m ∈ fs, ¬ "etc/config/".toList <+: m.name) : parseTar ms = .ok [] := by
  obtain ⟨st1, text, ps, scripts, fs, hr, h1, h2, h3, h4, h5, rfl⟩ := owGenerate_ok h
  have hps : ∀ m ∈ ps, ¬ configPath <+: m.name := by
    rw [hs] at h1
    unfold owSplit at h1
    intro m hm
    generalize removeFirstEmpty (splitLit packageWord 0 text) = l at h1
    clear * - h1 hm
    induction l generalizing ps with
    | nil => rw [mapM_ok_nil] at h1; cases h1; cases hm
    | cons g gs ih =>
      obtain ⟨x, xs, hx, hxs, rfl⟩ := (mapM_ok_cons _ _ _ _).1 h1
      rcases List.mem_cons.1 hm with rfl | hm
      · intro hc
        rw [addFile_name hx] at hc
        obtain ⟨t, ht⟩ := hc
        have e1 : "uci/".toList = 'u' :: "ci/".toList := by decide
        have e2 : configPath = 'e' :: "tc/config/".toList := by decide
        rw [e1, e2] at ht
        exact absurd (congrArg List.head? ht) (by simp)
      · exact ih _ hm hxs
  have e := tarText_other (ps ++ fs) (by
    intro m hm
    rcases List.mem_append.1 hm with hm | hm
    · exact hps m hm
    · exact hp fs h5 m hm) []
  rw [List.nil_append] at e
  unfold parseTar
  rw [e]
  rfl

/-! ## Generating again -/

theorem owCron_append (fs more : List Val) {b : Bool} (h : owCron fs = .ok b)
    (hm : ∀ m ∈ more, ∃ p c, m = owScript p c ∧ ¬ "/crontabs".toList <+: p ∧ ¬ "crontabs".toList <+: p) : owCron (fs ++ more) = .ok b := by
  induction fs generalizing b with
  | nil =>
    cases h
    rw [List.nil_append]
    induction more with
    | nil => rfl
    | cons m more ih =>
      obtain ⟨p, c, rfl, h1, h2⟩ := hm m (by simp)
      have e : filePath (owScript p c) = .ok p := by simp [filePath, owScript, txt, reqStr]
      rw [owCron, e]
      show (if "/crontabs".toList <+: p ∨ "crontabs".toList <+: p then _ else _) = _
      rw [if_neg (by simp only [not_or]; exact ⟨h1, h2⟩)]
      exact ih (fun x hx => hm x (by simp [hx]))
  | cons f fs ih =>
    rw [List.cons_append]
    unfold owCron at h ⊢
    obtain ⟨p, hp, h⟩ := bind_ok_iff.1 h
    rw [hp]
    show (if _ then _ else _) = _
    by_cases hc : "/crontabs".toList <+: p ∨ "crontabs".toList <+: p
    · rw [if_pos hc] at h ⊢; exact h
    · rw [if_neg hc] at h ⊢; exact ih h

theorem script_path_plain {sc : OwScripts} {config : VDict} {fs : List Val} (h : owAdded sc config = .ok fs) :
    ∀ m ∈ fs, ∃ p c, m = owScript p c ∧ ¬ "/crontabs".toList <+: p ∧ ¬ "crontabs".toList <+: p := by
  obtain ⟨a, v, b, c, rfl, hv⟩ := owAdded_ok h
  intro m hm
  simp only [List.mem_append, List.mem_cons, List.not_mem_nil, or_false] at hm
  rcases hm with ((rfl | rfl) | hm) | rfl
  · exact ⟨_, _, rfl, by decide +kernel, by decide +kernel⟩
  · exact ⟨_, _, rfl, by decide +kernel, by decide +kernel⟩
  · obtain ⟨n, t, rfl⟩ := hv m hm
    refine ⟨_, _, rfl, ?_, ?_⟩
    · rw [show "/crontabs".toList = '/' :: 'c' :: "rontabs".toList by decide, show "/openvpn/".toList = '/' :: 'o' :: "penvpn/".toList by decide]
      simp [List.cons_prefix_cons]
    · rw [show "crontabs".toList = 'c' :: "rontabs".toList by decide, show "/openvpn/".toList = '/' :: "openvpn/".toList by decide]
      simp [List.cons_prefix_cons]
  · exact ⟨_, _, rfl, by decide +kernel, by decide +kernel⟩

theorem owItems_files {config : VDict} {l : List Val} (h : owItems config "files" = .ok l) : filesOf config = l := by
  unfold owItems at h
  unfold filesOf
  cases hf : Dict.get? config "files" with
  | none => rw [hf] at h; cases h; rfl
  | some v =>
    rw [hf] at h
    cases v with
    | list l' => cases h; rfl
    | _ => cases h

theorem addFiles_list {config config' : VDict} (scripts : List Val) (hne : scripts ≠ []) (h : scripts.foldlM owAddFile config = .ok config') :
    Dict.get? config' "files" = some (.list (filesOf config')) := by
  induction scripts generalizing config with
  | nil => exact absurd rfl hne
  | cons s scripts ih =>
    rw [List.foldlM_cons] at h
    obtain ⟨c1, h1, h⟩ := bind_ok_iff.1 h
    by_cases hn : scripts = []
    · subst hn
      cases h
      unfold owAddFile at h1
      cases hf : Dict.get? config "files" with
      | none => rw [hf] at h1; cases h1; rw [filesOf_set, Dict.get?_set_self]
      | some v =>
        rw [hf] at h1
        cases v with
        | list l =>
          simp only [Except.ok.injEq] at h1
          subst h1
          split
          · simp [filesOf, hf]
          · rw [filesOf_set, Dict.get?_set_self]
        | _ => cases h1
    · exact ih hn h

/-- the scripts do not depend on the scripts that are already among the files -/
theorem owAdded_again {sc : OwScripts} {config config' : VDict} {fs more : List Val} (h : owAdded sc config = .ok fs)
    (hl : Dict.get? config' "files" = some (.list (filesOf config'))) (ha : Added config config' fs more) : owAdded sc config' = .ok fs := by
  have hpl := script_path_plain h
  have hk : ∀ k, k ≠ "files" → owItems config' k = owItems config k := by
    intro k hk; unfold owItems; rw [ha.rest k hk]
  have hctx : ∀ ctx, owContext config = .ok ctx → owContext config' = .ok ctx := by
    intro ctx hc
    unfold owContext at hc ⊢
    obtain ⟨vpns, h1, hc⟩ := bind_ok_iff.1 hc
    obtain ⟨taps, h2, hc⟩ := bind_ok_iff.1 hc
    obtain ⟨ifs, h3, hc⟩ := bind_ok_iff.1 hc
    obtain ⟨bridges, h4, hc⟩ := bind_ok_iff.1 hc
    obtain ⟨files, h5, hc⟩ := bind_ok_iff.1 hc
    obtain ⟨cron, h6, hc⟩ := bind_ok_iff.1 hc
    obtain ⟨host, h7, hc⟩ := bind_ok_iff.1 hc
    have e5 : owItems config' "files" = .ok (files ++ more) := by
      unfold owItems
      rw [hl, ha.files, owItems_files h5]
    have e6 := owCron_append files more h6 (fun m hm => hpl m (ha.only m hm))
    have e7 : owHostname config' = .ok host := by
      unfold owHostname at h7 ⊢
      rw [ha.rest "general" (by decide)]
      exact h7
    rw [hk "openvpn" (by decide), h1]
    simp only [bind, Except.bind]
    rw [h2]
    dsimp only
    rw [hk "interfaces" (by decide), h3]
    dsimp only
    rw [h4]
    dsimp only
    rw [e5]
    dsimp only
    rw [e6]
    dsimp only
    rw [e7]
    dsimp only
    rw [ha.rest "radios" (by decide)]
    exact hc
  have hvpn : owVpnFiles sc config' = owVpnFiles sc config := by
    unfold owVpnFiles; rw [hk "openvpn" (by decide)]
  unfold owAdded at h ⊢
  obtain ⟨ctx, h1, h⟩ := bind_ok_iff.1 h
  rw [hctx ctx h1, hvpn, ha.rest "tc_options" (by decide)]
  exact h

theorem addFiles_again {config : VDict} (hl : Dict.get? config "files" = some (.list (filesOf config))) (fs : List Val)
    (h : ∀ s ∈ fs, ∃ f ∈ filesOf config, Val.pyEq s f = true) : fs.foldlM owAddFile config = .ok config := by
  induction fs with
  | nil => rfl
  | cons s fs ih =>
    obtain ⟨f, hf, hq⟩ := h s (by simp)
    have e : owAddFile config s = .ok config := by
      unfold owAddFile
      rw [hl]
      dsimp only
      rw [if_pos (List.any_eq_true.2 ⟨f, hf, hq⟩)]
    rw [List.foldlM_cons, e]
    exact ih (fun x hx => h x (by simp [hx]))

/-- **C65.** Generating again gives the same archive and leaves the object as it is, provided no two files have the same path and the
object passes `validate()`. -/
theorem C65_generate_again (cls : Class) (sc : OwScripts) (st st' : BState) (ms : List Member) (h : owGenerate cls sc st = (st', .ok ms))
    (ps : List Chars) (hp : (filesOf st'.config).mapM filePath = .ok ps) (hn : ps.Nodup) (hv : owispValidate cls st'.config = (st'.config, .ok ())) :
    owGenerate cls sc st' = (st', .ok ms) := by
  obtain ⟨st1, text, ms1, fs, more, hr, h1, h2, h3, h4, h5, rfl⟩ := owGenerate_ok h
  obtain ⟨added, hm⟩ := addFiles_ok fs (owAdded_scripts h2) h3
  have hne : fs ≠ [] := by
    obtain ⟨a, v, b, c, rfl, hv⟩ := owAdded_ok h2
    simp
  have hl := addFiles_list fs hne h3
  obtain ⟨c, _, hr'⟩ := owRender_ok hr
  obtain ⟨_, st2, he, htl⟩ := render_ok hr'
  obtain ⟨i, hi⟩ := ensure_inter he
  obtain ⟨c2, _, rfl, out, ho, ho'⟩ := renderTail_ok htl
  have ho' : text = out := by
    rcases ho' with ⟨_, rfl⟩ | ⟨hf, _⟩
    · rfl
    · cases hf
  subst ho'
  have hsan : owSanitize st'.config = (st'.config, .ok ()) ∧ validate cls st'.config = .ok () := by
    unfold owispValidate at hv
    cases hs : owSanitize st'.config with
    | mk x r =>
      rw [hs] at hv
      cases r with
      | error e => cases hv
      | ok u =>
        obtain ⟨rfl, hv⟩ := (Prod.mk.injEq _ _ _ _).mp hv
        exact ⟨rfl, hv⟩
  have hinter : st'.inter = some i := h4.trans hi
  have hst : (⟨st'.config, st'.inter⟩ : BState) = st' := rfl
  have hrend : owRender cls false st' = (st', .ok text) := by
    unfold owRender
    rw [hsan.1]
    dsimp only
    unfold render
    rw [hsan.2]
    simp only [ensureIntermediate, hinter]
    unfold renderTail
    rw [deduplicateFiles_nodup hp hn]
    rw [hi] at ho
    have ho2 : cls.native (st'.inter.getD []) = .ok text := by rw [hinter]; exact ho
    simp only [← hinter, hst, ho2]
    rfl
  unfold owGenerate
  rw [hrend]
  dsimp only
  rw [h1]
  simp only [bind, Except.bind]
  rw [owAdded_again h2 hl hm]
  dsimp only
  rw [addFiles_again hl fs hm.all]
  simp only [pure, Except.pure]
  rw [h5]

/-! ## Cases -/

/-- scripts that show what they are given -/
def sampleScripts : OwScripts where
  install := fun ctx => match Dict.get? ctx "hostname" with
    | some (.str h) => .ok ("host ".toList ++ h.toList)
    | _ => .ok []
  uninstall := fun ctx => match Dict.get? ctx "cron" with
    | some (.bool true) => .ok "cron".toList
    | _ => .ok []
  up := "up".toList
  down := "down".toList
  tc := fun _ => .ok "tc".toList

def sampleOw : Class := openwispClass sampleEnv (fun _ => .ok ()) (fun _ => false) (fun _ => none) false

def sampleOwConfig (files : List Val) : VDict :=
  [("general", .dict [("hostname", .str "ap1")]),
   ("openvpn", .list [.dict [("name", .str "tap0"), ("dev_type", .str "tap"), ("up", .str "/tmp/owispmanager/openvpn/vpn_up.sh")]]),
   ("files", .list files)]

/-- names and modes of the members, twice in a row -/
def owTwice (config : VDict) : List (List (String × Nat)) :=
  let show1 (r : BState × Except PyErr (List Member)) := match r.2 with
    | .ok ms => ms.map (fun m => (String.ofList m.name, m.mode))
    | .error _ => []
  [show1 (owGenerate sampleOw sampleScripts ⟨config, none⟩),
   show1 (owGenerate sampleOw sampleScripts (owGenerate sampleOw sampleScripts ⟨config, none⟩).1)]

/-- an archive, and the same archive again -/
example : owTwice (sampleOwConfig [.dict [("path", .str "/crontabs/root"), ("contents", .str "x")]]) =
    [[("uci/system.conf", 420), ("uci/openvpn.conf", 420), ("crontabs/root", 420), ("install.sh", 493), ("uninstall.sh", 493),
      ("openvpn/vpn_up.sh", 493), ("tc_script.sh", 493)],
     [("uci/system.conf", 420), ("uci/openvpn.conf", 420), ("crontabs/root", 420), ("install.sh", 493), ("uninstall.sh", 493),
      ("openvpn/vpn_up.sh", 493), ("tc_script.sh", 493)]] := by decide +kernel

/-- **C65, limit.** A file `/install.sh` of the user's own: the first archive holds both, the second one only one of them. -/
theorem C65_needs_distinct_paths : owTwice (sampleOwConfig [.dict [("path", .str "/install.sh"), ("contents", .str "mine")]]) =
    [[("uci/system.conf", 420), ("uci/openvpn.conf", 420), ("install.sh", 420), ("install.sh", 493), ("uninstall.sh", 493),
      ("openvpn/vpn_up.sh", 493), ("tc_script.sh", 493)],
     [("uci/system.conf", 420), ("uci/openvpn.conf", 420), ("install.sh", 493), ("uninstall.sh", 493), ("openvpn/vpn_up.sh", 493),
      ("tc_script.sh", 493)]] := by decide +kernel

instance (l : Chars) : Decidable (CleanLine l) := inferInstanceAs (Decidable (_ ∧ _))

/-- data that meets the hypotheses of `C65_exact_lines` and `C65_one_member_per_package` -/
example : Typed [("system", [[(".type", .str "system"), (".name", .str "a"), ("hostname", .str "x"), ("l", .list [.str "1", .str "2"])]])] ∧
    CleanOw (fun _ => "") [("system", [[(".type", .str "system"), (".name", .str "a"), ("hostname", .str "x"), ("l", .list [.str "1", .str "2"])]])] ∧
    PlainOw (fun _ => "") [("system", [[(".type", .str "system"), (".name", .str "a"), ("hostname", .str "x"), ("l", .list [.str "1", .str "2"])]])] := by
  unfold Typed CleanOw PlainOw
  refine ⟨by decide +kernel, by decide +kernel, by decide +kernel⟩

example : owText (fun _ => "") [("system", [[(".type", .str "system"), (".name", .str "a"), ("hostname", .str "x"), ("l", .list [.str "1", .str "2"])]])] =
    "package system\n\nconfig 'system' 'a'\n\toption 'hostname' 'x'\n\tlist 'l' '1'\n\tlist 'l' '2'\n".toList := by decide +kernel

example : owSanitize [("radios", .list [.dict [("name", .str "radio0")], .dict [("name", .str "radio1"), ("disabled", .bool true)]])] =
    ([("radios", .list [.dict [("name", .str "radio0"), ("disabled", .bool false)], .dict [("name", .str "radio1"), ("disabled", .bool true)]])], .ok ()) := by
  decide +kernel

end NJ
