import Verif.SafeConv
import Verif.SafeIfaces
import Verif.SafeRest
import Verif.OpenWrt
import Verif.PropsBackend

/-!
# Which configurations are rendered without an internal error

The steps of `render` put together: converters, merging of what they make, removal of duplicate files, the text.
-/

namespace NJ

/-- what the converters of the OpenWrt backend ask of a configuration -/
structure ConfigFit (env : Env) (config : VDict) : Prop where
  general : Opt config "general" (IsObj (GeneralFit env))
  ntp : Opt config "ntp" (IsObj NtpFit)
  led : Opt config "led" (IsLst (IsObj LedFit))
  ifaces : Opt config "interfaces" (IsLst (IsObj fun d => IfaceFit d ∧ WirelessFit d))
  dnsServers : Opt config "dns_servers" (IsLst IsTxt)
  dnsSearch : Opt config "dns_search" (IsLst IsTxt)
  routes : Opt config "routes" (IsLst (IsObj (RouteFit env)))
  rules : Opt config "ip_rules" (IsLst (IsObj (RuleFit env)))
  switch : Opt config "switch" (IsLst (IsObj SwitchFit))
  radios : Opt config "radios" (IsLst (IsObj RadioFit))
  openvpn : Opt config "openvpn" (IsLst (IsObj VpnFit))
  peers : Opt config "wireguard_peers" (IsLst (IsObj PeerFit))
  zerotier : Opt config "zerotier" (IsLst (IsObj ZtFit))
  files : FilesFit config
  customs : CustomsFit knownKeys config

theorem ConfigFit.changed {env : Env} {config config' : VDict} (h : ConfigFit env config) (hf : FilesFit config') (ho : FilesOnly config config') :
    ConfigFit env config' := by
  have key : ∀ {k : String} {P : Val → Prop}, k ≠ "files" → Opt config k P → Opt config' k P := fun hk hP v hv => hP v (by rw [← ho.1 _ hk]; exact hv)
  exact ⟨key (by decide) h.general, key (by decide) h.ntp, key (by decide) h.led, key (by decide) h.ifaces, key (by decide) h.dnsServers,
    key (by decide) h.dnsSearch, key (by decide) h.routes, key (by decide) h.rules, key (by decide) h.switch, key (by decide) h.radios,
    key (by decide) h.openvpn, key (by decide) h.peers, key (by decide) h.zerotier, hf,
    fun k l hm hk => h.customs k l (ho.2 _ hm fun e => hk (by rw [show k = "files" from e]; decide)) hk⟩

/-- a converter that raises no internal error -/
def ConvSafe (J J' : VDict → Prop) (c : Conv) : Prop :=
  ∀ config inter, J config → IsPkgs inter → c.should config = true → J' (c.run config inter).1 ∧ Safe IsPkgs (c.run config inter).2

/-- one step of the loop -/
theorem convLoop_step {cls : Class} {J J' : VDict → Prop} (hJJ : ∀ c, J c → J' c) {c : Conv} {cs : List Conv} {config inter : VDict} (hc : ConvSafe J J' c)
    (hJ : J config) (hi : IsPkgs inter) {Q : BState × Except PyErr Unit → Prop}
    (hQ : ∀ config' inter', Q (⟨config', inter'⟩, .error .validation))
    (hn : ∀ config' inter', J' config' → IsPkgs inter' → Q (convLoop cls cs config' inter')) : Q (convLoop cls (c :: cs) config inter) := by
  rw [convLoop]
  split
  · exact hn _ _ (hJJ _ hJ) hi
  · rename_i hs
    have h := hc config inter hJ hi (by simpa using hs)
    generalize c.run config inter = x at h
    obtain ⟨config', r⟩ := x
    obtain ⟨h1, h2⟩ := h
    cases r with
    | error e => cases h2; exact hQ _ _
    | ok value =>
      dsimp only
      split
      · exact hn _ _ h1 hi
      · have hm := mergePkgs_safe cls.sh hi h2
        cases hx : mergeConfig cls.sh [".name"] inter value with
        | error e => rw [hx] at hm; cases hm; exact hQ _ _
        | ok i => rw [hx] at hm; exact hn _ _ h1 hm

/-- how the conversion ends -/
def LoopEnds (J : VDict → Prop) (x : BState × Except PyErr Unit) : Prop :=
  (∃ i, x.1.inter = some i ∧ IsPkgs i) ∧ J x.1.config ∧ x.2 = .ok () ∨ x.2 = .error .validation

/-- the conversion leaves packages of blocks and a fit configuration, or raises `ValidationError` -/
theorem convLoop_safe {cls : Class} {J J' : VDict → Prop} (hJJ : ∀ c, J c → J' c) {cs : List Conv} {last : Conv} (hc : ∀ c ∈ cs, ConvSafe J J c)
    (hl : ConvSafe J J' last) {config inter : VDict} (hJ : J config) (hi : IsPkgs inter) : LoopEnds J' (convLoop cls (cs ++ [last]) config inter) := by
  induction cs generalizing config inter with
  | nil => exact convLoop_step hJJ hl hJ hi (fun _ _ => Or.inr rfl) fun c' i' h1 h2 => Or.inl ⟨⟨_, rfl, h2⟩, h1, rfl⟩
  | cons c cs ih =>
    exact convLoop_step (fun _ h => h) (hc c List.mem_cons_self) hJ hi (fun _ _ => Or.inr rfl) fun config' inter' h1 h2 =>
      ih (fun c hm => hc c (List.mem_cons_of_mem _ hm)) h1 h2

theorem convSafe_pure {J : VDict → Prop} {key : String} {run : VDict → VDict → Except PyErr VDict}
    (h : ∀ config inter, J config → IsPkgs inter → Dict.has config key = true → Safe IsPkgs (run config inter)) : ConvSafe J J (pureConv key run) :=
  fun config inter hJ hi hs => ⟨hJ, h config inter hJ hi hs⟩

/-! ## The default converter -/

theorem defaultLoop_files {env : Env} {known : List String} (hf : "files" ∈ known) (config : VDict) :
    Dict.get? (defaultLoop env known config).1 "files" = Dict.get? config "files" := by
  induction config with
  | nil => rfl
  | cons p r ih =>
    obtain ⟨k, v⟩ := p
    rw [defaultLoop.eq_def]
    dsimp only
    split
    · split
      · rw [Dict.get?_cons, Dict.get?_cons, ih]
      · rename_i hk
        have hne : k ≠ "files" := fun e => hk (e ▸ hf)
        split
        · rw [Dict.get?_cons, Dict.get?_cons, if_neg hne, if_neg hne]
        · rw [Dict.get?_cons, Dict.get?_cons, if_neg hne, if_neg hne, ih]
    · rw [Dict.get?_cons, Dict.get?_cons, ih]

/-! ## The converters of the OpenWrt backend -/

theorem openwrt_convs_safe (env : Env) (sh : Val → Bool) (dsa : Bool) :
    ∀ c ∈ [generalConv env, ntpConv, ledConv env, ifacesConv sh env dsa, routesConv env, rulesConv env, switchConv env,
      radiosConv env dsa, wirelessConv env dsa, uciVpnConv env, peersConv, ztConv env], ConvSafe (ConfigFit env) (ConfigFit env) c := by
  intro c hc
  simp only [List.mem_cons, List.not_mem_nil, or_false] at hc
  rcases hc with rfl | rfl | rfl | rfl | rfl | rfl | rfl | rfl | rfl | rfl | rfl | rfl
  · exact convSafe_pure fun config inter hJ _ hs => general_safe (key_of hs hJ.general)
  · exact convSafe_pure fun config inter hJ _ hs => ntp_safe (key_of hs hJ.ntp)
  · exact convSafe_pure fun config inter hJ _ hs => led_safe (key_of hs hJ.led)
  · refine convSafe_pure fun config inter hJ _ hs => ifaces_safe (key_mono (key_of hs hJ.ifaces) ?_) hJ.dnsServers hJ.dnsSearch
    rintro v ⟨l, rfl, hl⟩
    exact ⟨l, rfl, fun x hx => ⟨_, (hl x hx).choose_spec.1, (hl x hx).choose_spec.2.1⟩⟩
  · exact convSafe_pure fun config inter hJ _ hs => routes_safe (key_of hs hJ.routes)
  · exact convSafe_pure fun config inter hJ _ hs => rules_safe (key_of hs hJ.rules)
  · exact convSafe_pure fun config inter hJ _ hs => switch_safe (key_of hs hJ.switch)
  · exact convSafe_pure fun config inter hJ _ hs => radios_safe (key_of hs hJ.radios)
  · refine convSafe_pure fun config inter hJ hi hs => wireless_safe hi (key_mono (key_of hs hJ.ifaces) ?_)
    rintro v ⟨l, rfl, hl⟩
    exact ⟨l, rfl, fun x hx => ⟨_, (hl x hx).choose_spec.1, (hl x hx).choose_spec.2.2⟩⟩
  · intro config inter hJ hi hs
    obtain ⟨h1, h2, h3⟩ := vpn_safe (env := env) (inter := inter) (key_of hs hJ.openvpn) hJ.files
    exact ⟨hJ.changed h1 h2, h3⟩
  · exact convSafe_pure fun config inter hJ _ hs => peers_safe (key_of hs hJ.peers)
  · intro config inter hJ hi hs
    obtain ⟨h1, h2, h3⟩ := zt_safe (env := env) (inter := inter) (key_of hs hJ.zerotier) hJ.files
    exact ⟨hJ.changed h1 h2, h3⟩

theorem default_conv_safe (env : Env) : ConvSafe (ConfigFit env) FilesFit (defaultConv env knownKeys) := by
  intro config inter hJ _ _
  refine ⟨?_, default_safe hJ.customs⟩
  intro v hv
  exact hJ.files v (by rw [← defaultLoop_files (env := env) (known := knownKeys) (by decide) config]; exact hv)

/-! ## The end of `render` -/

theorem native_safe {reprC : Val → String} {inter : VDict} (h : IsPkgs inter) : Safe (fun _ => True) (uciNative reprC inter) := by
  unfold uciNative packagesOf
  refine safe_bind (safe_mapM (P := fun _ => True) fun p hp => ?_) fun _ _ => trivial
  refine safe_bind (Q := fun _ => True) ?_ fun _ _ => trivial
  obtain ⟨l, e, hl⟩ := h p hp
  rw [e]
  unfold blocksOf
  refine safe_mono (safe_mapM (P := fun _ => True) fun v hv => ?_) fun _ _ => trivial
  obtain ⟨d, rfl, -⟩ := hl v hv
  trivial

theorem filesOf_fit {config : VDict} (h : FilesFit config) : ∀ v ∈ filesOf config, IsObj FileFit v := by
  intro v hv
  unfold filesOf at hv
  split at hv
  · rename_i l hl
    obtain ⟨l', e, h'⟩ := h _ hl
    cases e
    exact h' v hv
  · cases hv

theorem reqStr_safe {d : VDict} {k : String} (h : Key d k IsTxt) : Safe (fun _ => True) (reqStr d k) := by
  obtain ⟨v, hv, s, rfl⟩ := h
  unfold reqStr
  rw [hv]
  trivial

theorem optStr_safe {d : VDict} {k : String} {x : Chars} (h : Opt d k IsTxt) : Safe (fun _ => True) (optStr d k x) := by
  unfold optStr
  cases hg : Dict.get? d k with
  | none => trivial
  | some v => obtain ⟨s, rfl⟩ := h v hg; trivial

theorem dedupLoop_safe {l : List Val} (h : ∀ v ∈ l, IsObj FileFit v) {acc : Dict Chars Val} (ha : ∀ p ∈ acc, IsObj FileFit p.2) :
    Safe (fun d => ∀ p ∈ d, IsObj FileFit p.2) (dedupLoop acc l) := by
  induction l generalizing acc with
  | nil => exact ha
  | cons f r ih =>
    rw [dedupLoop]
    refine safe_bind (Q := fun _ => True) ?_ fun p _ => ih (fun v hv => h v (List.mem_cons_of_mem _ hv)) ?_
    · obtain ⟨d, rfl, hd⟩ := h f List.mem_cons_self
      exact reqStr_safe hd.1
    · intro q hq
      rcases mem_set hq with e | hq
      · rw [e]; exact h f List.mem_cons_self
      · exact ha q hq

theorem dedup_safe {config : VDict} (h : FilesFit config) : Safe FilesFit (deduplicateFiles config) := by
  unfold deduplicateFiles
  have hf := filesOf_fit h
  split
  · exact h
  · refine safe_bind (dedupLoop_safe hf fun _ hp => nomatch hp) fun d hd => ?_
    refine opt_of_key (key_set_self ⟨_, rfl, fun v hv => ?_⟩)
    obtain ⟨p, hp, rfl⟩ := List.mem_map.1 hv
    exact hd p hp

theorem filesSection_safe {config : VDict} (h : FilesFit config) : Safe (fun _ => True) (filesSection config) := by
  unfold filesSection renderFiles
  refine safe_bind (Q := fun _ => True) (safe_bind (safe_mapM (P := fun _ => True) fun v hv => ?_) fun _ _ => trivial) fun _ _ => trivial
  obtain ⟨d, rfl, h1, h2, h3⟩ := filesOf_fit h v hv
  exact safe_bind (reqStr_safe h1) fun _ _ => safe_bind (reqStr_safe h2) fun _ _ => safe_bind (optStr_safe (fun v hv => isMode_txt (h3 v hv))) fun _ _ => trivial

/-- files of a fit configuration become members of the archive -/
theorem processFiles_safe {config : VDict} (h : FilesFit config) : ∃ ms, processFiles config = .ok ms := by
  have h1 : Safe (fun l => ∀ f ∈ l, ∃ n, parseOct f.mode = .ok n) ((filesOf config).mapM fileItem) := by
    refine safe_mapM fun v hv => ?_
    obtain ⟨d, rfl, ⟨p, hp, ps, rfl⟩, ⟨c, hc, cs, rfl⟩, h3⟩ := filesOf_fit h v hv
    unfold fileItem reqStr optStr
    dsimp only
    rw [hp, hc]
    cases hm : Dict.get? d "mode" with
    | none => exact ⟨420, show parseOct "0644".toList = _ by decide⟩
    | some m => obtain ⟨s, rfl, n, hn⟩ := h3 m hm; exact ⟨n, hn⟩
  have h0 : ∃ fs, (filesOf config).mapM fileItem = .ok fs := by
    have hf := filesOf_fit h
    generalize filesOf config = l at hf
    clear * - hf
    induction l with
    | nil => exact ⟨[], rfl⟩
    | cons v l ih =>
      obtain ⟨d, rfl, ⟨p, hp, ps, rfl⟩, ⟨c, hc, cs, rfl⟩, h3⟩ := hf v List.mem_cons_self
      obtain ⟨fs, hfs⟩ := ih fun w hw => hf w (List.mem_cons_of_mem _ hw)
      have : ∃ f, fileItem (.dict d) = .ok f := by
        unfold fileItem reqStr optStr
        dsimp only
        rw [hp, hc]
        cases hm : Dict.get? d "mode" with
        | none => exact ⟨_, rfl⟩
        | some m => obtain ⟨s, rfl, n, hn⟩ := h3 m hm; exact ⟨_, rfl⟩
      obtain ⟨f, hf'⟩ := this
      exact ⟨f :: fs, by rw [List.mapM_cons, hf', hfs]; rfl⟩
  obtain ⟨fs, hfs⟩ := h0
  rw [hfs] at h1
  have h2 : ∃ ms, fs.mapM (fun f => addFile (memberName f.path) f.contents f.mode) = .ok ms := by
    change ∀ f ∈ fs, ∃ n, parseOct f.mode = .ok n at h1
    clear * - h1
    induction fs with
    | nil => exact ⟨[], rfl⟩
    | cons f fs ih =>
      obtain ⟨ms, hms⟩ := ih fun g hg => h1 g (List.mem_cons_of_mem _ hg)
      obtain ⟨n, hn⟩ := h1 f List.mem_cons_self
      refine ⟨⟨memberName f.path, n, (utf8 f.contents).take f.contents.length⟩ :: ms, ?_⟩
      rw [List.mapM_cons, hms]
      unfold addFile
      rw [hn]
      rfl
  obtain ⟨ms, hms⟩ := h2
  refine ⟨ms, ?_⟩
  unfold processFiles
  rw [hfs]
  exact hms

/-- the files made of a native text -/
theorem addFile_ok {α : Type} (l : List α) (name contents : α → Chars) : ∃ ms, l.mapM (fun a => addFile (name a) (contents a) "0644".toList) = .ok ms := by
  induction l with
  | nil => exact ⟨[], rfl⟩
  | cons a l ih =>
    obtain ⟨ms, hms⟩ := ih
    have : addFile (name a) (contents a) "0644".toList = .ok ⟨name a, 420, (utf8 (contents a)).take (contents a).length⟩ := by
      unfold addFile
      rw [show parseOct "0644".toList = .ok 420 by decide]
      rfl
    exact ⟨_ :: ms, by rw [List.mapM_cons, hms, this]; rfl⟩

theorem uciSplit_ok (t : Chars) : ∃ ms, uciSplit t = .ok ms := addFile_ok _ _ _

/-- what `render` leaves behind when it succeeds -/
theorem renderTail_files {cls : Class} {files : Bool} {st : BState} {t : Chars} (hf : FilesFit st.config) (h : (renderTail cls files st).2 = .ok t) :
    FilesFit (renderTail cls files st).1.config := by
  unfold renderTail at h ⊢
  have hd := dedup_safe hf
  cases hx : deduplicateFiles st.config with
  | error e => rw [hx] at h; cases h
  | ok c => rw [hx] at hd; exact hd

theorem renderTail_safe {cls : Class} {reprC : Val → String} (hn : cls.native = uciNative reprC) (files : Bool) {config inter : VDict}
    (hi : IsPkgs inter) (hf : FilesFit config) : Safe (fun _ => True) (renderTail cls files ⟨config, some inter⟩).2 := by
  unfold renderTail
  have hd := dedup_safe hf
  dsimp only
  cases hx : deduplicateFiles config with
  | error e => rw [hx] at hd; exact hd
  | ok c =>
    rw [hx] at hd
    dsimp only
    rw [hn]
    refine safe_bind (native_safe (show IsPkgs inter from hi)) fun out _ => ?_
    split
    · exact safe_bind (filesSection_safe hd) fun _ _ => trivial
    · trivial

/-- A configuration that passes validation and is fit for the converters is rendered, or `ValidationError` is raised. -/
theorem render_safe_files {env : Env} {schema : VDict → Except PyErr Unit} {sh : Val → Bool} {loads : Chars → Option Val} {dsa : Bool} {config : VDict}
    (hv : validate (openwrtClass env schema sh loads dsa) config = .ok ()) (hf : ConfigFit env config) (files : Bool) :
    Safe (fun _ => FilesFit (render (openwrtClass env schema sh loads dsa) files ⟨config, none⟩).1.config)
      (render (openwrtClass env schema sh loads dsa) files ⟨config, none⟩).2 := by
  have hl : LoopEnds FilesFit (convLoop (openwrtClass env schema sh loads dsa) (openwrtConvs env sh dsa) config []) :=
    convLoop_safe (fun c h => h.files) (openwrt_convs_safe env sh dsa) (default_conv_safe env) hf pkgs_nil
  unfold render ensureIntermediate toIntermediate
  dsimp only
  rw [hv]
  dsimp only
  change LoopEnds FilesFit (convLoop (openwrtClass env schema sh loads dsa) (openwrtClass env schema sh loads dsa).convs config []) at hl
  generalize convLoop (openwrtClass env schema sh loads dsa) (openwrtClass env schema sh loads dsa).convs config [] = x at hl
  obtain ⟨⟨c', i'⟩, r⟩ := x
  rcases hl with ⟨⟨i, hi, hp⟩, hc, hr⟩ | hr
  · dsimp only at hi hc hr
    subst hi hr
    dsimp only
    have h1 := renderTail_safe (cls := openwrtClass env schema sh loads dsa) (reprC := env.reprC) rfl files hp hc
    have h2 : ∀ t, _ → _ := fun t => renderTail_files (cls := openwrtClass env schema sh loads dsa) (files := files) (st := ⟨c', some i⟩) (t := t) hc
    generalize renderTail (openwrtClass env schema sh loads dsa) files ⟨c', some i⟩ = y at h1 h2
    obtain ⟨st, r⟩ := y
    cases r with
    | error e => exact h1
    | ok t => exact h2 t rfl
  · dsimp only at hr
    subst hr
    rfl

theorem render_safe {env : Env} {schema : VDict → Except PyErr Unit} {sh : Val → Bool} {loads : Chars → Option Val} {dsa : Bool} {config : VDict}
    (hv : validate (openwrtClass env schema sh loads dsa) config = .ok ()) (hf : ConfigFit env config) (files : Bool) :
    Safe (fun _ => True) (render (openwrtClass env schema sh loads dsa) files ⟨config, none⟩).2 :=
  safe_mono (render_safe_files hv hf files) fun _ _ => trivial

/-- when the text is made and the files are fit, so is the archive -/
theorem generate_safe {cls : Class} (hsplit : ∀ t, ∃ ms, cls.split t = .ok ms) {st : BState}
    (h : Safe (fun _ => FilesFit (render cls false st).1.config) (render cls false st).2) : Safe (fun _ => True) (generate cls st).2 := by
  unfold generate
  generalize render cls false st = y at h
  obtain ⟨st', r⟩ := y
  cases r with
  | error e => exact h
  | ok t =>
    obtain ⟨a, ha⟩ := hsplit t
    obtain ⟨b, hb⟩ := processFiles_safe (show FilesFit st'.config from h)
    dsimp only
    rw [ha, hb]
    trivial

end NJ
