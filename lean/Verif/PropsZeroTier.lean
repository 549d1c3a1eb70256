import Verif.ZeroTier
import Verif.PropsFiles
import Verif.PropsConv

/-!
# C64: ZeroTier in the OpenWrt backend
-/

namespace NJ

/-! ## The map of the devices: specification -/

/-- is the file one with this path -/
def hasPath (p : Chars) : Val → Bool
  | .dict f => decide (Dict.get? f "path" = some (txt p))
  | _ => false

/-- the path of the map of an entry: the configured directory, or the default one, and `devicemap` -/
def devicemap (env : Env) (vpn : VDict) : Chars :=
  (pyStr env.reprC ((Dict.get? vpn "config_path").getD (.str "/etc/openwisp/zerotier"))).toList ++ "/devicemap".toList

/-- the line of a network, with the break before it: its identifier and its interface -/
def mapLine (env : Env) (n : VDict) : Chars :=
  '\n' :: (pyStr env.reprC ((Dict.get? n "id").getD (.str ""))).toList ++ '=' :: (pyStr env.reprC ((Dict.get? n "ifname").getD .none)).toList

/-- the text of the map: the heading, the line of each network, and what else was there -/
def mapText (env : Env) (ns : List VDict) (more : List Chars) : Chars :=
  "# network_id=interface_name".toList ++ (ns.map (mapLine env)).flatten ++ '\n' :: (more.map (fun c => '\n' :: c)).flatten

/-- the file of the map -/
def mapFile (p c : Chars) : Val := .dict [("path", txt p), ("mode", .str "0644"), ("contents", txt c)]

/-- the file has these contents -/
def hasContents (f : Val) (c : Chars) : Prop := ∃ d, f = .dict d ∧ Dict.get? d "contents" = some (txt c)

/-- the networks of an entry -/
def Networks (vpn : VDict) (ns : List VDict) : Prop := Dict.get? vpn "networks" = some (.list (ns.map .dict)) ∨ (Dict.get? vpn "networks" = none ∧ ns = [])

/-! ## The files of one entry -/

theorem mapFile_path (p q c : Chars) : hasPath q (mapFile p c) = decide (p = q) := by
  unfold hasPath mapFile
  rw [decide_eq_decide]
  show some (txt p) = some (txt q) ↔ _
  constructor
  · intro h
    have := congrArg (fun v => match v with | some (Val.str s) => s.toList | _ => []) h
    simpa [txt] using this
  · rintro rfl; rfl

theorem ztMerge_ok (p : Chars) (fs : List Val) {others : List Val} {more : Chars} (h : ztMerge p fs = .ok (others, more)) :
    others = fs.filter (fun f => !hasPath p f) ∧
    ∃ cs, List.Forall₂ hasContents (fs.filter (hasPath p)) cs ∧ more = (cs.map (fun c => '\n' :: c)).flatten := by
  induction fs generalizing others more with
  | nil => cases h; exact ⟨rfl, [], .nil, rfl⟩
  | cons v vs ih =>
    unfold ztMerge at h
    obtain ⟨f, hf, h⟩ := bind_ok_iff.1 h
    cases v with
    | dict d =>
      cases hf
      split at h
      · next hp =>
        obtain ⟨c, hc, h⟩ := bind_ok_iff.1 h
        obtain ⟨t, ht, h⟩ := bind_ok_iff.1 h
        obtain ⟨r, hr, h⟩ := bind_ok_iff.1 h
        obtain ⟨i1, cs, i2, i3⟩ := ih (others := r.1) (more := r.2) hr
        cases h
        have hpath : hasPath p (.dict f) = true := by unfold hasPath; simpa using hp
        refine ⟨by rw [i1, List.filter_cons_of_neg (by rw [hpath]; simp)], t :: cs, ?_, by rw [i3]; rfl⟩
        rw [List.filter_cons_of_pos hpath]
        refine .cons ⟨f, rfl, ?_⟩ i2
        unfold getKey at hc
        cases hg : Dict.get? f "contents" with
        | none => rw [hg] at hc; cases hc
        | some w =>
          rw [hg] at hc
          cases hc
          cases c with
          | str s => cases ht; simp [txt]
          | _ => cases ht
      · next hp =>
        obtain ⟨r, hr, h⟩ := bind_ok_iff.1 h
        obtain ⟨i1, cs, i2, i3⟩ := ih (others := r.1) (more := r.2) hr
        cases h
        have hpath : hasPath p (.dict f) = false := by unfold hasPath; simpa using hp
        refine ⟨by rw [i1, List.filter_cons_of_pos (by rw [hpath]; simp)], cs, ?_, i3⟩
        rw [List.filter_cons_of_neg (by rw [hpath]; simp)]
        exact i2
    | _ => cases hf

theorem asDicts {l : List Val} {β : Type} {f : VDict → Except PyErr β} {r : List β}
    (h : l.mapM (fun v => asDict v >>= f) = .ok r) : ∃ ds : List VDict, l = ds.map .dict ∧ ds.mapM f = .ok r := by
  induction l generalizing r with
  | nil => exact ⟨[], rfl, h⟩
  | cons v vs ih =>
    obtain ⟨b, bs, h1, h2, rfl⟩ := (mapM_ok_cons _ _ _ _).1 h
    obtain ⟨d, hd, h1⟩ := bind_ok_iff.1 h1
    obtain ⟨ds, rfl, i2⟩ := ih h2
    cases v with
    | dict d' => cases hd; exact ⟨d :: ds, rfl, (mapM_ok_cons _ _ _ _).2 ⟨b, bs, h1, i2, rfl⟩⟩
    | _ => cases hd

theorem mapM_pure' {α β : Type} (f : α → β) (l : List α) : (l.mapM (fun a => (pure (f a) : Except PyErr β))) = .ok (l.map f) := by
  induction l with
  | nil => rfl
  | cons a as ih => rw [List.map_cons]; exact (mapM_ok_cons _ _ _ _).2 ⟨_, _, rfl, ih, rfl⟩

theorem ztNetworks_ok {env : Env} {vpn : VDict} {l : List Val} {lines : List Chars} (h : ztNetworks vpn = .ok l) (hl : l.mapM (ztLine env) = .ok lines) :
    ∃ ns, Networks vpn ns ∧ '\n' :: lines.flatten = (ns.map (mapLine env)).flatten ++ ['\n'] := by
  obtain ⟨ns, rfl, h2⟩ := asDicts (f := fun n => pure ((pyStr env.reprC ((Dict.get? n "id").getD (.str ""))).toList ++ '=' ::
    (pyStr env.reprC ((Dict.get? n "ifname").getD .none)).toList ++ ['\n'])) hl
  refine ⟨ns, ?_, ?_⟩
  · unfold ztNetworks at h
    unfold Networks
    cases hg : Dict.get? vpn "networks" with
    | none => rw [hg] at h; right; cases ns with
      | nil => exact ⟨rfl, rfl⟩
      | cons n ns => cases h
    | some w =>
      rw [hg] at h
      cases w with
      | list l => cases h; exact .inl rfl
      | _ => cases h
  · rw [mapM_pure'] at h2
    cases h2
    clear * -
    induction ns with
    | nil => rfl
    | cons n ns ih =>
      have e : mapLine env n ++ (List.map (mapLine env) ns).flatten ++ ['\n'] = mapLine env n ++ ((List.map (mapLine env) ns).flatten ++ ['\n']) := List.append_assoc ..
      rw [List.map_cons, List.flatten_cons, List.map_cons, List.flatten_cons, e, ← ih]
      simp [mapLine]

theorem netjsonFiles_ok {config : VDict} {l : List Val} (h : netjsonFiles config = .ok l) : filesOf config = l := by
  unfold netjsonFiles at h
  unfold filesOf
  cases hg : Dict.get? config "files" with
  | none => rw [hg] at h; cases h; rfl
  | some w =>
    rw [hg] at h
    cases w with
    | list l => cases h; rfl
    | _ => cases h

/-- **C64.** The files after the conversion of one entry: the others as they were and in their order, and one map of the devices, with
mode 0644, listing every network of the entry, in order, followed by the contents of the files that had its path. Nothing else of the
configuration changes. -/
theorem C64_devicemap (env : Env) (config vpn config' : VDict) (h : ztConfig env config vpn = .ok config') :
    ∃ ns same, Networks vpn ns ∧ List.Forall₂ hasContents ((filesOf config).filter (hasPath (devicemap env vpn))) same ∧
      filesOf config' = (filesOf config).filter (fun f => !hasPath (devicemap env vpn) f) ++ [mapFile (devicemap env vpn) (mapText env ns same)] ∧
      ∀ k, k ≠ "files" → Dict.get? config' k = Dict.get? config k := by
  unfold ztConfig at h
  obtain ⟨files, hf, h⟩ := bind_ok_iff.1 h
  obtain ⟨files', hz, h⟩ := bind_ok_iff.1 h
  cases h
  unfold ztFiles at hz
  obtain ⟨l, h1, hz⟩ := bind_ok_iff.1 hz
  obtain ⟨lines, h2, hz⟩ := bind_ok_iff.1 hz
  obtain ⟨⟨others, more⟩, h3, hz⟩ := bind_ok_iff.1 hz
  cases hz
  obtain ⟨ns, n1, n2⟩ := ztNetworks_ok h1 h2
  obtain ⟨m1, cs, m2, m3⟩ := ztMerge_ok _ _ h3
  rw [netjsonFiles_ok hf]
  refine ⟨ns, cs, n1, m2, ?_, fun k hk => Dict.get?_set_ne _ _ (Ne.symm hk)⟩
  have e0 : "# network_id=interface_name\n".toList = "# network_id=interface_name".toList ++ ['\n'] := by decide +kernel
  have e : "# network_id=interface_name\n".toList ++ lines.flatten ++ more = mapText env ns cs := by
    rw [e0, m3]
    unfold mapText
    generalize "# network_id=interface_name".toList = z
    rw [List.append_assoc z, List.singleton_append, n2, List.append_assoc, List.append_assoc, List.append_assoc]
    rfl
  rw [e, m1]
  unfold filesOf
  rw [Dict.get?_set_self]
  rfl

/-! ## All the entries -/

/-- some file with this path holds the text -/
def HeldAt (config : VDict) (p t : Chars) : Prop := ∃ f ∈ filesOf config, hasPath p f = true ∧ ∃ c, hasContents f c ∧ t <:+: c

/-- the only file with this path is a map -/
def OneMap (config : VDict) (p c : Chars) : Prop := (filesOf config).filter (hasPath p) = [mapFile p c]

theorem forall₂_held {α β : Type} {R : α → β → Prop} {as : List α} {bs : List β} (h : List.Forall₂ R as bs) {a : α} (ha : a ∈ as) : ∃ b ∈ bs, R a b := by
  induction h with
  | nil => cases ha
  | cons h1 _ ih =>
    rcases List.mem_cons.1 ha with rfl | ha
    · exact ⟨_, by simp, h1⟩
    · obtain ⟨b, h2, h3⟩ := ih ha
      exact ⟨b, by simp [h2], h3⟩

theorem hasContents_inj {f : Val} {a b : Chars} (h1 : hasContents f a) (h2 : hasContents f b) : a = b := by
  obtain ⟨d, rfl, e1⟩ := h1
  obtain ⟨d', e, e2⟩ := h2
  cases e
  rw [e1] at e2
  have := congrArg (fun v => match v with | some (Val.str s) => s.toList | _ => []) e2
  simpa [txt] using this

theorem mapText_more (env : Env) (ns : List VDict) (cs : List Chars) {c : Chars} (h : c ∈ cs) : c <:+: mapText env ns cs := by
  unfold mapText
  obtain ⟨a, b, rfl⟩ := List.append_of_mem h
  refine ⟨"# network_id=interface_name".toList ++ (ns.map (mapLine env)).flatten ++ '\n' :: (a.map (fun c => '\n' :: c)).flatten ++ ['\n'],
    (b.map (fun c => '\n' :: c)).flatten, ?_⟩
  generalize "# network_id=interface_name".toList = z
  simp

theorem mapText_line (env : Env) (ns : List VDict) (cs : List Chars) {n : VDict} (h : n ∈ ns) : mapLine env n ++ ['\n'] <:+: mapText env ns cs := by
  unfold mapText
  rw [List.append_assoc]
  refine List.IsInfix.trans ?_ (List.suffix_append _ _).isInfix
  generalize (cs.map (fun c => '\n' :: c)).flatten = r
  induction ns with
  | nil => cases h
  | cons m ms ih =>
    rw [List.map_cons, List.flatten_cons, List.append_assoc]
    rcases List.mem_cons.1 h with rfl | h
    · obtain ⟨x, hx⟩ : ∃ x, (ms.map (mapLine env)).flatten ++ '\n' :: r = '\n' :: x := by
        cases ms with
        | nil => exact ⟨r, rfl⟩
        | cons k ks => exact ⟨_, rfl⟩
      rw [hx]
      exact ⟨[], x, by simp⟩
    · exact List.IsInfix.trans (ih h) (List.suffix_append _ _).isInfix

theorem zt_held {env : Env} {config vpn config' : VDict} (h : ztConfig env config vpn = .ok config') {p t : Chars} (ht : HeldAt config p t) :
    HeldAt config' p t := by
  obtain ⟨ns, same, _, h2, h3, _⟩ := C64_devicemap env config vpn config' h
  obtain ⟨f, f1, f2, c, f3, f4⟩ := ht
  unfold HeldAt
  rw [h3]
  by_cases e : hasPath (devicemap env vpn) f = true
  · obtain ⟨c', g1, g2⟩ := forall₂_held h2 (List.mem_filter.2 ⟨f1, e⟩)
    have hc := hasContents_inj f3 g2
    subst hc
    have hp : p = devicemap env vpn := by
      cases f with
      | dict d =>
        have e1 : Dict.get? d "path" = some (txt p) := by unfold hasPath at f2; simpa using f2
        have e2 : Dict.get? d "path" = some (txt (devicemap env vpn)) := by unfold hasPath at e; simpa using e
        rw [e1] at e2
        have := congrArg (fun v => match v with | some (Val.str s) => s.toList | _ => []) e2
        simpa [txt] using this
      | _ => cases e
    refine ⟨_, List.mem_append_right _ (List.mem_singleton.2 rfl), ?_, mapText env ns same, ⟨_, rfl, by simp [Dict.get?_cons]⟩,
      f4.trans (mapText_more env ns same g1)⟩
    rw [mapFile_path]; simpa using hp.symm
  · exact ⟨f, List.mem_append_left _ (List.mem_filter.2 ⟨f1, by simpa using e⟩), f2, c, f3, f4⟩

theorem path_excl {p q : Chars} (hpq : p ≠ q) {f : Val} (h : hasPath p f = true) : hasPath q f = false := by
  cases f with
  | dict d =>
    have e1 : Dict.get? d "path" = some (txt p) := by unfold hasPath at h; simpa using h
    unfold hasPath
    rw [decide_eq_false_iff_not]
    intro e2
    rw [e1] at e2
    have := congrArg (fun v => match v with | some (Val.str s) => s.toList | _ => []) e2
    exact hpq (by simpa [txt] using this)
  | _ => rfl

theorem zt_own {env : Env} {config vpn config' : VDict} (h : ztConfig env config vpn = .ok config') :
    ∃ ns c, Networks vpn ns ∧ OneMap config' (devicemap env vpn) c ∧ ∀ n ∈ ns, mapLine env n ++ ['\n'] <:+: c := by
  obtain ⟨ns, same, h1, h2, h3, _⟩ := C64_devicemap env config vpn config' h
  refine ⟨ns, mapText env ns same, h1, ?_, fun n hn => mapText_line env ns same hn⟩
  unfold OneMap
  rw [h3, List.filter_append, List.filter_filter, List.filter_eq_nil_iff.2 (by intro f _; cases hasPath (devicemap env vpn) f <;> simp), List.nil_append,
    List.filter_cons_of_pos (by rw [mapFile_path]; simp)]
  rfl

theorem zt_oneMap {env : Env} {config vpn config' : VDict} (h : ztConfig env config vpn = .ok config') {p c : Chars} (hm : OneMap config p c) :
    ∃ c', OneMap config' p c' ∧ c <:+: c' := by
  obtain ⟨ns, same, _, h2, h3, _⟩ := C64_devicemap env config vpn config' h
  by_cases e : p = devicemap env vpn
  · rw [← e] at h2 h3
    refine ⟨mapText env ns same, ?_, ?_⟩
    · unfold OneMap
      rw [h3, List.filter_append, List.filter_filter, List.filter_eq_nil_iff.2 (by intro f _; cases hasPath p f <;> simp), List.nil_append,
        List.filter_cons_of_pos (by rw [mapFile_path]; simp)]
      rfl
    · rw [hm] at h2
      obtain ⟨x, x1, x2⟩ := forall₂_held h2 (List.mem_singleton.2 rfl)
      have : hasContents (mapFile p c) c := ⟨_, rfl, by simp [Dict.get?_cons]⟩
      rw [← hasContents_inj this x2] at x1
      exact mapText_more env ns same x1
  · refine ⟨c, ?_, List.infix_refl _⟩
    unfold OneMap
    rw [h3, List.filter_append, List.filter_filter, List.filter_cons_of_neg (by rw [mapFile_path]; simpa using Ne.symm e), List.filter_nil, List.append_nil, ← hm]
    apply List.filter_congr
    intro f _
    cases hf : hasPath p f with
    | false => rfl
    | true => rw [path_excl e hf]; rfl

/-- what one step of the loop is -/
theorem ztAll_cons {env : Env} {config config' : VDict} {v : Val} {vs bs : List Val} (h : ztAll env config (v :: vs) = (config', .ok bs)) :
    ∃ vpn c b more, v = .dict vpn ∧ ztConfig env config vpn = .ok c ∧ ztBlocks vpn = .ok b ∧ ztAll env c vs = (config', .ok more) ∧ bs = b ++ more := by
  unfold ztAll at h
  cases hv : asDict v with
  | error e => rw [hv] at h; cases (Prod.mk.inj h).2
  | ok vpn =>
    rw [hv] at h
    have e : v = .dict vpn := by cases v with
      | dict d => cases hv; rfl
      | _ => cases hv
    dsimp only at h
    cases hc : ztConfig env config vpn with
    | error e => rw [hc] at h; cases (Prod.mk.inj h).2
    | ok c =>
      rw [hc] at h
      dsimp only at h
      cases hb : ztBlocks vpn with
      | error e => rw [hb] at h; cases (Prod.mk.inj h).2
      | ok b =>
        rw [hb] at h
        dsimp only at h
        obtain ⟨h1, h2⟩ := Prod.mk.inj h
        obtain ⟨more, h3, h4⟩ := bind_ok_iff.1 h2
        cases h4
        exact ⟨vpn, c, b, more, e, hc, hb, Prod.ext h1 h3, rfl⟩

theorem ztAll_files (env : Env) (l : List VDict) {config config' : VDict} {bs : List Val} (h : ztAll env config (l.map .dict) = (config', .ok bs)) :
    (∀ p t, HeldAt config p t → HeldAt config' p t) ∧
    (∀ p c, OneMap config p c → ∃ c', OneMap config' p c' ∧ c <:+: c') ∧
    (∀ vpn ∈ l, ∃ ns c, Networks vpn ns ∧ OneMap config' (devicemap env vpn) c ∧ ∀ n ∈ ns, mapLine env n ++ ['\n'] <:+: c) ∧
    (∀ keep : Val → Bool, (∀ vpn ∈ l, ∀ f, keep f = true → hasPath (devicemap env vpn) f = false) →
      (filesOf config').filter keep = (filesOf config).filter keep) ∧
    (∀ k, k ≠ "files" → Dict.get? config' k = Dict.get? config k) := by
  induction l generalizing config bs with
  | nil => cases h; exact ⟨fun _ _ h => h, fun p c h => ⟨c, h, List.infix_refl _⟩, by simp, fun _ _ => rfl, fun _ _ => rfl⟩
  | cons v vs ih =>
    obtain ⟨vpn, c, b, more, e, h1, _, h3, _⟩ := ztAll_cons h
    cases e
    obtain ⟨i1, i2, i3, i4, i5⟩ := ih h3
    refine ⟨fun p t ht => i1 p t (zt_held h1 ht), ?_, ?_, ?_, ?_⟩
    · intro p t ht
      obtain ⟨c1, a1, a2⟩ := zt_oneMap h1 ht
      obtain ⟨c2, b1, b2⟩ := i2 p c1 a1
      exact ⟨c2, b1, a2.trans b2⟩
    · intro w hw
      rcases List.mem_cons.1 hw with rfl | hw
      · obtain ⟨ns, c1, a1, a2, a3⟩ := zt_own h1
        obtain ⟨c2, b1, b2⟩ := i2 _ c1 a2
        exact ⟨ns, c2, a1, b1, fun n hn => (a3 n hn).trans b2⟩
      · exact i3 w hw
    · intro keep hk
      rw [i4 keep (fun w hw => hk w (by simp [hw]))]
      obtain ⟨ns, same, _, _, g3, _⟩ := C64_devicemap env config v c h1
      rw [g3, List.filter_append, List.filter_filter]
      have e : keep (mapFile (devicemap env v) (mapText env ns same)) = false := by
        cases hh : keep (mapFile (devicemap env v) (mapText env ns same)) with
        | false => rfl
        | true =>
          have := hk v (by simp) _ hh
          rw [mapFile_path] at this
          simp at this
      rw [List.filter_cons_of_neg (by rw [e]; simp), List.filter_nil, List.append_nil]
      apply List.filter_congr
      intro f _
      cases hf : keep f with
      | false => rfl
      | true => rw [hk v (by simp) f hf]; rfl
    · intro k hk
      rw [i5 k hk]
      obtain ⟨_, _, _, _, _, g4⟩ := C64_devicemap env config v c h1
      exact g4 k hk

/-- what a run of the converter is -/
theorem ztRun_ok {env : Env} {config inter config' out : VDict} {l : List VDict} (hl : Dict.get? config "zerotier" = some (.list (l.map .dict)))
    (h : ztRun env config inter = (config', .ok out)) :
    ∃ bs, ztAll env config (l.map .dict) = (config', .ok bs) ∧ out = if bs.isEmpty then [] else [("zerotier", .list bs)] := by
  unfold ztRun at h
  rw [hl] at h
  obtain ⟨h1, h2⟩ := Prod.mk.inj h
  obtain ⟨bs, h3, h4⟩ := bind_ok_iff.1 h2
  cases h4
  exact ⟨bs, Prod.ext h1 h3, rfl⟩

/-- **C64.** After the conversion of any number of entries: for every entry there is exactly one file at the path of its map, with mode
0644 (whatever files had that path before), holding a line for each of its networks and the texts of the configured files with that path;
the files at other paths are the same, in the same order, and so is the rest of the configuration. -/
theorem C64_networks_listed (env : Env) (config inter config' out : VDict) (l : List VDict)
    (hl : Dict.get? config "zerotier" = some (.list (l.map .dict))) (h : ztRun env config inter = (config', .ok out)) :
    (∀ vpn ∈ l, ∃ ns c, Networks vpn ns ∧ (filesOf config').filter (hasPath (devicemap env vpn)) = [mapFile (devicemap env vpn) c] ∧
      (∀ n ∈ ns, mapLine env n ++ ['\n'] <:+: c) ∧
      ∀ f ∈ filesOf config, hasPath (devicemap env vpn) f = true → ∀ t, hasContents f t → t <:+: c) ∧
    (filesOf config').filter (fun f => l.all (fun vpn => !hasPath (devicemap env vpn) f)) =
      (filesOf config).filter (fun f => l.all (fun vpn => !hasPath (devicemap env vpn) f)) ∧
    (∀ k, k ≠ "files" → Dict.get? config' k = Dict.get? config k) := by
  obtain ⟨bs, h1, _⟩ := ztRun_ok hl h
  obtain ⟨i1, _, i3, i4, i5⟩ := ztAll_files env l h1
  refine ⟨?_, i4 _ ?_, i5⟩
  · intro vpn hv
    obtain ⟨ns, c, a1, a2, a3⟩ := i3 vpn hv
    refine ⟨ns, c, a1, a2, a3, ?_⟩
    intro f hf hp t ht
    obtain ⟨f', f1, f2, c', f3, f4⟩ := i1 _ t ⟨f, hf, hp, t, ht, List.infix_refl _⟩
    have hm : f' ∈ (filesOf config').filter (hasPath (devicemap env vpn)) := List.mem_filter.2 ⟨f1, f2⟩
    rw [a2, List.mem_singleton] at hm
    subst hm
    have : hasContents (mapFile (devicemap env vpn) c) c := ⟨_, rfl, by simp [Dict.get?_cons]⟩
    rw [hasContents_inj this f3]
    exact f4
  · intro vpn hv f hf
    have := List.all_eq_true.1 hf vpn hv
    simpa using this

/-! ## The UCI sections: specification -/

/-- is the entry disabled -/
def ztDisabled (vpn : VDict) : Bool := ((Dict.get? vpn "disabled").getD (.bool false)).truthy

/-- the `zerotier` section of an entry, item by item: it joins all the networks, in order -/
def ztItem (name : Chars) (vpn : VDict) (ns : List VDict) (k : String) : Option Val :=
  if k = ".name" then some (txt (uciName name))
  else if k = ".type" then some (.str "zerotier")
  else if k = "join" then some (.list (ns.map (fun n => (Dict.get? n "id").getD (.str ""))))
  else if k = "enabled" then some (.bool (!ztDisabled vpn))
  else if k = "config_path" then some ((Dict.get? vpn "config_path").getD (.str "/etc/openwisp/zerotier"))
  else if k = "copy_config_path" then some ((Dict.get? vpn "copy_config_path").getD (.str "1"))
  else if k = "local_conf_path" ∧ ((Dict.get? vpn "local_conf").getD .none).truthy then Dict.get? vpn "local_conf"
  else if k = "local_conf" ∧ ((Dict.get? vpn "local_conf").getD .none).truthy = false ∧ ((Dict.get? vpn "local_conf_path").getD .none).truthy then
    Dict.get? vpn "local_conf_path"
  else if k = "name" ∨ k = "networks" ∨ k = "disabled" ∨ k = "client_options" then none
  else Dict.get? vpn k

/-- the `network` section of a network, item by item -/
def ztNetItem (ifname : Chars) (n : VDict) (k : String) : Option Val :=
  if k = ".name" then some (txt (uciName ifname))
  else if k = ".type" then some (.str "network")
  else if k = "ifname" then none
  else Dict.get? n k

/-- the section of a network -/
def NetSection (n : VDict) (v : Val) : Prop :=
  ∃ (b : VDict) (s : String), v = .dict b ∧ Dict.get? n "ifname" = some (.str s) ∧ (Dict.keys b).Nodup ∧ ∀ k, Dict.get? b k = ztNetItem s.toList n k

/-- the sections of an entry: the one of the entry and one for each network, in order -/
def EntrySections (vpn : VDict) (vs : List Val) : Prop :=
  ∃ (b : VDict) (s : String) (ns : List VDict) (bs : List Val), vs = .dict b :: bs ∧ Dict.get? vpn "name" = some (.str s) ∧
    Dict.get? vpn "networks" = some (.list (ns.map .dict)) ∧ (Dict.keys b).Nodup ∧ (∀ k, Dict.get? b k = ztItem s.toList vpn ns k) ∧
    List.Forall₂ NetSection ns bs

/-! ## The sections -/

theorem ztNetworks_of {vpn : VDict} {ns : List VDict} (h : Dict.get? vpn "networks" = some (.list (ns.map .dict))) :
    ztNetworks vpn = .ok (ns.map .dict) := by unfold ztNetworks; rw [h]

theorem ztIds (ns : List VDict) : (ns.map Val.dict).mapM ztId = .ok (ns.map (fun n => (Dict.get? n "id").getD (.str ""))) := by
  induction ns with
  | nil => rfl
  | cons n ns ih => exact (mapM_ok_cons _ _ _ _).2 ⟨_, _, rfl, ih, rfl⟩

theorem txt_toList (s : String) : txt s.toList = .str s := by simp [txt]

/-- the section before the networks are taken out -/
theorem ztBlock_spec (vpn : VDict) (s : String) (ns : List VDict) (hn : (Dict.keys vpn).Nodup) (h1 : Dict.get? vpn "name" = some (.str s))
    (h2 : ztNetworks vpn = .ok (ns.map .dict)) :
    ∃ d, ztBlock vpn = .ok d ∧ (Dict.keys d).Nodup ∧ ∀ k, Dict.get? d k = if k = "networks" then Dict.get? vpn "networks" else ztItem s.toList vpn ns k := by
  generalize hd : Dict.update (Dict.erase (Dict.erase vpn "name") "disabled") [(".name", txt (uciName s.toList)), (".type", .str "zerotier"),
    ("config_path", (Dict.get? (Dict.erase vpn "name") "config_path").getD ztPath),
    ("copy_config_path", (Dict.get? (Dict.erase vpn "name") "copy_config_path").getD (.str "1")),
    ("join", .list (ns.map (fun n => (Dict.get? n "id").getD (.str "")))), ("enabled", .bool (!ztDisabled vpn))] = d
  have hdn : (Dict.keys d).Nodup := by rw [← hd]; exact Dict.nodup_update (Dict.nodup_erase (Dict.nodup_erase hn _) _) _
  have hg : ∀ k, Dict.get? d k =
      if k = "enabled" then some (.bool (!ztDisabled vpn))
      else if k = "join" then some (.list (ns.map (fun n => (Dict.get? n "id").getD (.str ""))))
      else if k = "copy_config_path" then some ((Dict.get? vpn "copy_config_path").getD (.str "1"))
      else if k = "config_path" then some ((Dict.get? vpn "config_path").getD (.str "/etc/openwisp/zerotier"))
      else if k = ".type" then some (.str "zerotier")
      else if k = ".name" then some (txt (uciName s.toList))
      else if k = "disabled" then none
      else if k = "name" then none else Dict.get? vpn k := by
    intro k
    rw [← hd]
    simp only [Dict.update_cons, Dict.update_nil, Dict.get?_set', Dict.get?_erase', show ("config_path" = "name") = False by simp,
      show ("copy_config_path" = "name") = False by simp, if_false]
    rfl
  have hl : ∀ k, Dict.get? (ztLocalConf d) k = if k = "local_conf_path" ∧ ((Dict.get? vpn "local_conf").getD .none).truthy then Dict.get? vpn "local_conf"
      else if k = "local_conf" ∧ ((Dict.get? vpn "local_conf").getD .none).truthy = false ∧ ((Dict.get? vpn "local_conf_path").getD .none).truthy then
        Dict.get? vpn "local_conf_path" else Dict.get? d k := by
    intro k
    have a1 : Dict.get? d "local_conf" = Dict.get? vpn "local_conf" := by rw [hg]; rfl
    have a2 : Dict.get? d "local_conf_path" = Dict.get? vpn "local_conf_path" := by rw [hg]; rfl
    unfold ztLocalConf
    simp only [a1, a2]
    cases t1 : ((Dict.get? vpn "local_conf").getD .none).truthy with
    | true =>
      simp only [if_true, Dict.get?_set', and_true, Bool.true_eq_false, false_and, and_false, if_false]
      by_cases e : k = "local_conf_path"
      · rw [if_pos e, if_pos e]
        cases hv : Dict.get? vpn "local_conf" with
        | none => rw [hv] at t1; cases t1
        | some v => rfl
      · rw [if_neg e, if_neg e]
    | false =>
      cases t2 : ((Dict.get? vpn "local_conf_path").getD .none).truthy with
      | true =>
        simp only [Bool.false_eq_true, if_false, if_true, Dict.get?_set', and_true, and_false]
        by_cases e : k = "local_conf"
        · rw [if_pos e, if_pos e]
          cases hv : Dict.get? vpn "local_conf_path" with
          | none => rw [hv] at t2; cases t2
          | some v => rfl
        · rw [if_neg e, if_neg e]
      | false => simp only [Bool.false_eq_true, if_false, and_false]
  have hln : (Dict.keys (ztLocalConf d)).Nodup := by
    unfold ztLocalConf
    dsimp only
    split
    · exact Dict.nodup_set hdn _ _
    · split
      · exact Dict.nodup_set hdn _ _
      · exact hdn
  refine ⟨sortedDict (Dict.erase (ztLocalConf d) "client_options"), ?_, sortedDict_nodup (Dict.nodup_erase hln _), ?_⟩
  · unfold ztBlock
    rw [h2]
    simp only [bind, Except.bind]
    rw [popKey_ok h1]
    simp only [asText]
    rw [ztIds]
    have e : popOr (Dict.erase vpn "name") "disabled" (.bool false) = ((Dict.get? vpn "disabled").getD (.bool false), Dict.erase (Dict.erase vpn "name") "disabled") := by
      unfold popOr
      rw [Dict.get?_erase', if_neg (by decide)]
    simp only [e]
    rw [← hd]
    rfl
  · intro k
    rw [get?_sortedDict (Dict.nodup_erase hln _), Dict.get?_erase', hl, hg]
    unfold ztItem
    by_cases e0 : k = "networks"
    · subst e0; simp
    rw [if_neg e0]
    by_cases e1 : k = ".name"
    · subst e1; rfl
    by_cases e2 : k = ".type"
    · subst e2; rfl
    by_cases e3 : k = "join"
    · subst e3; rfl
    by_cases e4 : k = "enabled"
    · subst e4; rfl
    by_cases e5 : k = "config_path"
    · subst e5; rfl
    by_cases e6 : k = "copy_config_path"
    · subst e6; rfl
    rw [if_neg e1, if_neg e2, if_neg e3, if_neg e4, if_neg e5, if_neg e6, if_neg e4, if_neg e3, if_neg e6, if_neg e5, if_neg e2, if_neg e1]
    by_cases e7 : k = "client_options"
    · subst e7; simp
    rw [if_neg e7]
    by_cases e8 : k = "disabled"
    · subst e8; simp
    by_cases e9 : k = "name"
    · subst e9; simp
    simp only [e0, e7, e8, e9, if_false, or_self]

theorem ztNetwork_spec (n : VDict) (s : String) (hn : (Dict.keys n).Nodup) (h1 : Dict.get? n "ifname" = some (.str s)) :
    ∃ b, ztNetwork (.dict n) = .ok (.dict b) ∧ (Dict.keys b).Nodup ∧ ∀ k, Dict.get? b k = ztNetItem s.toList n k := by
  refine ⟨sortedDict (Dict.update (Dict.erase n "ifname") [(".name", txt (uciName s.toList)), (".type", .str "network")]), ?_,
    sortedDict_nodup (Dict.nodup_update (Dict.nodup_erase hn _) _), ?_⟩
  · unfold ztNetwork
    simp only [asDict, bind, Except.bind]
    rw [popKey_ok h1]
    rfl
  · intro k
    rw [get?_sortedDict (Dict.nodup_update (Dict.nodup_erase hn _) _)]
    simp only [Dict.update_cons, Dict.update_nil, Dict.get?_set', Dict.get?_erase']
    unfold ztNetItem
    by_cases e : k = ".name"
    · subst e; rfl
    · rw [if_neg e, if_neg e]

theorem popKey_inv {d d' : VDict} {k : String} {v : Val} (h : popKey d k = .ok (v, d')) : Dict.get? d k = some v ∧ d' = Dict.erase d k := by
  unfold popKey at h
  cases hg : Dict.get? d k with
  | none => rw [hg] at h; cases h
  | some w => rw [hg] at h; cases h; exact ⟨rfl, rfl⟩

theorem ztNets_ok {l vs : List Val} (h : l.mapM ztNetwork = .ok vs) :
    ∃ ns : List VDict, l = ns.map .dict ∧ ((∀ n ∈ ns, (Dict.keys n).Nodup) → List.Forall₂ NetSection ns vs) := by
  induction l generalizing vs with
  | nil => cases h; exact ⟨[], rfl, fun _ => .nil⟩
  | cons v l ih =>
    obtain ⟨w, ws, h1, h2, rfl⟩ := (mapM_ok_cons _ _ _ _).1 h
    obtain ⟨ns, rfl, i2⟩ := ih h2
    have h1' := h1
    unfold ztNetwork at h1
    cases v with
    | dict n =>
      simp only [asDict] at h1
      obtain ⟨m, hm, h3⟩ := bind_ok_iff.1 h1
      have hm := Except.ok.inj hm
      subst hm
      obtain ⟨⟨x, r⟩, hx, h4⟩ := bind_ok_iff.1 h3
      dsimp only at h4
      obtain ⟨t, ht, h5⟩ := bind_ok_iff.1 h4
      refine ⟨n :: ns, rfl, fun hd => .cons ?_ (i2 (fun m hm => hd m (by simp [hm])))⟩
      cases x with
      | str s =>
        have hi := (popKey_inv hx).1
        obtain ⟨b, b1, b2, b3⟩ := ztNetwork_spec n s (hd n (by simp)) hi
        rw [h1'] at b1
        cases b1
        exact ⟨b, s, rfl, hi, b2, b3⟩
      | _ => cases ht
    | _ => cases h1

/-- no key twice, in the entry and in its networks -/
def ZtKeys (vpn : VDict) : Prop := (Dict.keys vpn).Nodup ∧ ∀ ns : List VDict, Dict.get? vpn "networks" = some (.list (ns.map .dict)) → ∀ n ∈ ns, (Dict.keys n).Nodup

theorem ztBlocks_ok {vpn : VDict} {vs : List Val} (hk : ZtKeys vpn) (h : ztBlocks vpn = .ok vs) : EntrySections vpn vs := by
  unfold ztBlocks at h
  obtain ⟨d, hd, h⟩ := bind_ok_iff.1 h
  obtain ⟨⟨x, d'⟩, hx, h⟩ := bind_ok_iff.1 h
  have hd' := hd
  unfold ztBlock at hd
  obtain ⟨l, hl, hd⟩ := bind_ok_iff.1 hd
  obtain ⟨⟨nm, r⟩, hnm, hd⟩ := bind_ok_iff.1 hd
  dsimp only at hd
  obtain ⟨t, ht, hd⟩ := bind_ok_iff.1 hd
  obtain ⟨ids, hids, hd⟩ := bind_ok_iff.1 hd
  have hname := (popKey_inv hnm).1
  have hxs := popKey_inv hx
  dsimp only at h
  cases nm with
  | str s =>
    obtain ⟨ns, rfl, n2⟩ : ∃ ns : List VDict, l = ns.map .dict ∧ True := by
      obtain ⟨ns, e, _⟩ := asDicts (f := fun n => (pure ((Dict.get? n "id").getD (.str "")) : Except PyErr Val)) hids
      exact ⟨ns, e, trivial⟩
    obtain ⟨b, b1, b2, b3⟩ := ztBlock_spec vpn s ns hk.1 hname hl
    rw [hd'] at b1
    cases b1
    cases hg : Dict.get? vpn "networks" with
    | none =>
      have e := hxs.1
      rw [b3, if_pos rfl, hg] at e
      cases e
    | some w =>
      have hw : w = .list (ns.map .dict) := by
        unfold ztNetworks at hl
        rw [hg] at hl
        cases w with
        | list l => cases hl; rfl
        | _ => cases hl
      subst hw
      have hx1 := hxs.1
      rw [b3, if_pos rfl, hg] at hx1
      cases hx1
      obtain ⟨bs, hbs, h⟩ := bind_ok_iff.1 h
      cases h
      obtain ⟨ns', e1, e2⟩ := ztNets_ok hbs
      have e3 : ns = ns' := List.map_injective_iff.2 (fun a b h => by cases h; rfl) e1
      subst e3
      refine ⟨d', s, ns, bs, rfl, hname, hg, ?_, ?_, e2 (hk.2 ns hg)⟩
      · rw [hxs.2]; exact Dict.nodup_erase b2 _
      · intro k
        rw [hxs.2, Dict.get?_erase', b3]
        by_cases e : k = "networks"
        · subst e; simp [ztItem]
        · rw [if_neg e, if_neg e]
  | _ => cases ht

/-- **C64.** The sections of the output: for each entry, in order, its `zerotier` section, which joins the identifiers of all its
networks, in order, followed by a `network` section for each of them, with the name made from its interface and all its other options. -/
theorem C64_sections (env : Env) (config inter config' out : VDict) (l : List VDict) (hk : ∀ vpn ∈ l, ZtKeys vpn)
    (hl : Dict.get? config "zerotier" = some (.list (l.map .dict))) (h : ztRun env config inter = (config', .ok out)) :
    ∃ groups : List (List Val), List.Forall₂ EntrySections l groups ∧
      out = if l = [] then [] else [("zerotier", .list groups.flatten)] := by
  obtain ⟨bs, h1, h2⟩ := ztRun_ok hl h
  clear h hl
  have key : ∀ (l : List VDict) (config : VDict) (bs : List Val), (∀ vpn ∈ l, ZtKeys vpn) → ztAll env config (l.map .dict) = (config', .ok bs) →
      ∃ groups : List (List Val), List.Forall₂ EntrySections l groups ∧ bs = groups.flatten := by
    intro l
    induction l with
    | nil => intro config bs _ h; cases h; exact ⟨[], .nil, rfl⟩
    | cons v vs ih =>
      intro config bs hk h
      obtain ⟨vpn, c, b, more, e, _, e2, e3, rfl⟩ := ztAll_cons h
      cases e
      obtain ⟨gs, g1, rfl⟩ := ih c more (fun w hw => hk w (by simp [hw])) e3
      exact ⟨b :: gs, .cons (ztBlocks_ok (hk v (by simp)) e2) g1, rfl⟩
  obtain ⟨gs, g1, g2⟩ := key l config bs hk h1
  refine ⟨gs, g1, ?_⟩
  rw [h2]
  cases g1 with
  | nil => subst g2; rfl
  | cons a _ =>
    obtain ⟨_, _, _, _, rfl, _⟩ := a
    subst g2
    rfl

end NJ
