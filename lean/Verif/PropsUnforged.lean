import Verif.OverRun
import Verif.PropsUciLines
import Verif.PropsArchive

/-!
# C82: no line of the text, and no member of the archive, is forged by a value

For the OpenWrt backend: when no text of the configuration has a line break (files, and TLS keys given as text, may have some),
the lines of the rendered text are exactly those of the packages, blocks and options of the intermediate data, and the archive has
exactly one member per package.
-/

namespace NJ

/-- every character but the line break -/
def NoBreak (c : Char) : Prop := c ≠ '\n'

section
variable {A : Char → Prop} {env : Env}

theorem over_blocksOf {v : Val} (h : Over A v) : Over A (blocksOf v) := by
  unfold blocksOf
  split
  · refine over_mapM (over_vlist.1 h) fun x hx => ?_
    split
    · exact over_ok.2 (over_vdict.1 hx)
    · exact over_error
  · exact over_error

theorem over_packagesOf {inter : VDict} (h : Over A inter) : Over A (packagesOf inter) := by
  unfold packagesOf
  exact over_mapM h fun p hp => over_bind (over_blocksOf hp.2) fun bs hbs => over_pure.2 (over_mk.2 ⟨hp.1, hbs⟩)

theorem over_fieldText (hA : Wide A env) {b : VDict} (h : Over A b) (k : String) : Over A (fieldText env.reprC b k) := by
  unfold fieldText
  have hg := over_get? (k := k) h
  generalize Dict.get? b k = x at hg
  cases x with
  | none => exact over_nil
  | some v => exact over_toList.2 (over_pyStr hA (over_some.1 hg))

/-- the lines are made of the characters of the data, plain characters and tabulations -/
theorem over_packageLines (hA : Wide A env) (ht : A '\t') {p : String × List VDict} (h : Over A p) : Over A (packageLines env.reprC p) := by
  unfold packageLines
  refine over_cons.2 ⟨over_append.2 ⟨?_, h.1⟩, over_cons.2 ⟨over_nil, over_flatMap h.2 fun b hb => over_append.2 ⟨?_, over_cons.2 ⟨over_nil, over_nil⟩⟩⟩⟩
  · exact over_lit hA.plain (by decide +kernel)
  unfold blockLines
  refine over_cons.2 ⟨?_, over_flatMap (over_filter hb) fun q hq => ?_⟩
  · refine over_append.2 ⟨over_append.2 ⟨over_append.2 ⟨over_append.2 ⟨?_, over_fieldText hA hb _⟩, ?_⟩, over_fieldText hA hb _⟩, ?_⟩ <;>
      exact over_lit hA.plain (by decide +kernel)
  have line : ∀ (kw : String) (v : Chars), kw.toList.all isPlainChar = true → Over A v →
      Over A ('\t' :: kw.toList ++ [' '] ++ q.1.toList ++ [' ', '\''] ++ v ++ ['\'']) := by
    intro kw v hk hv
    have hq1 : Over A q.1.toList := hq.1
    have hkw : Over A kw.toList := over_lit hA.plain hk
    have ht' : Over A '\t' := ht
    over
  unfold optionLines
  dsimp only
  obtain ⟨k, v⟩ := q
  have hv := hq.2
  cases v with
  | none => exact over_cons.2 ⟨line "option" _ (by decide +kernel) (over_toList.2 (over_pyStr hA hv)), over_nil⟩
  | bool b =>
    cases b
    · exact over_cons.2 ⟨line "option" _ (by decide +kernel) (over_lit hA.plain (s := "0") (by decide +kernel)), over_nil⟩
    · exact over_cons.2 ⟨line "option" _ (by decide +kernel) (over_lit hA.plain (s := "1") (by decide +kernel)), over_nil⟩
  | int i => exact over_cons.2 ⟨line "option" _ (by decide +kernel) (over_toList.2 (over_pyStr hA hv)), over_nil⟩
  | str s => exact over_cons.2 ⟨line "option" _ (by decide +kernel) (over_toList.2 (over_pyStr hA hv)), over_nil⟩
  | list l => exact over_map (over_vlist.1 hv) fun x hx => line "list" _ (by decide +kernel) (over_toList.2 (over_pyStr hA hx))
  | dict d => exact over_map (over_vdict.1 hv) fun x hx => line "list" _ (by decide +kernel) (over_toList.2 hx.1)

/-- what a first rendering leaves -/
theorem render_over (hA : Wide A env) {schema : VDict → Except PyErr Unit} {sh : Val → Bool} {loads : Chars → Option Val} {dsa files : Bool}
    {config : VDict} (hc : CleanConfig A config) {st : BState} {text : Chars}
    (h : render (openwrtClass env schema sh loads dsa) files ⟨config, none⟩ = (st, .ok text)) :
    ∃ inter data, st.inter = some inter ∧ Over A inter ∧ packagesOf inter = .ok data ∧ Over A data ∧
      ∃ more, text = renderUci env.reprC data ++ more ∧ (files = false → more = []) := by
  unfold render at h
  split at h
  · cases h
  · have hi : ensureIntermediate (openwrtClass env schema sh loads dsa) ⟨config, none⟩ = toIntermediate (openwrtClass env schema sh loads dsa) ⟨config, none⟩ := rfl
    rw [hi] at h
    unfold toIntermediate at h
    split at h
    · cases h
    · rename_i st' heq
      split at heq
      · cases heq
      · have hl := convLoop_over (cls := openwrtClass env schema sh loads dsa) (openwrt_convs_over hA sh dsa) hc (over_nil (A := A) (α := String × Val))
        have heq : convLoop (openwrtClass env schema sh loads dsa) (openwrtConvs env sh dsa) config [] = (st', .ok ()) := heq
        rw [heq] at hl
        have hsome : ∃ i, st'.inter = some i := by
          have : ∀ (cs : List Conv) (c i : VDict), (convLoop (openwrtClass env schema sh loads dsa) cs c i).1.inter.isSome = true := by
            intro cs
            induction cs with
            | nil => intro c i; rfl
            | cons x cs ih =>
              intro c i
              rw [convLoop]
              split
              · exact ih _ _
              · split
                · rfl
                · split
                  · exact ih _ _
                  · split
                    · rfl
                    · exact ih _ _
          have := this (openwrtConvs env sh dsa) config []
          rw [heq] at this
          exact Option.isSome_iff_exists.1 this
        obtain ⟨inter, hinter⟩ := hsome
        unfold renderTail at h
        split at h
        · cases h
        · obtain ⟨h1, h2⟩ := (Prod.mk.injEq _ _ _ _).mp h
          subst h1
          obtain ⟨out, ho, h3⟩ := bind_ok_iff.1 h2
          rw [hinter] at ho
          obtain ⟨data, hd, ho⟩ := bind_ok_iff.1 ho
          cases ho
          have hov : Over A inter := over_some.1 (hinter ▸ hl.2)
          refine ⟨inter, data, hinter, hov, hd, over_packagesOf hov data hd, ?_⟩
          split at h3
          · rename_i hf
            obtain ⟨s, _, h3⟩ := bind_ok_iff.1 h3
            cases h3
            exact ⟨s, rfl, fun e => absurd hf (by rw [e]; decide)⟩
          · cases h3
            exact ⟨[], (List.append_nil _).symm, fun _ => rfl⟩

end

/-- C82: when no text of the configuration has a line break, the lines of the rendered text are exactly the lines of the packages,
blocks and options of the intermediate data, each without its runs of four blanks: no value can add a line. -/
theorem C82_no_forged_lines {env : Env} (hE : Wide NoBreak env) {schema : VDict → Except PyErr Unit} {sh : Val → Bool} {loads : Chars → Option Val}
    {dsa : Bool} {config : VDict} (hc : CleanConfig NoBreak config) {st : BState} {text : Chars}
    (h : render (openwrtClass env schema sh loads dsa) false ⟨config, none⟩ = (st, .ok text)) :
    ∃ inter data, st.inter = some inter ∧ packagesOf inter = .ok data ∧ (∀ l ∈ data.flatMap (packageLines env.reprC), '\n' ∉ l) ∧
      text = joinWith ['\n'] ((data.flatMap (packageLines env.reprC)).map r4) := by
  obtain ⟨inter, data, h1, _, h2, h3, more, h4, h5⟩ := render_over hE hc h
  have hu : UnbrokenUci env.reprC data := fun p hp l hl hn => over_packageLines hE (by unfold NoBreak; decide) (h3 p hp) l hl _ hn rfl
  refine ⟨inter, data, h1, h2, fun l hl => ?_, ?_⟩
  · obtain ⟨p, hp, hl⟩ := List.mem_flatMap.1 hl
    exact hu p hp l hl
  · rw [h4, h5 rfl, List.append_nil]
    cases data with
    | nil => rfl
    | cons p data => exact C82_lines_of_data env.reprC _ (by simp) hu

/-! ## The archive -/

/-- the text of the blocks of a package, without runs of four blanks -/
def blocksText4 (reprC : Val → String) (p : String × List VDict) : Chars :=
  joinWith ['\n'] ((p.2.flatMap (fun b => blockLines reprC b ++ [[]])).map r4)

/-- the member of the archive of a package: in etc/config, with mode 0644 and the text of the blocks, possibly followed by a line
break (as many bytes of it as it has characters, see C22) -/
def PackageMember4 (reprC : Val → String) (p : String × List VDict) (m : Member) : Prop :=
  m.name = "etc/config/".toList ++ p.1.toList ∧ m.mode = 0o644 ∧
    ∃ t, (t = blocksText4 reprC p ∨ t = blocksText4 reprC p ++ ['\n']) ∧ m.data = (utf8 t).take t.length

/-- the group of lines of a package -/
def pkgGroup4 (reprC : Val → String) (p : String × List VDict) : Chars × List Chars :=
  (p.1.toList, [] :: (p.2.flatMap (fun b => blockLines reprC b ++ [[]])).map r4)

theorem r4_noblank {s : Chars} (h : ' ' ∉ s) : r4 s = s := by
  have := r4_pre h []
  rwa [List.append_nil, r4_nil, List.append_nil] at this

theorem r4_one {s : Chars} (h : ' ' ∉ s) : r4 (' ' :: s) = ' ' :: s := by
  unfold r4
  rw [replaceAll_nomatch _ _ (by decide)]
  · exact congrArg _ (r4_noblank h)
  · rintro ⟨t, ht⟩
    have := (List.cons.inj ht).2
    cases s with
    | nil => cases this
    | cons c s => exact h (by rw [← (List.cons.inj this).1]; exact List.mem_cons_self)

theorem pkgGroup4_line (reprC : Val → String) (p : String × List VDict) (h : ' ' ∉ p.1.toList) :
    (packageLines reprC p).map r4 = (kwPackage ++ [' '] ++ (pkgGroup4 reprC p).1) :: (pkgGroup4 reprC p).2 := by
  rw [pkgGroup_line, List.map_cons, List.append_assoc, r4_pre (by decide), List.singleton_append, r4_one (by exact h)]
  rfl

theorem not_head_r4 {c : Char} (hc : c ≠ ' ') {l : Chars} (h : l.head? = some c) : (r4 l).head? = some c := by
  cases l with
  | nil => cases h
  | cons x l =>
    cases h
    rw [r4_cons hc]
    rfl

theorem pkgGroup4_ok {reprC : Val → String} {data : List (String × List VDict)} (h : UnbrokenUci reprC data) :
    ∀ g ∈ data.map (pkgGroup4 reprC), '\n' ∉ g.1 ∧ ∀ l ∈ g.2, '\n' ∉ l ∧ ¬ kwPackage <+: l := by
  intro g hg
  obtain ⟨p, hp, rfl⟩ := List.mem_map.1 hg
  have hc := h p hp
  rw [pkgGroup_line] at hc
  constructor
  · intro hm; exact hc _ List.mem_cons_self (by simp only [pkgGroup, List.mem_append]; exact .inr hm)
  · intro l hl
    rcases List.mem_cons.1 hl with rfl | hl
    · exact ⟨List.not_mem_nil, not_prefix_head kwp.2.1 (by rw [kwp.1]; simp)⟩
    · obtain ⟨y, hy, rfl⟩ := List.mem_map.1 hl
      refine ⟨fun hm => hc y (List.mem_cons_of_mem _ (List.mem_cons_of_mem _ hy)) (mem_r4 hm), not_prefix_head kwp.2.1 ?_⟩
      rw [kwp.1]
      obtain ⟨b, _, hy⟩ := List.mem_flatMap.1 hy
      rcases List.mem_append.1 hy with hy | hy
      · rw [blockLines_eq] at hy
        rcases List.mem_cons.1 hy with rfl | hy
        · rw [not_head_r4 (by decide) (head_hdrLine reprC b)]; decide
        · obtain ⟨q, _, hy⟩ := List.mem_flatMap.1 hy
          obtain ⟨z, _, rfl⟩ := List.mem_map.1 hy
          rw [r4_cons (by decide)]
          exact fun e => absurd (Option.some.inj e) (by decide)
      · rw [List.mem_singleton.1 hy, r4_nil]; simp

theorem pieceMember4 {reprC : Val → String} {p : String × List VDict} (hc : ∀ l ∈ packageLines reprC p, '\n' ∉ l)
    (tail : List Chars) (ht : tail = [] ∨ tail = [[]]) :
    ∃ m, pieceMember ((pkgGroup4 reprC p).1 ++ nlLines ((pkgGroup4 reprC p).2 ++ tail)) = .ok m ∧ PackageMember4 reprC p m := by
  obtain ⟨hn, hg⟩ := pkgGroup4_ok (data := [p]) (fun q hq => by rw [List.mem_singleton.1 hq]; exact hc) _ (List.mem_map_of_mem List.mem_cons_self)
  have hlines : splitOn '\n' ((pkgGroup4 reprC p).1 ++ nlLines ((pkgGroup4 reprC p).2 ++ tail)) = (pkgGroup4 reprC p).1 :: ((pkgGroup4 reprC p).2 ++ tail) := by
    rw [← joinWith_cons, splitOn_joinWith _ (by simp)]
    intro l hl
    rcases List.mem_cons.1 hl with rfl | hl
    · exact hn
    · rcases List.mem_append.1 hl with hl | hl
      · exact (hg l hl).1
      · rcases ht with rfl | rfl
        · cases hl
        · simp at hl; subst hl; simp
  unfold pieceMember addFile
  rw [hlines, mode0644]
  refine ⟨_, rfl, rfl, rfl, joinWith ['\n'] ((p.2.flatMap (fun b => blockLines reprC b ++ [[]])).map r4 ++ tail), ?_, rfl⟩
  rcases ht with rfl | rfl
  · left; rw [List.append_nil]; rfl
  · exact joinWith_tail _

/-- C82: for data without line breaks and names without blanks, the archive has exactly one member per package. -/
theorem C82_members_of_data (reprC : Val → String) (data : List (String × List VDict)) (h : UnbrokenUci reprC data)
    (hn : ∀ p ∈ data, ' ' ∉ p.1.toList) : ∃ ms, uciSplit (renderUci reprC data) = .ok ms ∧ List.Forall₂ (PackageMember4 reprC) data ms := by
  have key : ∀ data : List (String × List VDict), UnbrokenUci reprC data →
      ∃ ms, (groupPieces (data.map (pkgGroup4 reprC))).mapM pieceMember = .ok ms ∧ List.Forall₂ (PackageMember4 reprC) data ms := by
    intro data h
    induction data with
    | nil => exact ⟨[], rfl, .nil⟩
    | cons p data ih =>
      have hp := h p List.mem_cons_self
      cases data with
      | nil =>
        obtain ⟨m, h1, h2⟩ := pieceMember4 hp [] (.inl rfl)
        rw [List.append_nil] at h1
        refine ⟨[m], ?_, .cons h2 .nil⟩
        simp only [List.map_cons, List.map_nil, groupPieces, List.mapM_cons, List.mapM_nil]
        rw [h1]; rfl
      | cons q data =>
        obtain ⟨m, h1, h2⟩ := pieceMember4 hp [[]] (.inr rfl)
        obtain ⟨ms, h3, h4⟩ := ih (fun x hx => h x (List.mem_cons_of_mem _ hx))
        refine ⟨m :: ms, ?_, .cons h2 h4⟩
        simp only [List.map_cons, groupPieces, List.mapM_cons] at h3 ⊢
        rw [nlLines_append, ← List.append_assoc] at h1
        have h1' : pieceMember ((pkgGroup4 reprC p).1 ++ nlLines (pkgGroup4 reprC p).2 ++ ['\n']) = _ := h1
        rw [h1', h3]
        rfl
  cases data with
  | nil => exact ⟨[], by rw [C34_no_packages]; decide +kernel, .nil⟩
  | cons p data =>
    obtain ⟨ms, h1, h2⟩ := key (p :: data) h
    refine ⟨ms, ?_, h2⟩
    have e : ((p :: data).flatMap (packageLines reprC)).map r4 = groupLines kwPackage ((p :: data).map (pkgGroup4 reprC)) := by
      unfold groupLines
      rw [List.map_flatMap, List.flatMap_map]
      exact List.flatMap_congr fun q hq => pkgGroup4_line reprC q (hn q hq)
    rw [uciSplit_eq, C82_lines_of_data reprC _ (by simp) h, e, List.map_cons,
      splitKw_groups kwPackage kwp.2.1 kwp.2.2 _ _ (by rw [← List.map_cons]; exact pkgGroup4_ok h)]
    rw [← List.map_cons]
    exact h1

end NJ
