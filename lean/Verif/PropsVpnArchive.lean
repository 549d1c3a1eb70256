import Verif.PropsWireGuard
import Verif.PropsVpnMore

/-!
# The archives of VPN backends (C72)
-/

namespace NJ

/-- what a group of lines must be like to be found again: a name of one line without the suffix of the files, at least one line,
the last of them not empty, none beginning with the words that separate the VPNs, all ASCII (see C22) -/
structure GroupOK (kw suffix : Chars) (g : Chars × List Chars) : Prop where
  name : '\n' ∉ g.1 ∧ ¬ suffix <:+: g.1
  last : ∃ ls l, g.2 = ls ++ [l] ∧ l ≠ []
  lines : ∀ l ∈ g.2, '\n' ∉ l ∧ ¬ kw <+: l
  ascii : ∀ l ∈ g.2, ∀ c ∈ l, c.toNat < 128

/-- the same without the condition on the suffix -/
structure GroupAt (kw : Chars) (g : Chars × List Chars) : Prop where
  name : '\n' ∉ g.1
  last : ∃ ls l, g.2 = ls ++ [l] ∧ l ≠ []
  lines : ∀ l ∈ g.2, '\n' ∉ l ∧ ¬ kw <+: l
  ascii : ∀ l ∈ g.2, ∀ c ∈ l, c.toNat < 128

/-- the file of a VPN whose line of separation has the given text -/
def vpnFileAt (suffix : Chars) (g : Chars × List Chars) : Member := ⟨beforeText suffix g.1 ++ suffix, 0o644, utf8 (g.2.flatMap (fun l => l ++ ['\n']))⟩

/-- the file of a VPN: its name, mode 0644, its lines -/
def vpnFileOf (suffix : Chars) (g : Chars × List Chars) : Member := ⟨g.1 ++ suffix, 0o644, utf8 (g.2.flatMap (fun l => l ++ ['\n']))⟩

theorem beforeText_self {pat s : Chars} (h : ¬ pat <:+: s) : beforeText pat s = s := by
  induction s with
  | nil => rfl
  | cons c s ih =>
    unfold beforeText
    have h1 : stripPrefix pat (c :: s) = none := stripPrefix_none (fun hp => h hp.isInfix)
    rw [h1]
    simp only [Option.isSome_none, Bool.false_eq_true, if_false]
    rw [ih (fun hi => h (hi.trans (List.suffix_cons c s).isInfix))]

theorem join_end (ls : List Chars) (n : Nat) : joinWith ['\n'] (ls ++ List.replicate (n + 1) []) = unl ls ++ List.replicate n '\n' := by
  induction n with
  | zero => rw [List.replicate_zero, List.append_nil, unl_join]; rfl
  | succ n ih =>
    rw [List.replicate_succ', ← List.append_assoc]
    have hne : ls ++ List.replicate (n + 1) ([] : Chars) ≠ [] := by simp
    generalize ls ++ List.replicate (n + 1) ([] : Chars) = a at ih hne
    cases a with
    | nil => exact absurd rfl hne
    | cons x xs =>
      rw [List.cons_append, joinWith_cons, nlLines_snoc', ← List.append_assoc, ← joinWith_cons, ih, List.replicate_succ']
      simp

theorem dropFinalBreak_unl (ls : List Chars) (l : Chars) (h : l ≠ []) (hl : '\n' ∉ l) : dropFinalBreak (unl (ls ++ [l])) = unl (ls ++ [l]) := by
  unfold dropFinalBreak
  rw [unl_append]
  have e : unl [l] = l ++ ['\n'] := by simp [unl]
  rw [e]
  obtain ⟨l, c, rfl⟩ : ∃ l' c, l = l' ++ [c] := ⟨l.dropLast, l.getLast h, (List.dropLast_append_getLast h).symm⟩
  have hc : c ≠ '\n' := fun hc => hl (by simp [hc])
  have e2 : (unl ls ++ (l ++ [c] ++ ['\n'])).reverse = '\n' :: c :: (l.reverse ++ (unl ls).reverse) := by simp
  rw [e2]
  split
  · next heq =>
    simp only [List.cons.injEq] at heq
    exact absurd heq.2.1 hc
  · rfl

theorem vpnMember_ok {kw suffix : Chars} {g : Chars × List Chars} (h : GroupAt kw g) (n : Nat) (hn : n = 0 ∨ n = 1) :
    vpnMember suffix (g.1 ++ nlLines ([] :: g.2 ++ [[]]) ++ List.replicate n '\n') = .ok (vpnFileAt suffix g) := by
  obtain ⟨name, lines⟩ := g
  obtain ⟨ls, l, hls, hl⟩ := h.last
  have e : name ++ nlLines ([] :: lines ++ [[]]) ++ List.replicate n '\n' = joinWith ['\n'] (name :: [] :: (lines ++ List.replicate (n + 1) [])) := by
    rw [joinWith_cons, nlLines_cons, nlLines_append]
    rcases hn with rfl | rfl
    · simp [nlLines]
    · simp [nlLines]
  have hsplit : splitOn '\n' (joinWith ['\n'] (name :: [] :: (lines ++ List.replicate (n + 1) []))) = name :: [] :: (lines ++ List.replicate (n + 1) []) := by
    apply splitOn_joinWith
    rotate_left
    · intro l hl
      simp only [List.mem_cons, List.mem_append, List.mem_replicate] at hl
      rcases hl with rfl | rfl | hl | ⟨_, rfl⟩
      · exact h.name
      · simp
      · exact (h.lines l hl).1
      · simp
    · simp
  unfold vpnMember
  dsimp only
  rw [e, hsplit]
  simp only [List.headD_cons, List.drop_succ_cons, List.drop_zero]
  rw [join_end]
  have hlines : ∀ x ∈ lines, '\n' ∉ x := fun x hx => (h.lines x hx).1
  have hd : dropFinalBreak (unl lines ++ List.replicate n '\n') = unl lines := by
    rcases hn with rfl | rfl
    · simp only [List.replicate_zero, List.append_nil]
      have hls : lines = ls ++ [l] := hls
      rw [hls]
      exact dropFinalBreak_unl ls l hl (hlines l (by rw [hls]; simp))
    · have hls : lines = ls ++ [l] := hls
      rw [hls, unl_append]
      have : unl ls ++ unl [l] ++ List.replicate 1 '\n' = (unl ls ++ l) ++ ['\n', '\n'] := by simp [unl]
      rw [this, dropFinalBreak_two]
      simp [unl]
  rw [hd]
  unfold addFile
  rw [mode0644]
  have : ∀ c ∈ unl lines, c.toNat < 128 := by
    intro c hc
    unfold unl at hc
    obtain ⟨x, hx, hc⟩ := List.mem_flatMap.1 hc
    rcases List.mem_append.1 hc with hc | hc
    · exact h.ascii x hx c hc
    · simp at hc; subst hc; decide
  show Except.ok (⟨beforeText suffix name ++ suffix, 0o644, (utf8 (unl lines)).take (unl lines).length⟩ : Member) = _
  rw [utf8_ascii this]
  rfl

/-- one member for each group of lines -/
theorem members_at (kw suffix : Chars) (hkw : kw ≠ [] ∧ '\n' ∉ kw) (gs : List (Chars × List Chars)) (hg : ∀ g ∈ gs, GroupAt kw g) (hne : gs ≠ []) :
    vpnSplit kw suffix (joinWith ['\n'] (gs.flatMap (fun g => (kw ++ [' '] ++ g.1) :: [] :: g.2 ++ [[]]))) = .ok (gs.map (vpnFileAt suffix)) := by
  have e : gs.flatMap (fun g => (kw ++ [' '] ++ g.1) :: [] :: g.2 ++ [[]]) = groupLines kw (gs.map (fun g => (g.1, [] :: g.2 ++ [[]]))) := by
    unfold groupLines
    rw [List.flatMap_map]
    rfl
  rw [e]
  cases gs with
  | nil => exact absurd rfl hne
  | cons g gs =>
    unfold vpnSplit
    rw [List.map_cons, splitKw_groups kw hkw.1 hkw.2]
    · rw [← List.map_cons (f := fun g : Chars × List Chars => (g.1, [] :: g.2 ++ [[]]))]
      have hr : ∀ xs, removeFirstEmpty ([] :: xs) = xs := fun xs => rfl
      rw [hr]
      generalize g :: gs = all at hg
      induction all with
      | nil => rfl
      | cons a rest ih =>
        have ih := ih (fun g hm => hg g (by simp [hm]))
        have ha := hg a (by simp)
        cases rest with
        | nil =>
          have := vpnMember_ok (suffix := suffix) ha 0 (.inl rfl)
          simp only [List.replicate_zero, List.append_nil] at this
          simp only [List.map_cons, List.map_nil, groupPieces]
          exact (mapM_ok_cons _ _ _ _).2 ⟨_, _, this, rfl, rfl⟩
        | cons b rest =>
          have := vpnMember_ok (suffix := suffix) ha 1 (.inr rfl)
          simp only [List.map_cons, groupPieces] at ih ⊢
          exact (mapM_ok_cons _ _ _ _).2 ⟨_, _, this, ih, rfl⟩
    · intro g' hg'
      obtain ⟨g, hm, rfl⟩ : ∃ x ∈ g :: gs, (x.1, [] :: x.2 ++ [[]]) = g' := List.mem_map.1 (by rw [List.map_cons]; exact hg')
      have h := hg g hm
      refine ⟨h.name, ?_⟩
      have hnil : ¬ kw <+: ([] : Chars) := by
        intro hp
        exact hkw.1 (List.prefix_nil.1 hp)
      intro l hl
      simp only [List.cons_append, List.mem_cons, List.mem_append, List.not_mem_nil, or_false] at hl
      rcases hl with rfl | hl | rfl
      · exact ⟨by simp, hnil⟩
      · exact h.lines l hl
      · exact ⟨by simp, hnil⟩

/-- **C72.** The archive made from the text of a list of VPNs has exactly one member for each of them, in order, named after it and
holding its lines. -/
theorem C72_members (kw suffix : Chars) (hkw : kw ≠ [] ∧ '\n' ∉ kw) (gs : List (Chars × List Chars)) (hg : ∀ g ∈ gs, GroupOK kw suffix g) (hne : gs ≠ []) :
    vpnSplit kw suffix (joinWith ['\n'] (gs.flatMap (fun g => (kw ++ [' '] ++ g.1) :: [] :: g.2 ++ [[]]))) = .ok (gs.map (vpnFileOf suffix)) := by
  rw [members_at kw suffix hkw gs (fun g h => ⟨(hg g h).name.1, (hg g h).last, (hg g h).lines, (hg g h).ascii⟩) hne]
  congr 1
  apply List.map_congr_left
  intro g h
  unfold vpnFileAt vpnFileOf
  rw [beforeText_self (hg g h).name.2]

/-- `generate()` in terms of the native text -/
theorem generate_split {cls : Class} {st st' : BState} {ms : List Member} (h : generate cls st = (st', .ok ms)) {inter : VDict}
    (hi : st'.inter = some inter) : ∃ text a b, cls.native inter = .ok text ∧ cls.split text = .ok a ∧ processFiles st'.config = .ok b ∧ ms = a ++ b := by
  unfold generate at h
  split at h
  · cases h
  · next st1 text hr =>
    obtain ⟨h0, h9⟩ := (Prod.mk.injEq _ _ _ _).mp h
    clear h
    subst h0
    obtain ⟨a, h1, h9⟩ := bind_ok_iff.1 h9
    obtain ⟨b, h2, h9⟩ := bind_ok_iff.1 h9
    cases h9
    obtain ⟨_, st2, _, ht⟩ := render_ok hr
    obtain ⟨c, hc, rfl, out, ho, hh⟩ := renderTail_ok ht
    simp only at hi
    rw [hi] at ho
    rcases hh with ⟨_, rfl⟩ | ⟨hf, _⟩
    · exact ⟨text, a, b, ho, h1, h2, rfl⟩
    · cases hf

/-- **C72.** `generate()` of the OpenVPN backend: one member for every VPN rendered, in order, followed by the additional files. -/
theorem C72_openvpn (env : Env) (schema : VDict → Except PyErr Unit) (sh : Val → Bool) (loads : Chars → Option Val) (st st' : BState) (ms : List Member)
    (h : generate (openvpnClass env schema sh loads) st = (st', .ok ms)) (inter : VDict) (hi : st'.inter = some inter) (bs : List VDict)
    (hb : Dict.get? inter "openvpn" = some (.list (bs.map .dict))) (hne : bs ≠ []) (hc : ∀ b ∈ bs, ∀ l ∈ vpnTextLines env.reprC b, CleanLine l)
    (hg : ∀ b ∈ bs, GroupOK vpnKw ".conf".toList (fieldText env.reprC b "name", b.flatMap (vpnOptionLines env.reprC))) :
    ∃ fs, processFiles st'.config = .ok fs ∧
      ms = bs.map (fun b => vpnFileOf ".conf".toList (fieldText env.reprC b "name", b.flatMap (vpnOptionLines env.reprC))) ++ fs := by
  obtain ⟨text, a, b, h1, h2, h3, rfl⟩ := generate_split h hi
  refine ⟨b, h3, ?_⟩
  congr 1
  have h1 : vpnNative env.reprC inter = .ok text := h1
  unfold vpnNative at h1
  rw [hb] at h1
  dsimp only at h1
  rw [blocksOf_map] at h1
  have h1 : Except.ok (renderVpns env.reprC bs) = Except.ok text := h1
  rw [C59_exact_lines env.reprC bs hne hc] at h1
  cases h1
  have h2 : vpnSplit vpnKw confSuffix (joinWith ['\n'] (bs.flatMap (fun b => vpnTextLines env.reprC b ++ [[]]))) = .ok a := h2
  have := C72_members vpnKw ".conf".toList (by decide) (bs.map (fun b => (fieldText env.reprC b "name", b.flatMap (vpnOptionLines env.reprC)))) (by
    intro g hm
    obtain ⟨b, hb, rfl⟩ := List.mem_map.1 hm
    exact hg b hb) (by simpa using hne)
  rw [List.flatMap_map] at this
  have e : (fun b => vpnTextLines env.reprC b ++ [[]]) = (fun a : VDict =>
      (vpnKw ++ [' '] ++ (fieldText env.reprC a "name", List.flatMap (vpnOptionLines env.reprC) a).1) :: [] ::
        (fieldText env.reprC a "name", List.flatMap (vpnOptionLines env.reprC) a).2 ++ [[]]) := by
    funext a
    have : vpnKw ++ [' '] = "# openvpn config: ".toList := by decide +kernel
    rw [this]
    rfl
  rw [e] at h2
  rw [show confSuffix = ".conf".toList from rfl, this] at h2
  cases h2
  rw [List.map_map]
  rfl

/-- C72 needs names without the suffix: they are cut there, and two VPNs may end up in files of the same name. -/
theorem C72_needs_names :
    (vpnSplit vpnKw confSuffix (renderVpns (fun _ => "") [[("name", .str "a.conf1"), ("x", .int 1)], [("name", .str "a.conf2"), ("x", .int 2)]])).map
      (fun ms => ms.map (fun m => String.ofList m.name)) = .ok ["a.conf", "a.conf"] := by decide +kernel

/-! ## Reading the archive -/

/-- the suffix is taken off the name of the member -/
theorem name_back {name : Chars} (h : ¬ ".conf".toList <:+: name) : replaceAll confSuffix [] (name ++ confSuffix) = name := by
  rw [replaceAll_append confSuffix [] (by decide) name confSuffix]
  · have := replaceAll_match confSuffix [] (by decide) []
    rw [List.append_nil] at this
    rw [this]
    simp [replaceAll_nil]
  · intro a b hab hb hp
    have hcs : confSuffix = ['.', 'c', 'o', 'n', 'f'] := by decide
    rw [hcs] at hp
    match b, hb, hp with
    | [_], _, hp => simp [List.cons_prefix_cons] at hp
    | [_, _], _, hp => simp [List.cons_prefix_cons] at hp
    | [_, _, _], _, hp => simp [List.cons_prefix_cons] at hp
    | [_, _, _, _], _, hp => simp [List.cons_prefix_cons] at hp
    | x1 :: x2 :: x3 :: x4 :: x5 :: r, _, hp =>
      simp only [List.cons_append, List.cons_prefix_cons, List.nil_prefix, and_true] at hp
      obtain ⟨rfl, rfl, rfl, rfl, rfl⟩ := hp
      exact h ⟨a, r, by rw [hab]; simp⟩

theorem groupPieces_snoc (a : List (Chars × List Chars)) (g : Chars × List Chars) :
    groupPieces (a ++ [g]) = a.map (fun g => g.1 ++ nlLines g.2 ++ ['\n']) ++ [g.1 ++ nlLines g.2] := by
  induction a with
  | nil => rfl
  | cons x a ih =>
    cases a with
    | nil => rfl
    | cons y a => rw [List.cons_append, List.cons_append, groupPieces, ← List.cons_append, ih]; rfl

theorem vpnTarText_groups (gs : List (Chars × List Chars)) (extra : List Member) (hg : ∀ g ∈ gs, GroupOK vpnKw ".conf".toList g)
    (hx : ∀ m ∈ extra, ¬ ".conf".toList <:+ m.name) :
    vpnTarText (gs.map (vpnFileOf ".conf".toList) ++ extra) = .ok (unl (gs.flatMap (fun g => (vpnKw ++ [' '] ++ g.1) :: [] :: g.2 ++ [[]]))) := by
  induction gs with
  | nil =>
    induction extra with
    | nil => rfl
    | cons m ms ih =>
      have hm : ¬ confSuffix <:+ m.name := hx m (by simp)
      rw [List.map_nil, List.nil_append, vpnTarText, if_neg hm]
      exact ih (fun m hm => hx m (by simp [hm]))
  | cons g gs ih =>
    have ih := ih (fun g hm => hg g (by simp [hm]))
    have h := hg g (by simp)
    rw [List.map_cons, List.cons_append, vpnTarText, if_pos ⟨g.1, rfl⟩, ih]
    show (decodeUtf8 (utf8 (g.2.flatMap (fun l => l ++ ['\n']))) >>= _) = _
    rw [decode_utf8]
    show Except.ok (vpnKw ++ [' '] ++ replaceAll confSuffix [] (g.1 ++ confSuffix) ++ ['\n', '\n'] ++ unl g.2 ++ ['\n'] ++ _) = _
    rw [name_back h.name.2, List.flatMap_cons, unl_append, List.cons_append, List.cons_append, unl_cons, unl_cons, unl_append]
    simp [unl]

/-- **C72.** Parsing the archive of the OpenVPN backend, with any further members that are not VPNs, gives what parsing the text gives. -/
theorem C72_archive_as_text (gs : List (Chars × List Chars)) (extra : List Member) (hne : gs ≠ []) (hg : ∀ g ∈ gs, GroupOK vpnKw ".conf".toList g)
    (hx : ∀ m ∈ extra, ¬ ".conf".toList <:+ m.name) :
    parseVpnTar (gs.map (vpnFileOf ".conf".toList) ++ extra) =
      parseVpn (joinWith ['\n'] (gs.flatMap (fun g => (vpnKw ++ [' '] ++ g.1) :: [] :: g.2 ++ [[]]))) := by
  unfold parseVpnTar
  rw [vpnTarText_groups gs extra hg hx]
  show parseVpn _ = _
  rw [unl_join]
  obtain ⟨gs, g, rfl⟩ : ∃ gs' g, gs = gs' ++ [g] := ⟨gs.dropLast, gs.getLast hne, (List.dropLast_append_getLast hne).symm⟩
  have e1 : (gs ++ [g]).flatMap (fun g => (vpnKw ++ [' '] ++ g.1) :: [] :: g.2 ++ [[]]) =
      groupLines vpnKw (gs.map (fun g => (g.1, [] :: g.2 ++ [[]])) ++ [(g.1, [] :: g.2 ++ [[]])]) := by
    unfold groupLines
    rw [List.flatMap_append, List.flatMap_append, List.flatMap_map]
    simp
  have e2 : (gs ++ [g]).flatMap (fun g => (vpnKw ++ [' '] ++ g.1) :: [] :: g.2 ++ [[]]) ++ [[]] =
      groupLines vpnKw (gs.map (fun g => (g.1, [] :: g.2 ++ [[]])) ++ [(g.1, [] :: g.2 ++ [[], []])]) := by
    unfold groupLines
    rw [List.flatMap_append, List.flatMap_append, List.flatMap_map]
    simp
  rw [e2, e1]
  have ok : ∀ tail : List Chars, (∀ x ∈ tail, x = []) → ∀ g' ∈ gs.map (fun g => (g.1, [] :: g.2 ++ [[]])) ++ [(g.1, [] :: g.2 ++ tail)],
      '\n' ∉ g'.1 ∧ ∀ l ∈ g'.2, '\n' ∉ l ∧ ¬ vpnKw <+: l := by
    intro tail ht g' hg'
    have hnil : '\n' ∉ ([] : Chars) ∧ ¬ vpnKw <+: ([] : Chars) := by decide
    rcases List.mem_append.1 hg' with hg' | hg'
    · obtain ⟨y, hy, rfl⟩ := List.mem_map.1 hg'
      have h := hg y (by simp [hy])
      refine ⟨h.name.1, fun l hl => ?_⟩
      simp only [List.cons_append, List.mem_cons, List.mem_append, List.not_mem_nil, or_false] at hl
      rcases hl with rfl | hl | rfl
      · exact hnil
      · exact h.lines l hl
      · exact hnil
    · simp only [List.mem_cons, List.not_mem_nil, or_false] at hg'
      subst hg'
      have h := hg g (by simp)
      refine ⟨h.name.1, fun l hl => ?_⟩
      simp only [List.cons_append, List.mem_cons, List.mem_append] at hl
      rcases hl with rfl | hl | hl
      · exact hnil
      · exact h.lines l hl
      · rw [ht l hl]; exact hnil
  have split : ∀ a x, (∀ g' ∈ a ++ [x], '\n' ∉ g'.1 ∧ ∀ l ∈ g'.2, '\n' ∉ l ∧ ¬ vpnKw <+: l) →
      splitKw vpnKw true 0 (joinWith ['\n'] (groupLines vpnKw (a ++ [x]))) = [] :: groupPieces (a ++ [x]) := by
    intro a x h
    cases a with
    | nil => exact splitKw_groups vpnKw (by decide) (by decide) x [] h
    | cons y a => exact splitKw_groups vpnKw (by decide) (by decide) y (a ++ [x]) h
  unfold parseVpn
  rw [split _ _ (ok [[]] (by simp)), split _ _ (ok [[], []] (by simp)), groupPieces_snoc, groupPieces_snoc]
  have e3 : g.1 ++ nlLines ([] :: g.2 ++ [[], []]) = (g.1 ++ nlLines ([] :: g.2 ++ [[]])) ++ List.replicate 1 '\n' := by
    simp [nlLines]
  have e4 := strip_append_breaks (g.1 ++ nlLines ([] :: g.2 ++ [[]])) 1
  simp only at e3 e4 ⊢
  rw [e3]
  generalize g.1 ++ nlLines ([] :: g.2 ++ [[]]) = x at e4
  simp only [← List.cons_append, List.filter_append, List.map_append]
  congr 3
  simp only [List.filter_cons, List.filter_nil, e4]
  by_cases hb : (strip x).isEmpty
  · simp [hb]
  · simp only [hb, Bool.not_false, if_true, List.map_cons, List.map_nil, e4]

/-! ## WireGuard -/

/-- the lines of the file of a tunnel: as in the text, without its name -/
def tunnelBody (reprC : Val → String) (i : VDict) (ps : List VDict) : List Chars :=
  "[Interface]".toList :: i.map (optionEq reprC) ++ ps.flatMap (fun p => [] :: "[Peer]".toList :: p.map (optionEq reprC))

theorem tunnelLines_body (reprC : Val → String) (name : Chars) (i : VDict) (ps : List VDict) :
    tunnelLines reprC name i ps = ("# wireguard config: ".toList ++ name) :: [] :: tunnelBody reprC i ps ++ [[]] := by
  unfold tunnelLines tunnelBody
  have : ∀ (x : List Chars), x ++ [[]] ++ ps.flatMap (fun p => "[Peer]".toList :: p.map (optionEq reprC) ++ [[]]) =
      x ++ ps.flatMap (fun p => [] :: "[Peer]".toList :: p.map (optionEq reprC)) ++ [[]] := by
    induction ps with
    | nil => intro x; simp
    | cons p ps ih =>
      intro x
      have := ih (x ++ ([] :: "[Peer]".toList :: p.map (optionEq reprC)))
      rw [List.flatMap_cons, List.flatMap_cons]
      simp only [List.append_assoc, List.cons_append, List.nil_append] at this ⊢
      exact this
  have := this (("# wireguard config: ".toList ++ name) :: [] :: "[Interface]".toList :: i.map (optionEq reprC))
  simp only [List.cons_append, List.append_assoc] at this ⊢
  exact this

theorem optionEq_ne (reprC : Val → String) (p : String × Val) : optionEq reprC p ≠ [] := by
  unfold optionEq
  intro h
  simp at h

theorem ends_nonempty {a : Chars} (ha : a ≠ []) (m : List Chars) (hm : ∀ x ∈ m, x ≠ []) : ∃ ls l, a :: m = ls ++ [l] ∧ l ≠ [] := by
  rcases List.eq_nil_or_concat m with rfl | ⟨m, y, rfl⟩
  · exact ⟨[], a, rfl, ha⟩
  · exact ⟨a :: m, y, by simp, hm y (by simp)⟩

theorem tunnelBody_last (reprC : Val → String) (i : VDict) (ps : List VDict) : ∃ ls l, tunnelBody reprC i ps = ls ++ [l] ∧ l ≠ [] := by
  have hm : ∀ d : VDict, ∀ x ∈ d.map (optionEq reprC), x ≠ [] := by
    intro d x hx
    obtain ⟨p, _, rfl⟩ := List.mem_map.1 hx
    exact optionEq_ne reprC p
  unfold tunnelBody
  rcases List.eq_nil_or_concat ps with rfl | ⟨ps, p, rfl⟩
  · rw [List.flatMap_nil, List.append_nil]
    exact ends_nonempty (by decide) _ (hm i)
  · obtain ⟨ls, l, e, hl⟩ := ends_nonempty (a := "[Peer]".toList) (by decide) _ (hm p)
    rw [List.concat_eq_append, List.flatMap_append, List.flatMap_cons, List.flatMap_nil, List.append_nil, e]
    refine ⟨("[Interface]".toList :: i.map (optionEq reprC)) ++ ps.flatMap (fun p => [] :: "[Peer]".toList :: p.map (optionEq reprC)) ++ ([] :: ls), l, ?_, hl⟩
    simp

/-- a tunnel whose file can be found in the text -/
structure TunnelFile (reprC : Val → String) (t : VDict) : Prop where
  clean : TunnelClean reprC t
  name : ¬ ".conf".toList <:+: fieldText reprC t "name"
  options : ∀ k v, tunnelOption t k = some v → ¬ wgKw <+: optionEq reprC (k, v) ∧ ∀ c ∈ optionEq reprC (k, v), c.toNat < 128
  peers : ∀ ps : List VDict, (Dict.get? t "peers").getD (.list []) = .list (ps.map .dict) → ∀ p ∈ ps, ∀ k v, peerOption reprC p k = some v →
    ¬ wgKw <+: optionEq reprC (k, v) ∧ ∀ c ∈ optionEq reprC (k, v), c.toNat < 128

theorem dicts_inj {a b : List VDict} (h : a.map Val.dict = b.map Val.dict) : a = b := by
  induction a generalizing b with
  | nil => cases b with
    | nil => rfl
    | cons => cases h
  | cons x a ih => cases b with
    | nil => cases h
    | cons y b =>
      simp only [List.map_cons, List.cons.injEq, Val.dict.injEq] at h
      rw [h.1, ih h.2]

theorem tunnel_group {reprC : Val → String} {t : VDict} {o : Chars × VDict × List VDict} (h : TunnelFile reprC t) (ho : TunnelText reprC t o) :
    GroupOK wgKw ".conf".toList (o.1, tunnelBody reprC o.2.1 o.2.2) := by
  have hi : ∀ p ∈ o.2.1, CleanLine (optionEq reprC p) ∧ ¬ wgKw <+: optionEq reprC p ∧ ∀ c ∈ optionEq reprC p, c.toNat < 128 := by
    intro p hp
    have := Dict.get?_of_mem ho.interface.once hp
    rw [ho.interface.options] at this
    by_cases e : p.1 = "name"
    · rw [if_pos e] at this; cases this
    · rw [if_neg e] at this
      exact ⟨h.clean.options _ _ this, h.options _ _ this⟩
  have hp : ∀ d ∈ o.2.2, ∀ p ∈ d, CleanLine (optionEq reprC p) ∧ ¬ wgKw <+: optionEq reprC p ∧ ∀ c ∈ optionEq reprC p, c.toNat < 128 := by
    obtain ⟨ps, e1, h2⟩ := ho.peers
    obtain ⟨ps', e2, h3⟩ := h.clean.peers
    have : ps = ps' := by
      rw [e1] at e2
      exact dicts_inj (Val.list.inj e2)
    subst this
    have h4 := h.peers ps e1
    clear e1 e2
    generalize o.2.2 = ds at h2
    induction h2 with
    | nil => intro d hd; cases hd
    | cons g _ ih =>
      intro d hd
      rcases List.mem_cons.1 hd with rfl | hd
      · intro p hp
        have := Dict.get?_of_mem g.once hp
        rw [g.options] at this
        exact ⟨(h3 _ (by simp)).2 _ _ this, h4 _ (by simp) _ _ this⟩
      · exact ih (fun p hp => h3 p (by simp [hp])) (fun p hp => h4 p (by simp [hp])) d hd
  have hall : ∀ l ∈ tunnelBody reprC o.2.1 o.2.2, '\n' ∉ l ∧ ¬ wgKw <+: l ∧ ∀ c ∈ l, c.toNat < 128 := by
    intro l hl
    unfold tunnelBody at hl
    simp only [List.cons_append, List.mem_cons, List.mem_append, List.mem_map, List.mem_flatMap] at hl
    rcases hl with rfl | ⟨p, hp', rfl⟩ | ⟨d, hd, hl⟩
    · decide +kernel
    · exact ⟨(hi p hp').1.1, (hi p hp').2⟩
    · rcases hl with rfl | rfl | ⟨p, hp', rfl⟩
      · decide +kernel
      · decide +kernel
      · exact ⟨(hp d hd p hp').1.1, (hp d hd p hp').2⟩
  have hn := h.clean.name.1
  refine ⟨⟨?_, ?_⟩, tunnelBody_last _ _ _, fun l hl => ⟨(hall l hl).1, (hall l hl).2.1⟩, fun l hl => (hall l hl).2.2⟩
  · rw [ho.name]
    intro hm
    exact hn (by simp [hm])
  · rw [ho.name]; exact h.name

/-- **C72, C62.** `generate()` of the WireGuard backend: one member for every tunnel, in order, with the sections of the tunnel, followed
by the additional files. -/
theorem C72_wireguard (env : Env) (schema : VDict → Except PyErr Unit) (sh : Val → Bool) (loads : Chars → Option Val) (config config' : VDict)
    (l : List VDict) (hne : l ≠ []) (hk : Dict.get? config "wireguard" = some (.list (l.map .dict))) (hl : ∀ t ∈ l, TunnelFile env.reprC t)
    (hv : validate (wireguardClass env schema sh loads) config = .ok ()) (hd : deduplicateFiles config = .ok config')
    (fs : List Member) (hf : processFiles config' = .ok fs) :
    ∃ st os, List.Forall₂ (TunnelText env.reprC) l os ∧ generate (wireguardClass env schema sh loads) ⟨config, none⟩ =
      (st, .ok (os.map (fun o => vpnFileOf ".conf".toList (o.1, tunnelBody env.reprC o.2.1 o.2.2)) ++ fs)) := by
  obtain ⟨st, os, h1, h2, h3⟩ := C62_render env schema sh loads config config' l hne hk (fun t ht => (hl t ht).clean) hv hd
  refine ⟨st, os, h1, ?_⟩
  unfold generate
  rw [h3]
  dsimp only
  have hone : os ≠ [] := by
    rintro rfl
    cases h1
    exact hne rfl
  have hsplit : vpnSplit wgKw confSuffix (joinWith ['\n'] (os.flatMap (fun o => tunnelLines env.reprC o.1 o.2.1 o.2.2))) =
      .ok (os.map (fun o => vpnFileOf ".conf".toList (o.1, tunnelBody env.reprC o.2.1 o.2.2))) := by
    have := C72_members wgKw ".conf".toList (by decide) (os.map (fun o => (o.1, tunnelBody env.reprC o.2.1 o.2.2))) (by
      intro g hm
      obtain ⟨o, ho, rfl⟩ := List.mem_map.1 hm
      clear * - h1 hl ho
      induction h1 with
      | nil => cases ho
      | cons g _ ih =>
        rcases List.mem_cons.1 ho with rfl | ho
        · exact tunnel_group (hl _ (by simp)) g
        · exact ih (fun t ht => hl t (by simp [ht])) ho) (by simpa using hone)
    rw [List.flatMap_map, List.map_map] at this
    have e : (fun o : Chars × VDict × List VDict => tunnelLines env.reprC o.1 o.2.1 o.2.2) = (fun o =>
        (wgKw ++ [' '] ++ (o.1, tunnelBody env.reprC o.2.1 o.2.2).1) :: [] :: (o.1, tunnelBody env.reprC o.2.1 o.2.2).2 ++ [[]]) := by
      funext o
      have : wgKw ++ [' '] = "# wireguard config: ".toList := by decide +kernel
      rw [this, tunnelLines_body]
    rw [e]
    exact this
  show (st, (vpnSplit wgKw confSuffix _ >>= _)) = _
  rw [hsplit]
  show (st, (processFiles st.config >>= _)) = _
  rw [h2, hf]
  rfl

end NJ
