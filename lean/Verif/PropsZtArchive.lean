import Verif.PropsZtBackend
import Verif.PropsConv

/-!
# C76: the archive of the ZeroTier backend, and what the conditions are for
-/

set_option linter.unusedSimpArgs false
set_option linter.unnecessarySimpa false

namespace NJ

/-! ## The archive -/

/-- the characters written are all ASCII, so the member of the archive is complete (see C22) -/
theorem ascii_uEscape (n : Nat) : ∀ d ∈ uEscape n, d.toNat < 128 := by
  have hx (k : Nat) : (hexDigit (k % 16)).toNat < 128 :=
    (by decide : ∀ k : Fin 16, (hexDigit k).toNat < 128) ⟨k % 16, Nat.mod_lt _ (by decide)⟩
  intro d hd
  simp only [uEscape, List.mem_cons, List.not_mem_nil, or_false] at hd
  rcases hd with rfl | rfl | rfl | rfl | rfl | rfl
  · decide
  · decide
  all_goals exact hx _

theorem ascii_escHtml (c : Char) : ∀ d ∈ escHtml c, d.toNat < 128 := by
  have hh (e : Char) (he : e.toNat < 128) : ∀ d ∈ htmlChar e, d.toNat < 128 := by
    unfold htmlChar
    split_ifs
    · exact ascii_uEscape _
    · exact ascii_uEscape _
    · exact ascii_uEscape _
    · exact ascii_uEscape _
    · intro d hd
      simp at hd; subst hd; exact he
  have he : ∀ d ∈ escChar c, d.toNat < 128 := by
    unfold escChar
    split_ifs with h1 h2 h3 h4 h5 h6 h7 h8
    · decide
    · decide
    · decide
    · decide
    · decide
    · decide
    · decide
    · intro d hd
      simp at hd; subst hd; omega
    · exact ascii_uEscape _
    · intro d hd
      rcases List.mem_append.1 hd with h | h
      · exact ascii_uEscape _ d h
      · exact ascii_uEscape _ d h
  intro d hd
  obtain ⟨e, h1, h2⟩ := List.mem_flatMap.1 hd
  exact hh e (he e h1) d h2

theorem ascii_sp (n : Nat) : ∀ d ∈ sp n, d.toNat < 128 := fun d hd => by
  rw [(List.mem_replicate.1 hd).2]; decide

theorem ascii_brk (st : JsonStyle) (lvl : Nat) : ∀ d ∈ st.brk lvl, d.toNat < 128 := by
  unfold JsonStyle.brk
  cases st.indent with
  | none => simp
  | some n =>
    intro d hd
    rcases List.mem_cons.1 hd with rfl | h
    · decide
    · exact ascii_sp _ d h

theorem ascii_lit {s : Chars} (h : ∀ d ∈ s, d.toNat < 128) : ∀ d ∈ s, d.toNat < 128 := h

theorem ascii_sep (st : JsonStyle) (lvl : Nat) : ∀ d ∈ st.sep lvl, d.toNat < 128 := by
  unfold JsonStyle.sep
  cases st.indent with
  | none =>
    intro d (hd : d ∈ [',', ' '])
    exact ascii_lit (by decide) d hd
  | some n =>
    intro d hd
    rcases List.mem_cons.1 hd with rfl | h
    · decide
    · exact ascii_brk _ _ d h

theorem ascii_text {st : JsonStyle} (he : ∀ c, ∀ d ∈ st.esc c, d.toNat < 128) (s : Chars) : ∀ d ∈ jsonText st s, d.toNat < 128 := by
  intro d hd
  unfold jsonText at hd
  simp only [List.mem_cons, List.mem_append, List.mem_flatMap, List.not_mem_nil, or_false] at hd
  rcases hd with rfl | ⟨c, _, h⟩ | rfl
  · decide
  · exact he c d h
  · decide

theorem ascii_int (i : Int) : ∀ d ∈ showInt i, d.toNat < 128 := by
  have hd {c : Char} (h : isDigit c = true) : c.toNat < 128 := by
    simp [isDigit] at h; omega
  intro d h
  cases i with
  | ofNat n => exact hd (showNat_digits n d h)
  | negSucc n =>
    rcases List.mem_cons.1 h with rfl | h
    · decide
    · exact hd (showNat_digits (n + 1) d h)

theorem ascii_dumpV {st : JsonStyle} (he : ∀ c, ∀ d ∈ st.esc c, d.toNat < 128) (v : Val) : ∀ lvl, ∀ d ∈ dumpV st lvl v, d.toNat < 128 := by
  induction v using Val.induct with
  | hn => intro lvl; rw [dumpV]; decide
  | hb b => intro lvl; cases b <;> rw [dumpV] <;> decide
  | hi i => intro lvl; rw [dumpV]; exact ascii_int i
  | hs s => intro lvl; rw [dumpV]; exact ascii_text he _
  | hl l ih =>
    intro lvl d hd
    have hL : ∀ vs : List Val, (∀ v ∈ vs, v ∈ l) → ∀ lvl, ∀ d ∈ dumpL st lvl vs, d.toNat < 128 := by
      intro vs
      induction vs with
      | nil => intro _ lvl d hd; simp [dumpL] at hd
      | cons v vs ihv =>
        intro h lvl d hd
        rw [dumpL] at hd
        rcases List.mem_append.1 hd with hd | hd
        · exact ascii_sep st lvl d hd
        rcases List.mem_append.1 hd with hd | hd
        · exact ih v (h v (by simp)) lvl d hd
        · exact ihv (fun w hw => h w (by simp [hw])) lvl d hd
    cases l with
    | nil => rw [dumpV] at hd; revert d; decide
    | cons v vs =>
      rw [dumpV] at hd
      rcases List.mem_cons.1 hd with rfl | hd
      · decide
      rcases List.mem_append.1 hd with hd | hd
      · exact ascii_brk st _ d hd
      rcases List.mem_append.1 hd with hd | hd
      · exact ih v (by simp) _ d hd
      rcases List.mem_append.1 hd with hd | hd
      · exact hL vs (fun w hw => by simp [hw]) _ d hd
      rcases List.mem_append.1 hd with hd | hd
      · exact ascii_brk st _ d hd
      · simp at hd; subst hd; decide
  | hd l ih =>
    intro lvl d hd
    have hL : ∀ vs : List (String × Val), (∀ v ∈ vs, v ∈ l) → ∀ lvl, ∀ d ∈ dumpD st lvl vs, d.toNat < 128 := by
      intro vs
      induction vs with
      | nil => intro _ lvl d hd; simp [dumpD] at hd
      | cons v vs ihv =>
        obtain ⟨k, v⟩ := v
        intro h lvl d hd
        rw [dumpD] at hd
        rcases List.mem_append.1 hd with hd | hd
        · exact ascii_sep st lvl d hd
        rcases List.mem_append.1 hd with hd | hd
        · exact ascii_text he _ d hd
        rcases List.mem_append.1 hd with hd | hd
        · exact ascii_lit (by decide) d hd
        rcases List.mem_append.1 hd with hd | hd
        · exact ih (k, v) (h (k, v) (by simp)) lvl d hd
        · exact ihv (fun w hw => h w (by simp [hw])) lvl d hd
    cases l with
    | nil => rw [dumpV] at hd; revert d; decide
    | cons v vs =>
      obtain ⟨k, v⟩ := v
      rw [dumpV] at hd
      rcases List.mem_cons.1 hd with rfl | hd
      · decide
      rcases List.mem_append.1 hd with hd | hd
      · exact ascii_brk st _ d hd
      rcases List.mem_append.1 hd with hd | hd
      · exact ascii_text he _ d hd
      rcases List.mem_append.1 hd with hd | hd
      · exact ascii_lit (by decide) d hd
      rcases List.mem_append.1 hd with hd | hd
      · exact ih (k, v) (by simp) _ d hd
      rcases List.mem_append.1 hd with hd | hd
      · exact hL vs (fun w hw => by simp [hw]) _ d hd
      rcases List.mem_append.1 hd with hd | hd
      · exact ascii_brk st _ d hd
      · simp at hd; subst hd; decide

/-- the lines of a network: the name of its file and the lines of the document -/
def ztnGroup (reprC : Val → String) (b : VDict) : Chars × List Chars := (fieldText reprC b "nwid" ++ jsonSuffix, splitOn '\n' (tojson4 (.dict b)))

theorem ztnText_groups (reprC : Val → String) (bs : List VDict) (hne : bs ≠ []) :
    ztnText reprC 1 bs = joinWith ['\n'] ((bs.map (ztnGroup reprC)).flatMap (fun g => (ztnKw ++ [' '] ++ g.1) :: [] :: g.2 ++ [[]])) := by
  have hkw (b : VDict) : ztnKw ++ [' '] ++ (ztnGroup reprC b).1 = '/' :: '/' :: ztnHead reprC b := by
    have : ztnKw ++ [' '] = '/' :: '/' :: " zerotier controller config: ".toList := by decide
    rw [this]; rfl
  have hlines (b : VDict) : nlLines (ztnGroup reprC b).2 = '\n' :: tojson4 (.dict b) := by
    have h := joinWith_splitOn '\n' (tojson4 (.dict b))
    have hn := splitOn_ne_nil '\n' (tojson4 (.dict b))
    show nlLines (splitOn '\n' (tojson4 (.dict b))) = _
    generalize splitOn '\n' (tojson4 (.dict b)) = ls at h hn
    cases ls with
    | nil => exact absurd rfl hn
    | cons l ls => rw [joinWith_cons] at h; rw [nlLines_cons, h]
  cases bs with
  | nil => exact absurd rfl hne
  | cons b bs =>
    rw [List.map_cons, List.flatMap_cons, List.cons_append, List.cons_append, List.cons_append, joinWith_cons, hkw]
    clear hne
    induction bs generalizing b with
    | nil => simp [ztnText, nlLines_append, hlines, nlLines, List.replicate]; simpa [nlLines] using congrArg (· ++ ['\n']) (hlines b).symm
    | cons b' bs ih =>
      rw [ztnText, rawZtn_eq, ih b', List.map_cons, List.flatMap_cons]
      simp only [nlLines_cons, nlLines_append, hlines, hkw, List.nil_append, List.append_assoc, List.cons_append]

theorem ztnGroup_ok (reprC : Val → String) {b : VDict} (h : ZtnPlain reprC b) : GroupAt ztnKw (ztnGroup reprC b) := by
  have hj := joinWith_splitOn '\n' (tojson4 (.dict b))
  have hin : ∀ l ∈ splitOn '\n' (tojson4 (.dict b)), l <:+: tojson4 (.dict b) := by
    intro l hl
    rw [← hj]
    exact infix_join hl
  refine ⟨?_, ?_, ?_, ?_⟩
  · show '\n' ∉ fieldText reprC b "nwid" ++ jsonSuffix
    simp only [List.mem_append, not_or]
    exact ⟨h.line, by decide⟩
  · show ∃ ls l, splitOn '\n' (tojson4 (.dict b)) = ls ++ [l] ∧ l ≠ []
    have hn := splitOn_ne_nil '\n' (tojson4 (.dict b))
    refine ⟨_, _, (List.dropLast_append_getLast hn).symm, fun e => ?_⟩
    obtain ⟨t, ht⟩ := h.ends
    have hd := List.dropLast_append_getLast hn
    rw [e] at hd
    rw [← hd] at hj
    generalize (splitOn '\n' (tojson4 (.dict b))).dropLast = ls at hj
    cases ls with
    | nil => rw [ht] at hj; simp [joinWith] at hj
    | cons x ls =>
      rw [List.cons_append, joinWith_cons, nlLines_append, show nlLines [[]] = ['\n'] from rfl, ht, ← List.append_assoc, ← List.cons_append] at hj
      have := (List.append_inj' hj rfl).2
      revert this; decide
  · intro l hl
    refine ⟨fun hc => ?_, fun hp => ?_⟩
    · exact splitOn_no_sep hl hc
    · have h1 : ztnKw <:+: tojson4 (.dict b) := hp.isInfix.trans (hin l hl)
      have h2 : (['/', '/'] : Chars) <:+: ztnKw := ⟨[], " zerotier controller config:".toList, by decide⟩
      obtain ⟨x, y, hxy⟩ := h2.trans h1
      have hc := h.piece.chain
      rw [← hxy, List.append_assoc, List.isChain_append] at hc
      have := hc.2.1
      rw [show (['/', '/'] : Chars) ++ y = '/' :: '/' :: y from rfl, List.isChain_cons_cons] at this
      exact absurd rfl (this.1.1 rfl).1
  · intro l hl c hc
    have : c ∈ tojson4 (.dict b) := (hin l hl).subset hc
    rw [tojson4_eq] at this
    exact ascii_dumpV ascii_escHtml _ 0 c this
where
  infix_join {l : Chars} {ls : List Chars} (h : l ∈ ls) : l <:+: joinWith ['\n'] ls := by
    cases ls with
    | nil => cases h
    | cons x ls =>
      rw [joinWith_cons]
      rcases List.mem_cons.1 h with rfl | h
      · exact (List.prefix_append _ _).isInfix
      · have h2 : ('\n' :: l) <:+: nlLines ls := by
          obtain ⟨a, b, rfl⟩ := List.append_of_mem h
          exact ⟨nlLines a, nlLines b, by rw [nlLines_append, nlLines_cons]; simp⟩
        exact ((List.suffix_cons '\n' l).isInfix.trans h2).trans (List.suffix_append _ _).isInfix

theorem name_kept {name : Chars} (h : ¬ jsonSuffix <:+: name) : beforeText jsonSuffix (name ++ jsonSuffix) = name := by
  have hcs : jsonSuffix = ['.', 'j', 's', 'o', 'n'] := by decide
  induction name with
  | nil => rw [List.nil_append]; decide
  | cons c name ih =>
    rw [List.cons_append, beforeText]
    have hp : ¬ jsonSuffix <+: c :: (name ++ jsonSuffix) := by
      intro hp
      rw [hcs] at hp h
      match name, h, hp with
      | [], _, hp => simp [List.cons_prefix_cons] at hp
      | [_], _, hp => simp [List.cons_prefix_cons] at hp
      | [_, _], _, hp => simp [List.cons_prefix_cons] at hp
      | [_, _, _], _, hp => simp [List.cons_prefix_cons] at hp
      | x2 :: x3 :: x4 :: x5 :: r, h, hp =>
        simp only [List.cons_append, List.cons_prefix_cons, List.nil_prefix, and_true] at hp
        obtain ⟨rfl, rfl, rfl, rfl, rfl⟩ := hp
        exact h ⟨[], r, by simp⟩
    rw [stripPrefix_none hp]
    simp only [Option.isSome_none, Bool.false_eq_true, if_false]
    rw [ih (fun hi => h (hi.trans (List.suffix_cons c name).isInfix))]

/-- the file of a network -/
def ztnFile (reprC : Val → String) (b : VDict) : Member :=
  ⟨fieldText reprC b "nwid" ++ jsonSuffix, 0o644, utf8 (tojson4 (.dict b) ++ ['\n'])⟩

theorem unl_splitOn (s : Chars) : (splitOn '\n' s).flatMap (fun l => l ++ ['\n']) = s ++ ['\n'] := by
  have h := joinWith_splitOn '\n' s
  have hn := splitOn_ne_nil '\n' s
  generalize splitOn '\n' s = ls at h hn
  rw [← h]
  clear h
  induction ls with
  | nil => exact absurd rfl hn
  | cons l ls ih =>
    cases ls with
    | nil => simp [joinWith]
    | cons m ls => rw [List.flatMap_cons, ih (by simp), joinWith]; simp

theorem ztnFile_eq (reprC : Val → String) {b : VDict} (h : ¬ jsonSuffix <:+: fieldText reprC b "nwid") :
    vpnFileAt jsonSuffix (ztnGroup reprC b) = ztnFile reprC b := by
  unfold vpnFileAt ztnFile ztnGroup
  dsimp only
  rw [name_kept h, unl_splitOn]

theorem ztn_split (reprC : Val → String) (bs : List VDict) (hne : bs ≠ []) (h : ∀ b ∈ bs, ZtnPlain reprC b)
    (hn : ∀ b ∈ bs, ¬ jsonSuffix <:+: fieldText reprC b "nwid") :
    vpnSplit ztnKw jsonSuffix (renderZtn reprC bs) = .ok (bs.map (ztnFile reprC)) := by
  rw [renderZtn_eq reprC bs hne, ztnText_groups reprC bs hne, members_at ztnKw jsonSuffix (by decide) _ (by
    intro g hg
    obtain ⟨b, hb, rfl⟩ := List.mem_map.1 hg
    exact ztnGroup_ok reprC (h b hb)) (by simpa using hne)]
  congr 1
  rw [List.map_map]
  apply List.map_congr_left
  intro b hb
  exact ztnFile_eq reprC (hn b hb)

theorem ztn_tarText (reprC : Val → String) (bs : List VDict) (extra : List Member) (hx : ∀ m ∈ extra, ¬ jsonSuffix <:+ m.name) :
    ztnTarText (bs.map (ztnFile reprC) ++ extra) = .ok (ztnText reprC 2 bs) := by
  rw [← ztnText_all]
  induction bs with
  | nil =>
    induction extra with
    | nil => rfl
    | cons m ms ih =>
      rw [List.map_nil, List.nil_append, ztnTarText, if_neg (hx m (by simp))]
      exact ih (fun m hm => hx m (by simp [hm]))
  | cons b bs ih =>
    rw [List.map_cons, List.cons_append, ztnTarText, if_pos ⟨_, rfl⟩, ih]
    show (decodeUtf8 (utf8 (tojson4 (.dict b) ++ ['\n'])) >>= _) = _
    rw [decode_utf8]
    show Except.ok (ztnKw ++ [' '] ++ (fieldText reprC b "nwid" ++ jsonSuffix) ++ ['\n', '\n'] ++ (tojson4 (.dict b) ++ ['\n']) ++ ['\n'] ++ _) = _
    rw [List.flatMap_cons, rawZtn]
    simp

theorem jsonLoads_line {v : Val} (hw : v.WF) : jsonLoads (tojson4 v ++ ['\n']) = some (sortDeep v) := by
  rw [tojson4_eq]
  have hw' := sortDeep_wf hw
  generalize sortDeep v = w at hw'
  have h := reads_dumpV (st := ⟨escHtml, some 4⟩) escHtml_ok hw' 0 ((dumpV ⟨escHtml, some 4⟩ 0 w ++ ['\n']).length + 1) ['\n'] (by
    rw [List.length_append]; omega) (.inr ⟨'\n', [], rfl, by simp⟩)
  have hs := skipWs_dumpV ⟨escHtml, some 4⟩ 0 w ['\n']
  unfold jsonLoads
  rw [hs, h]
  rfl

/-- the identifier of the network, as it is written -/
def ztnId (n : VDict) : Chars :=
  match Dict.get? n "nwid" with
  | some (.str s) => s.toList
  | _ => []

theorem ztnId_field (reprC : Val → String) {n : VDict} (h : ZtnOK n) : fieldText reprC (ztnBlock n) "nwid" = ztnId n := by
  unfold fieldText ztnId
  rw [get?_ztnBlock h.wf, if_neg (by decide)]
  cases hw : Dict.get? n "nwid" with
  | none => rfl
  | some v =>
    obtain ⟨s, rfl, _⟩ := h.nwid v hw
    rfl

/-- what a member of the archive is for a network: a file named after its identifier that holds its options in JSON -/
structure FileOf (m : Member) (n : VDict) : Prop where
  name : m.name = ztnId n ++ ".json".toList
  mode : m.mode = 0o644
  data : ∃ text v, m.data = utf8 text ∧ jsonLoads text = some v ∧ SameVal v (.dict (Dict.erase n "client_options"))

/-- **C76.** `generate()` of the ZeroTier backend: one member for every network, in order, named after its identifier and holding a JSON
document with its options, complete whatever characters there are in it; then the additional files. Parsing the archive gives what parsing
the text gives, if none of the additional files is named `.json`. -/
theorem C76_archive (env : Env) (schema : VDict → Except PyErr Unit) (sh : Val → Bool) (config config' : VDict) (l : List VDict)
    (hne : l ≠ []) (hk : Dict.get? config "zerotier" = some (.list (l.map .dict))) (hl : ∀ n ∈ l, ZtnOK n)
    (hid : ∀ n ∈ l, ¬ ".json".toList <:+: ztnId n)
    (hv : validate (zerotierClass env schema sh) config = .ok ()) (hd : deduplicateFiles config = .ok config')
    (files : List Member) (hf : processFiles config' = .ok files) :
    ∃ st text ms, render (zerotierClass env schema sh) false ⟨config, none⟩ = (st, .ok text) ∧
      generate (zerotierClass env schema sh) ⟨config, none⟩ = (st, .ok (ms ++ files)) ∧ List.Forall₂ FileOf ms l ∧
      ((∀ m ∈ files, ¬ ".json".toList <:+ m.name) → parseZtnTar (ms ++ files) = parseZtn text) := by
  have hbne : l.map ztnBlock ≠ [] := by simpa using hne
  have hr := ztn_render env schema sh config config' l hne hk hv hd
  have hp : ∀ b ∈ l.map ztnBlock, ZtnPlain env.reprC b := by
    intro b hb
    obtain ⟨n, hn, rfl⟩ := List.mem_map.1 hb
    exact ztn_plain _ (hl n hn)
  have hw : ∀ b ∈ l.map ztnBlock, (Val.dict b).WF := by
    intro b hb
    obtain ⟨n, hn, rfl⟩ := List.mem_map.1 hb
    exact ztnBlock_wf (hl n hn).wf
  refine ⟨_, _, (l.map ztnBlock).map (ztnFile env.reprC), hr, ?_, ?_, fun hx => ?_⟩
  · unfold generate
    rw [hr]
    dsimp only
    have : (zerotierClass env schema sh).split (renderZtn env.reprC (l.map ztnBlock)) = .ok ((l.map ztnBlock).map (ztnFile env.reprC)) := by
      apply ztn_split env.reprC _ hbne hp
      intro b hb
      obtain ⟨n, hn, rfl⟩ := List.mem_map.1 hb
      rw [ztnId_field _ (hl n hn)]
      exact hid n hn
    rw [this, hf]
    rfl
  · clear hk hbne hne hp hw hr
    induction l with
    | nil => exact .nil
    | cons n l ih =>
      refine .cons ⟨?_, rfl, _, _, rfl, jsonLoads_line (ztnBlock_wf (hl n (by simp)).wf), ?_⟩ (ih (fun x hx => hl x (by simp [hx])) (fun x hx => hid x (by simp [hx])))
      · show fieldText env.reprC (ztnBlock n) "nwid" ++ jsonSuffix = _
        rw [ztnId_field _ (hl n (by simp))]
        rfl
      · exact ztnOut_same (hl n (by simp)).wf
  · unfold parseZtnTar
    rw [ztn_tarText env.reprC _ _ hx]
    show parseZtn _ = _
    rw [parse_networks env.reprC 2 _ hbne hp hw, renderZtn_eq _ _ hbne, parse_networks env.reprC 1 _ hbne hp hw]

/-! ## Samples -/

/-- a network with every kind of option, among them nested ones, texts with single slashes and characters that are escaped -/
def sampleNet : VDict :=
  [("name", .str "zt \"<é𝄞>\" 10.0.0.0/24"), ("id", .str "9536600adf654321"), ("nwid", .str "9536600adf654321"), ("private", .bool true), ("mtu", .int 2700),
   ("routes", .list [.dict [("via", .str "10.0.0.1"), ("target", .str "10.0.0.0/24")]]), ("remoteTraceTarget", .none),
   ("v4AssignMode", .dict [("zt", .bool true)]), ("client_options", .dict [("allow_dns", .bool false), ("x//y", .str "/*")])]

def sampleNet2 : VDict := [("name", .str "b"), ("nwid", .str "9536600adf654322"), ("enableBroadcast", .bool false), ("tags", .list [])]

theorem noComment_of {s : String} (h : (s.toList.zip s.toList.tail).all (fun p => !(p.1 == '/' && (p.2 == '/' || p.2 == '*'))) = true) : NoComment s := by
  have key : ∀ d, (d = '/' ∨ d = '*') → ¬ ['/', d] <:+: s.toList := by
    intro d hd hi
    obtain ⟨a, b, hab⟩ := hi
    rw [← hab] at h
    clear hab
    induction a with
    | nil => rcases hd with rfl | rfl <;> simp at h
    | cons x a ih =>
      apply ih
      cases a with
      | nil => simp at h ⊢; exact h.2
      | cons y a => simp at h ⊢; exact h.2
  exact ⟨key '/' (.inl rfl), key '*' (.inr rfl)⟩

theorem sampleNet_ok : ZtnOK sampleNet := by
  refine ⟨?_, rfl, ?_, ?_, ?_, ?_⟩
  · refine .dict _ (by simp [sampleNet, Dict.keys]) ?_
    intro p hp
    simp only [sampleNet, List.mem_cons, List.not_mem_nil, or_false] at hp
    rcases hp with rfl | rfl | rfl | rfl | rfl | rfl | rfl | rfl | rfl
    · exact .str _
    · exact .str _
    · exact .str _
    · exact .bool _
    · exact .int _
    · refine .list _ ?_
      intro v hv
      simp only [List.mem_cons, List.not_mem_nil, or_false] at hv
      subst hv
      exact .dict _ (by simp [Dict.keys]) (by intro p hp; simp only [List.mem_cons, List.not_mem_nil, or_false] at hp; rcases hp with rfl | rfl <;> exact .str _)
    · exact .none
    · exact .dict _ (by simp [Dict.keys]) (by intro p hp; simp only [List.mem_cons, List.not_mem_nil, or_false] at hp; subst hp; exact .bool _)
    · exact .dict _ (by simp [Dict.keys]) (by
        intro p hp; simp only [List.mem_cons, List.not_mem_nil, or_false] at hp
        rcases hp with rfl | rfl
        · exact .bool _
        · exact .str _)
  · intro v hv
    have : Dict.get? sampleNet "nwid" = some (.str "9536600adf654321") := rfl
    rw [this] at hv
    obtain rfl := Option.some.inj hv
    exact ⟨_, rfl, by decide⟩
  · intro k v hv hk
    have hm := Dict.mem_of_get? hv
    simp only [sampleNet, List.mem_cons, List.not_mem_nil, or_false, Prod.mk.injEq] at hm
    rcases hm with ⟨rfl, rfl⟩ | ⟨rfl, rfl⟩ | ⟨rfl, rfl⟩ | ⟨rfl, rfl⟩ | ⟨rfl, rfl⟩ | ⟨rfl, rfl⟩ | ⟨rfl, rfl⟩ | ⟨rfl, rfl⟩ | ⟨rfl, rfl⟩
    · exact ⟨noComment_of (by decide), .str _ (noComment_of (by decide +kernel))⟩
    · exact ⟨noComment_of (by decide), .str _ (noComment_of (by decide +kernel))⟩
    · exact ⟨noComment_of (by decide), .str _ (noComment_of (by decide +kernel))⟩
    · exact ⟨noComment_of (by decide), .bool _⟩
    · exact ⟨noComment_of (by decide), .int _⟩
    · refine ⟨noComment_of (by decide), .list _ ?_⟩
      intro v hv
      simp only [List.mem_cons, List.not_mem_nil, or_false] at hv
      subst hv
      refine .dict _ ?_ ?_ <;> intro p hp <;> simp only [List.mem_cons, List.not_mem_nil, or_false] at hp <;> rcases hp with rfl | rfl
      · exact noComment_of (by decide)
      · exact noComment_of (by decide)
      · exact .str _ (noComment_of (by decide))
      · exact .str _ (noComment_of (by decide))
    · exact ⟨noComment_of (by decide +kernel), .none⟩
    · refine ⟨noComment_of (by decide), .dict _ ?_ ?_⟩ <;> intro p hp <;> simp only [List.mem_cons, List.not_mem_nil, or_false] at hp <;> subst hp
      · exact noComment_of (by decide)
      · exact .bool _
    · exact absurd rfl hk
  · intro k hk v hv
    simp only [List.mem_cons, List.not_mem_nil, or_false] at hk
    rcases hk with rfl | rfl | rfl | rfl
    · cases hv
    · exact ⟨2700, (Option.some.inj hv).symm⟩
    · cases hv
    · cases hv
  · intro k hk v hv
    simp only [List.mem_cons, List.not_mem_nil, or_false] at hk
    rcases hk with rfl | rfl
    · cases hv
    · exact ⟨true, (Option.some.inj hv).symm⟩

theorem sampleNet2_ok : ZtnOK sampleNet2 := by
  refine ⟨?_, rfl, ?_, ?_, ?_, ?_⟩
  · refine .dict _ (by simp [sampleNet2, Dict.keys]) ?_
    intro p hp
    simp only [sampleNet2, List.mem_cons, List.not_mem_nil, or_false] at hp
    rcases hp with rfl | rfl | rfl | rfl
    · exact .str _
    · exact .str _
    · exact .bool _
    · exact .list _ (by simp)
  · intro v hv
    have : Dict.get? sampleNet2 "nwid" = some (.str "9536600adf654322") := rfl
    rw [this] at hv
    obtain rfl := Option.some.inj hv
    exact ⟨_, rfl, by decide⟩
  · intro k v hv hk
    have hm := Dict.mem_of_get? hv
    simp only [sampleNet2, List.mem_cons, List.not_mem_nil, or_false, Prod.mk.injEq] at hm
    rcases hm with ⟨rfl, rfl⟩ | ⟨rfl, rfl⟩ | ⟨rfl, rfl⟩ | ⟨rfl, rfl⟩
    · exact ⟨noComment_of (by decide), .str _ (noComment_of (by decide))⟩
    · exact ⟨noComment_of (by decide), .str _ (noComment_of (by decide +kernel))⟩
    · exact ⟨noComment_of (by decide +kernel), .bool _⟩
    · exact ⟨noComment_of (by decide), .list _ (by simp)⟩
  · intro k hk v hv
    simp only [List.mem_cons, List.not_mem_nil, or_false] at hk
    rcases hk with rfl | rfl | rfl | rfl <;> cases hv
  · intro k hk v hv
    simp only [List.mem_cons, List.not_mem_nil, or_false] at hk
    rcases hk with rfl | rfl
    · exact ⟨false, (Option.some.inj hv).symm⟩
    · cases hv

/-- the hypotheses of C76 are met by two networks, which come back -/
theorem C76_sample (env : Env) (sh : Val → Bool) : ∃ st text inter outs,
    render (zerotierClass env (fun _ => .ok ()) sh) false ⟨[("zerotier", .list [.dict sampleNet, .dict sampleNet2])], none⟩ = (st, .ok text) ∧
    List.Forall₂ (fun out n => SameVal (.dict out) (.dict (Dict.erase n "client_options"))) outs [sampleNet, sampleNet2] ∧
    parse (zerotierClass env (fun _ => .ok ()) sh) text = .ok ⟨[("zerotier", .list (outs.map .dict))], some inter⟩ := by
  have hl : ∀ n ∈ [sampleNet, sampleNet2], ZtnOK n := by
    intro n hn
    simp only [List.mem_cons, List.not_mem_nil, or_false] at hn
    rcases hn with rfl | rfl
    · exact sampleNet_ok
    · exact sampleNet2_ok
  obtain ⟨st, text, inter, outs, h1, h2, h3, h4⟩ := C76_round_trip env (fun _ => .ok ()) sh [("zerotier", .list [.dict sampleNet, .dict sampleNet2])] _
    [sampleNet, sampleNet2] (by simp) rfl hl rfl rfl
  exact ⟨st, text, inter, outs, h1, h3, h4⟩

/-! ## What the conditions are for -/

/-- a class whose schema accepts everything -/
def freeZtn : Class := zerotierClass sampleEnv (fun _ => .ok ()) (fun _ => false)

/-- render and parse -/
def ztnAgain (nets : List VDict) : Except PyErr VDict := do
  let text ← (render freeZtn false ⟨[("zerotier", .list (nets.map .dict))], none⟩).2
  let st ← parse freeZtn text
  pure st.config

/-- C76 needs texts without the marks of a comment: what looks like a comment is cut out of the text, silently, or makes the parser fail. -/
theorem C76_needs_no_comments :
    ztnAgain [[("name", .str "http://b")]] = .error .valueError ∧
    ztnAgain [[("name", .str "a/*b*/c")]] = .ok [("zerotier", .list [.dict [("name", .str "ac")]])] := by decide +kernel

/-- C76 needs identifiers of one line: what follows the line break is taken for a part of the document. -/
theorem C76_needs_one_line : ztnAgain [[("nwid", .str "a\nb")]] = .error .valueError := by decide +kernel

end NJ
