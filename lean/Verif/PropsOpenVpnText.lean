import Verif.OpenVpn
import Verif.PropsWireless
import Verif.PropsArchive

/-!
# OpenVPN text: exact lines, and reading it back
-/

namespace NJ

/-! ## The rendered lines -/

/-- the lines of one option: flags (`True`) by their name alone, texts and numbers after their name, lists one line per item,
`None` nothing; underscores become dashes; the name is not an option -/
def vpnOptionLines (reprC : Val → String) (p : String × Val) : List Chars :=
  if p.1 = "name" then []
  else match p.2 with
    | .bool true => [dashed p.1]
    | .none => []
    | .list l => l.map (fun v => dashed p.1 ++ ' ' :: (pyStr reprC v).toList)
    | .dict d => d.map (fun q => dashed p.1 ++ ' ' :: q.1.toList)
    | v => [dashed p.1 ++ ' ' :: (pyStr reprC v).toList]

/-- the lines of one VPN -/
def vpnTextLines (reprC : Val → String) (b : VDict) : List Chars :=
  ("# openvpn config: ".toList ++ fieldText reprC b "name") :: [] :: b.flatMap (vpnOptionLines reprC)

theorem dashed_name (k : String) : dashed k = "name".toList ↔ k = "name" := by
  constructor
  · intro h
    unfold dashed at h
    have : k.toList = "name".toList := by
      generalize k.toList = l at h
      match l, h with
      | [a, b, c, d], h =>
        have f : ∀ x y : Char, (if x = '_' then '-' else x) = y → y ≠ '-' → x = y := by
          intro x y h hy
          split at h
          · exact absurd h.symm hy
          · exact h
        have h : [(if a = '_' then '-' else a), (if b = '_' then '-' else b), (if c = '_' then '-' else c), (if d = '_' then '-' else d)] =
          ['n', 'a', 'm', 'e'] := h
        simp only [List.cons.injEq, and_true] at h
        obtain ⟨h1, h2, h3, h4⟩ := h
        rw [f a _ h1 (by decide), f b _ h2 (by decide), f c _ h3 (by decide), f d _ h4 (by decide)]
        rfl
      | [], h => exact absurd h (by decide)
      | [_], h => simp at h
      | [_, _], h => simp at h
      | [_, _, _], h => simp at h
      | _ :: _ :: _ :: _ :: _ :: _, h => simp at h
    exact String.toList_inj.1 this
  · rintro rfl; decide

theorem rawVpnValue_out (reprC : Val → String) (key : Chars) (v : Val) (ls : List Chars)
    (hls : ls = match v with
      | .bool true => [key]
      | .none => []
      | .list l => l.map (fun v => key ++ ' ' :: (pyStr reprC v).toList)
      | .dict d => d.map (fun q => key ++ ' ' :: q.1.toList)
      | v => [key ++ ' ' :: (pyStr reprC v).toList])
    (hc : ∀ l ∈ ls, CleanLine l) : Out (rawVpnValue reprC key v) (unl ls) := by
  have one : ∀ w : Chars, CleanLine w → Out (sp 16 ++ w ++ ['\n'] ++ sp 12) (unl [w]) := by
    intro w hw
    have := ((Out.sp (n := 16) 4 rfl).append (Out.line w)).append (Out.sp (n := 12) 3 rfl)
    rw [r4_clean hw] at this
    simpa [unl] using this
  have many : ∀ ws : List Chars, (∀ w ∈ ws, CleanLine w) → Out (sp 16 ++ ws.flatMap (fun w => sp 20 ++ w ++ ['\n'] ++ sp 16) ++ sp 12) (unl ws) := by
    intro ws hw
    have h : Out (ws.flatMap (fun w => sp 20 ++ w ++ ['\n'] ++ sp 16)) (ws.flatMap (fun w => w ++ ['\n'])) := by
      apply Out.flatMap
      intro w hm
      have := ((Out.sp (n := 20) 5 rfl).append (Out.line w)).append (Out.sp (n := 16) 4 rfl)
      rw [r4_clean (hw w hm)] at this
      simpa using this
    have := ((Out.sp (n := 16) 4 rfl).append h).append (Out.sp (n := 12) 3 rfl)
    simpa [unl] using this
  subst hls
  match v with
  | .bool true => exact one _ (hc _ (by simp))
  | .bool false =>
    have := one (key ++ ' ' :: (pyStr reprC (.bool false)).toList) (hc _ (by simp))
    simpa [rawVpnValue] using this
  | .none => exact Out.nil
  | .int i =>
    have := one (key ++ ' ' :: (pyStr reprC (.int i)).toList) (hc _ (by simp))
    simpa [rawVpnValue] using this
  | .str s =>
    have := one (key ++ ' ' :: (pyStr reprC (.str s)).toList) (hc _ (by simp))
    simpa [rawVpnValue] using this
  | .list l =>
    have := many _ hc
    simpa [rawVpnValue, List.flatMap_map] using this
  | .dict d =>
    have := many _ hc
    simpa [rawVpnValue, List.flatMap_map] using this

theorem rawVpnOption_out (reprC : Val → String) (p : String × Val) (hc : ∀ l ∈ vpnOptionLines reprC p, CleanLine l) :
    Out (rawVpnOption reprC p) (unl (vpnOptionLines reprC p)) := by
  unfold rawVpnOption
  have h8 : Out (sp 8) [] := Out.sp 2 rfl
  have h4 : Out (sp 4) [] := Out.sp 1 rfl
  by_cases e : p.1 = "name"
  · rw [if_pos ((dashed_name _).2 e)]
    have := ((h8.append h8).append Out.nil).append h4
    simpa [vpnOptionLines, e, unl] using this
  · rw [if_neg (fun h => e ((dashed_name _).1 h))]
    have hv := rawVpnValue_out reprC (dashed p.1) p.2 (vpnOptionLines reprC p) (by unfold vpnOptionLines; rw [if_neg e]) hc
    have := ((h8.append h8).append (((Out.sp (n := 12) 3 rfl).append hv).append h8)).append h4
    simpa using this

theorem rawVpn_out (reprC : Val → String) (b : VDict) (hc : ∀ l ∈ vpnTextLines reprC b, CleanLine l) :
    Out (rawVpn reprC b) (unl (vpnTextLines reprC b ++ [[]])) := by
  unfold rawVpn
  have h1 : Out ((vpnKw ++ [' '] ++ fieldText reprC b "name") ++ ['\n']) ((vpnKw ++ [' '] ++ fieldText reprC b "name") ++ ['\n']) := by
    have := Out.line (vpnKw ++ [' '] ++ fieldText reprC b "name")
    rw [r4_clean] at this
    · exact this
    · have := hc ("# openvpn config: ".toList ++ fieldText reprC b "name") (by simp [vpnTextLines])
      exact this
  have h2 : Out (b.flatMap (rawVpnOption reprC)) (b.flatMap (fun p => unl (vpnOptionLines reprC p))) := by
    apply Out.flatMap
    intro p hp
    exact rawVpnOption_out reprC p (fun l hl => hc l (by simp only [vpnTextLines, List.mem_cons, List.mem_flatMap]; exact .inr (.inr ⟨p, hp, hl⟩)))
  have h := (((h1.append Out.nl).append (Out.sp (n := 4) 1 rfl)).append h2).append Out.nl
  have e : unl (vpnTextLines reprC b ++ [[]]) = vpnKw ++ [' '] ++ fieldText reprC b "name" ++ ['\n'] ++ ['\n'] ++ [] ++
      b.flatMap (fun p => unl (vpnOptionLines reprC p)) ++ ['\n'] := by
    have : unl (b.flatMap (vpnOptionLines reprC)) = b.flatMap (fun p => unl (vpnOptionLines reprC p)) := by
      induction b with
      | nil => rfl
      | cons p r ih => simp [unl, List.flatMap_assoc]
    rw [vpnTextLines, unl_append, show unl (("# openvpn config: ".toList ++ fieldText reprC b "name") :: [] :: b.flatMap (vpnOptionLines reprC)) =
      ("# openvpn config: ".toList ++ fieldText reprC b "name") ++ ['\n'] ++ ['\n'] ++ unl (b.flatMap (vpnOptionLines reprC)) by simp [unl], this]
    have e1 : vpnKw ++ [' '] = "# openvpn config: ".toList := by decide +kernel
    rw [e1]
    simp [unl]
  rw [e]
  have e2 : vpnKw ++ [' '] ++ fieldText reprC b "name" ++ ['\n', '\n'] ++ sp 4 ++ b.flatMap (rawVpnOption reprC) ++ ['\n'] =
    vpnKw ++ [' '] ++ fieldText reprC b "name" ++ ['\n'] ++ ['\n'] ++ sp 4 ++ b.flatMap (rawVpnOption reprC) ++ ['\n'] := by simp
  rw [e2]
  exact h

theorem unl_join (ls : List Chars) : unl ls = joinWith ['\n'] (ls ++ [[]]) := by
  cases ls with
  | nil => rfl
  | cons l ls =>
    rw [List.cons_append, joinWith_cons, nlLines_append]
    have : ∀ (l : Chars) (ls : List Chars), unl (l :: ls) = l ++ nlLines ls ++ ['\n'] := by
      intro l ls
      induction ls generalizing l with
      | nil => simp [unl, nlLines]
      | cons m ls ih => rw [nlLines_cons, show unl (l :: m :: ls) = l ++ ['\n'] ++ unl (m :: ls) by simp [unl], ih]; simp
    rw [this]
    simp [nlLines]

/-- **C59.** The rendered text is exactly, for each VPN, the line with its name, an empty line, the lines of its options in the
order of their keys, and an empty line. -/
theorem C59_exact_lines (reprC : Val → String) (bs : List VDict) (hne : bs ≠ []) (hc : ∀ b ∈ bs, ∀ l ∈ vpnTextLines reprC b, CleanLine l) :
    renderVpns reprC bs = joinWith ['\n'] (bs.flatMap (fun b => vpnTextLines reprC b ++ [[]])) := by
  unfold renderVpns vpnCleanup
  have h : Out (bs.flatMap (rawVpn reprC)) (bs.flatMap (fun b => unl (vpnTextLines reprC b ++ [[]]))) :=
    Out.flatMap (fun b hb => rawVpn_out reprC b (hc b hb))
  rw [h.eq]
  have e : bs.flatMap (fun b => unl (vpnTextLines reprC b ++ [[]])) = unl (bs.flatMap (fun b => vpnTextLines reprC b ++ [[]])) := by
    simp [unl, List.flatMap_assoc]
  rw [e]
  obtain ⟨bs, b, rfl⟩ : ∃ bs' b, bs = bs' ++ [b] := ⟨bs.dropLast, bs.getLast hne, (List.dropLast_append_getLast hne).symm⟩
  have e2 : (bs ++ [b]).flatMap (fun b => vpnTextLines reprC b ++ [[]]) =
      (bs.flatMap (fun b => vpnTextLines reprC b ++ [[]]) ++ vpnTextLines reprC b) ++ [[]] := by simp
  rw [e2, unl_append, show unl [[]] = ['\n'] from rfl]
  obtain ⟨s, hs⟩ : ∃ s, unl (bs.flatMap (fun b => vpnTextLines reprC b ++ [[]]) ++ vpnTextLines reprC b) = s ++ ['\n'] := by
    have hl : vpnTextLines reprC b ≠ [] := by simp [vpnTextLines]
    generalize bs.flatMap (fun b => vpnTextLines reprC b ++ [[]]) = pre
    refine ⟨unl (pre ++ (vpnTextLines reprC b).dropLast) ++ (vpnTextLines reprC b).getLast hl, ?_⟩
    conv_lhs => rw [← List.dropLast_append_getLast hl, ← List.append_assoc, unl_append]
    simp [unl]
  rw [← unl_join, hs, show s ++ ['\n'] ++ ['\n'] = s ++ ['\n', '\n'] by simp, dropFinalBreak_two]

/-! ## Reading the text -/

/-- a text that is not empty and neither begins nor ends with white space -/
def Trimmed (l : Chars) : Prop := ∃ c d, l.head? = some c ∧ isSpace c = false ∧ l.getLast? = some d ∧ isSpace d = false

theorem Trimmed.strip {l : Chars} (h : Trimmed l) : strip l = l := by
  obtain ⟨c, d, h1, h2, h3, h4⟩ := h
  exact strip_eq_self (fun x hx => by rw [h1] at hx; cases hx; exact h2) (fun x hx => by rw [h3] at hx; cases hx; exact h4)

theorem Trimmed.ne {l : Chars} (h : Trimmed l) : l ≠ [] := by
  rintro rfl
  obtain ⟨c, d, h1, _⟩ := h
  cases h1

theorem Trimmed.append {a b : Chars} (ha : Trimmed a) (x : Chars) (hb : Trimmed b) : Trimmed (a ++ x ++ b) := by
  obtain ⟨c, d, h1, h2, h3, h4⟩ := ha
  obtain ⟨c', d', h1', h2', h3', h4'⟩ := hb
  refine ⟨c, d', ?_, h2, ?_, h4'⟩
  · simp [h1]
  · simp [h3']

theorem nlLines_snoc' (ls : List Chars) (l : Chars) : nlLines (ls ++ [l]) = nlLines ls ++ '\n' :: l := by
  rw [nlLines_append]; simp [nlLines]

/-- a piece of the text without the white space around it -/
theorem strip_piece (x : Chars) (ls : List Chars) (k : Nat) (hx : Trimmed x) (hl : ∀ l ∈ ls, Trimmed l) :
    strip (x ++ nlLines ([] :: ls ++ [[]]) ++ List.replicate k '\n') = joinWith ['\n'] (x :: (if ls = [] then [] else [] :: ls)) := by
  have e : x ++ nlLines ([] :: ls ++ [[]]) ++ List.replicate k '\n' = (x ++ nlLines ([] :: ls)) ++ List.replicate (k + 1) '\n' := by
    rw [nlLines_snoc', List.replicate_succ]; simp
  rw [e, strip_append_breaks]
  by_cases h : ls = []
  · subst h
    have : x ++ nlLines [[]] = x ++ List.replicate 1 '\n' := by simp [nlLines]
    rw [this, strip_append_breaks, hx.strip, if_pos rfl]
    rfl
  · rw [if_neg h, joinWith_cons]
    obtain ⟨ls, l, rfl⟩ : ∃ ls' l, ls = ls' ++ [l] := ⟨ls.dropLast, ls.getLast h, (List.dropLast_append_getLast h).symm⟩
    have : Trimmed (x ++ nlLines ([] :: (ls ++ [l]))) := by
      rw [← List.cons_append, nlLines_snoc']
      have := hx.append (nlLines ([] :: ls) ++ ['\n']) (hl l (by simp))
      simpa using this
    exact this.strip

theorem vpnLines_trimmed (config : VDict) (ls : List Chars) (hl : ∀ l ∈ ls, Trimmed l) :
    vpnLines config ls = Dict.update config (ls.map vpnLine) := by
  induction ls generalizing config with
  | nil => rfl
  | cons l ls ih =>
    have h := hl l (by simp)
    rw [vpnLines, h.strip]
    have : l.isEmpty = false := by cases l with
      | nil => exact absurd rfl h.ne
      | cons => rfl
    rw [this]
    simp only [Bool.false_eq_true, if_false]
    rw [ih _ (fun m hm => hl m (by simp [hm]))]
    rfl

theorem vpnConfig_piece (x : Chars) (ls : List Chars) (hx : '\n' ∉ x) (hl : ∀ l ∈ ls, Trimmed l ∧ '\n' ∉ l) :
    vpnConfig (joinWith ['\n'] (x :: (if ls = [] then [] else [] :: ls))) = sortedDict (Dict.update [("name", txt x)] (ls.map vpnLine)) := by
  unfold vpnConfig
  rw [splitOn_joinWith]
  · by_cases h : ls = []
    · subst h; rfl
    · simp only [if_neg h, List.headD_cons, List.tail_cons]
      have : vpnLines [("name", txt x)] ([] :: ls) = vpnLines [("name", txt x)] ls := by
        rw [vpnLines]; rfl
      rw [this, vpnLines_trimmed _ _ (fun l hm => (hl l hm).1)]
  · simp
  · intro w hw
    rcases List.mem_cons.1 hw with rfl | hw
    · exact hx
    · split at hw
      · cases hw
      · rcases List.mem_cons.1 hw with rfl | hw
        · simp
        · exact (hl w hw).2

/-- the pieces of a text made of groups, read -/
theorem parse_groups (gs : List (Chars × List Chars)) (hg : ∀ g ∈ gs, Trimmed g.1 ∧ '\n' ∉ g.1 ∧ ∀ l ∈ g.2, Trimmed l ∧ '\n' ∉ l ∧ ¬ vpnKw <+: l) :
    parseVpn (joinWith ['\n'] (groupLines vpnKw (gs.map (fun g => (g.1, [] :: g.2 ++ [[]]))))) =
      .ok [("openvpn", .list (gs.map (fun g => .dict (sortedDict (Dict.update [("name", txt g.1)] (g.2.map vpnLine))))))] := by
  cases gs with
  | nil => rfl
  | cons g gs =>
    unfold parseVpn
    rw [List.map_cons, splitKw_groups vpnKw (by decide) (by decide)]
    · rw [List.filter_cons, if_neg (by decide), ← List.map_cons (f := fun g : Chars × List Chars => (g.1, [] :: g.2 ++ [[]]))]
      have key : ∀ (g : Chars × List Chars), Trimmed g.1 ∧ '\n' ∉ g.1 ∧ (∀ l ∈ g.2, Trimmed l ∧ '\n' ∉ l ∧ ¬ vpnKw <+: l) → ∀ k,
          vpnConfig (strip (g.1 ++ nlLines ([] :: g.2 ++ [[]]) ++ List.replicate k '\n')) =
            sortedDict (Dict.update [("name", txt g.1)] (g.2.map vpnLine)) ∧
          (strip (g.1 ++ nlLines ([] :: g.2 ++ [[]]) ++ List.replicate k '\n')).isEmpty = false := by
        intro g h k
        rw [strip_piece g.1 g.2 k h.1 (fun l hl => (h.2.2 l hl).1)]
        refine ⟨vpnConfig_piece g.1 g.2 h.2.1 (fun l hl => ⟨(h.2.2 l hl).1, (h.2.2 l hl).2.1⟩), ?_⟩
        rw [joinWith_cons]
        have := h.1.ne
        cases hg1 : g.1 with
        | nil => exact absurd hg1 this
        | cons => rfl
      suffices h : ((groupPieces ((g :: gs).map (fun g => (g.1, [] :: g.2 ++ [[]])))).filter (fun r => !(strip r).isEmpty)).map
          (fun r => Val.dict (vpnConfig (strip r))) =
          (g :: gs).map (fun g => Val.dict (sortedDict (Dict.update [("name", txt g.1)] (g.2.map vpnLine)))) by
        rw [h]
      generalize hgs : g :: gs = all at hg
      clear hgs
      induction all with
      | nil => rfl
      | cons a rest ih =>
        have ha := hg a (by simp)
        have ih := ih (fun g hm => hg g (by simp [hm]))
        cases rest with
        | nil =>
          obtain ⟨k1, k2⟩ := key a ha 0
          simp only [List.replicate_zero, List.append_nil] at k1 k2
          simp only [List.map_cons, List.map_nil, groupPieces, List.filter_cons, k2, Bool.not_false, if_true, List.filter_nil, k1]
        | cons b rest =>
          obtain ⟨k1, k2⟩ := key a ha 1
          rw [show List.replicate 1 '\n' = ['\n'] from rfl] at k1 k2
          simp only [List.map_cons, groupPieces, List.filter_cons, k2, Bool.not_false, if_true, k1]
          simp only [List.map_cons, groupPieces] at ih
          rw [ih]
    · intro g' hg'
      obtain ⟨g, hm, rfl⟩ : ∃ x ∈ g :: gs, (x.1, [] :: x.2 ++ [[]]) = g' := List.mem_map.1 (by rw [List.map_cons]; exact hg')
      have h := hg g hm
      refine ⟨h.2.1, ?_⟩
      intro l hl
      simp only [List.cons_append, List.mem_cons, List.mem_append, List.not_mem_nil, or_false] at hl
      rcases hl with rfl | hl | rfl
      · exact ⟨by simp, by decide⟩
      · exact ⟨(h.2.2 l hl).2.1, (h.2.2 l hl).2.2⟩
      · exact ⟨by simp, by decide⟩

/-! ## Options that are read back -/

/-- texts that OpenVPN text can hold: trimmed, one line, no four blanks in a row -/
def VpnText (s : Chars) : Prop := Trimmed s ∧ CleanLine s

/-- names of options: no white space, no dash (it would be read as an underscore), not a comment -/
def VpnKey (k : String) : Prop := k ≠ "" ∧ (∀ c ∈ k.toList, isSpace c = false ∧ c ≠ '-') ∧ k.toList.head? ≠ some '#'

/-- values of options that OpenVPN text can hold: flags, numbers, texts -/
def VpnValue : Val → Prop
  | .bool b => b = true
  | .int _ => True
  | .str s => VpnText s.toList
  | _ => False

/-- a block that OpenVPN text can hold -/
structure VpnPlain (b : VDict) : Prop where
  nodup : (Dict.keys b).Nodup
  name : ∃ n, Dict.get? b "name" = some (.str n) ∧ VpnText n.toList
  options : ∀ k v, Dict.get? b k = some v → k ≠ "name" → VpnKey k ∧ VpnValue v

/-- what is read: numbers become texts -/
def vpnRead : Val → Val
  | .int i => txt (showInt i)
  | v => v

theorem showInt_vpnText (i : Int) : VpnText (showInt i) := by
  have hd : ∀ c ∈ showInt i, isDigit c = true ∨ c = '-' := by
    intro c hc
    cases i with
    | ofNat n => exact .inl (showNat_digits n c hc)
    | negSucc n =>
      simp only [showInt, List.mem_cons] at hc
      rcases hc with rfl | hc
      · exact .inr rfl
      · exact .inl (showNat_digits _ c hc)
  have hs : ∀ c ∈ showInt i, isSpace c = false := by
    intro c hc
    rcases hd c hc with h | rfl
    · exact isDigit_not_space h
    · decide
  have hne : showInt i ≠ [] := by
    cases i with
    | ofNat n => exact showNat_ne_nil n
    | negSucc n => simp [showInt]
  refine ⟨⟨_, _, List.head?_eq_some_head hne, hs _ (List.head_mem hne), List.getLast?_eq_some_getLast hne, hs _ (List.getLast_mem hne)⟩, ?_, ?_⟩
  · intro h; exact absurd (hs _ h) (by decide)
  · intro h; exact absurd (hs ' ' (h.subset (by simp))) (by decide)

/-- the single line of an option -/
def vpnOneLine (reprC : Val → String) (p : String × Val) : Chars :=
  match p.2 with
  | .bool _ => dashed p.1
  | v => dashed p.1 ++ ' ' :: (pyStr reprC v).toList

theorem dashed_nospace {k : String} (h : VpnKey k) : ∀ c ∈ dashed k, isSpace c = false := by
  intro c hc
  unfold dashed at hc
  obtain ⟨x, hx, rfl⟩ := List.mem_map.1 hc
  split
  · decide
  · exact (h.2.1 x hx).1

theorem dashed_ne {k : String} (h : VpnKey k) : dashed k ≠ [] := by
  unfold dashed
  have : k.toList ≠ [] := fun e => h.1 (String.toList_inj.1 e)
  simpa using this

theorem dashed_trimmed {k : String} (h : VpnKey k) : Trimmed (dashed k) := by
  have hs := dashed_nospace h
  have hne := dashed_ne h
  exact ⟨_, _, List.head?_eq_some_head hne, hs _ (List.head_mem hne), List.getLast?_eq_some_getLast hne, hs _ (List.getLast_mem hne)⟩

theorem dashed_clean {k : String} (h : VpnKey k) : CleanLine (dashed k) := by
  have hs := dashed_nospace h
  exact ⟨fun e => absurd (hs _ e) (by decide), fun e => absurd (hs ' ' (e.subset (by simp))) (by decide)⟩

theorem undash {k : String} (h : VpnKey k) : String.ofList ((dashed k).map (fun c => if c = '-' then '_' else c)) = k := by
  unfold dashed
  rw [List.map_map]
  have : k.toList.map ((fun c => if c = '-' then '_' else c) ∘ fun c => if c = '_' then '-' else c) = k.toList := by
    conv_rhs => rw [← List.map_id k.toList]
    apply List.map_congr_left
    intro c hc
    have hd := (h.2.1 c hc).2
    by_cases e : c = '_'
    · subst e; rfl
    · simp [Function.comp, e, hd]
  rw [this, String.ofList_toList]

theorem text_line {k : String} (hk : VpnKey k) {t : Chars} (ht : VpnText t) :
    Trimmed (dashed k ++ ' ' :: t) ∧ CleanLine (dashed k ++ ' ' :: t) ∧ vpnLine (dashed k ++ ' ' :: t) = (k, txt t) := by
  have hs := dashed_nospace hk
  refine ⟨?_, ⟨?_, ?_⟩, ?_⟩
  · have := (dashed_trimmed hk).append [' '] ht.1
    simpa using this
  · intro h
    rcases List.mem_append.1 h with h | h
    · exact (dashed_clean hk).1 h
    · rcases List.mem_cons.1 h with h | h
      · exact absurd h (by decide)
      · exact ht.2.1 h
  · obtain ⟨c, d, h1, h2, _⟩ := ht.1
    obtain ⟨r, rfl⟩ : ∃ r, t = c :: r := by
      cases t with
      | nil => cases h1
      | cons x r => cases h1; exact ⟨r, rfl⟩
    have hc : c ≠ ' ' := by rintro rfl; exact absurd h2 (by decide)
    have hr : ¬ [' ', ' ', ' ', ' '] <:+: r := fun h => ht.2.2 (h.trans (List.suffix_cons c r).isInfix)
    have hdk : ¬ [' ', ' ', ' ', ' '] <:+: dashed k ++ [' '] := by
      rintro ⟨a, b, h⟩
      have := congrArg (List.count ' ') h
      simp only [List.count_append, List.count_cons, List.count_nil] at this
      have h0 : List.count ' ' (dashed k) = 0 := List.count_eq_zero.2 (fun e => absurd (hs _ e) (by decide))
      simp [h0] at this
      omega
    have := noBlanks_sep hc hdk hr
    simpa using this
  · have e1 : (dashed k ++ ' ' :: t).takeWhile (fun c => !isSpace c) = dashed k := by
      rw [List.takeWhile_append_of_pos (fun c hc => by rw [hs c hc]; rfl), List.takeWhile_cons_of_neg (by decide), List.append_nil]
    have e2 : (dashed k ++ ' ' :: t).dropWhile (fun c => !isSpace c) = ' ' :: t := by
      rw [List.dropWhile_append_of_pos (fun c hc => by rw [hs c hc]; rfl), List.dropWhile_cons_of_neg (by decide)]
    have e3 : (stripPrefix [' '] (' ' :: t)).getD (' ' :: t) = t := by simp [stripPrefix]
    have e4 : t.isEmpty = false := by
      cases t with
      | nil => exact absurd rfl ht.1.ne
      | cons => rfl
    unfold vpnLine
    simp only [e1, e2, e3, undash hk, e4, Bool.false_eq_true, if_false]

theorem flag_line {k : String} (hk : VpnKey k) : vpnLine (dashed k) = (k, .bool true) := by
  have hs := dashed_nospace hk
  have e1 : (dashed k).takeWhile (fun c => !isSpace c) = dashed k := by
    have := List.takeWhile_append_of_pos (p := fun c => !isSpace c) (l₁ := dashed k) (l₂ := []) (fun c hc => by rw [hs c hc]; rfl)
    simpa using this
  have e2 : (dashed k).dropWhile (fun c => !isSpace c) = [] := by
    have := List.dropWhile_append_of_pos (p := fun c => !isSpace c) (l₁ := dashed k) (l₂ := []) (fun c hc => by rw [hs c hc]; rfl)
    simpa using this
  unfold vpnLine
  simp only [e1, e2, undash hk]
  rfl

theorem no_hash {k : String} (hk : VpnKey k) (t : Chars) : ¬ vpnKw <+: dashed k ++ t := by
  rintro ⟨s, h⟩
  have hne := dashed_ne hk
  have : (dashed k).head? = some '#' := by
    have := congrArg List.head? h
    cases hd : dashed k with
    | nil => exact absurd hd hne
    | cons c r => rw [hd] at this; exact this.symm
  apply hk.2.2
  unfold dashed at this
  cases e : k.toList with
  | nil => rw [e] at this; cases this
  | cons c r =>
    rw [e] at this
    simp only [List.map_cons, List.head?_cons, Option.some.injEq] at this ⊢
    split at this
    · exact absurd this (by decide)
    · exact this

theorem oneLine_ok (reprC : Val → String) {k : String} {v : Val} (hk : VpnKey k) (hn : k ≠ "name") (hv : VpnValue v) :
    vpnOptionLines reprC (k, v) = [vpnOneLine reprC (k, v)] ∧ Trimmed (vpnOneLine reprC (k, v)) ∧ CleanLine (vpnOneLine reprC (k, v)) ∧
      ¬ vpnKw <+: vpnOneLine reprC (k, v) ∧ vpnLine (vpnOneLine reprC (k, v)) = (k, vpnRead v) := by
  unfold vpnOptionLines
  rw [if_neg hn]
  match v, hv with
  | .bool b, hv =>
    have : b = true := hv
    subst this
    refine ⟨rfl, dashed_trimmed hk, dashed_clean hk, ?_, flag_line hk⟩
    have := no_hash hk []
    rwa [List.append_nil] at this
  | .int i, _ =>
    have h := text_line hk (showInt_vpnText i)
    have e : vpnOneLine reprC (k, .int i) = dashed k ++ ' ' :: showInt i := by simp [vpnOneLine, pyStr]
    rw [e]
    refine ⟨by simp [pyStr], h.1, h.2.1, no_hash hk _, h.2.2⟩
  | .str s, hv =>
    have h := text_line hk hv
    have e : vpnOneLine reprC (k, .str s) = dashed k ++ ' ' :: s.toList := rfl
    rw [e]
    refine ⟨rfl, h.1, h.2.1, no_hash hk _, ?_⟩
    rw [h.2.2]
    simp [vpnRead, txt]

/-- what a block becomes, when it is rendered and read -/
theorem vpn_text_back (reprC : Val → String) (bs : List VDict) (hne : bs ≠ []) (hb : ∀ b ∈ bs, VpnPlain b) :
    ∃ rs : List VDict, parseVpn (renderVpns reprC bs) = .ok [("openvpn", .list (rs.map .dict))] ∧
      List.Forall₂ (fun b r => (Dict.keys r).Nodup ∧ ∀ k, Dict.get? r k = (Dict.get? b k).map vpnRead) bs rs := by
  -- the lines of a block
  have hopt : ∀ b, VpnPlain b → ∀ p ∈ b, p.1 ≠ "name" → VpnKey p.1 ∧ VpnValue p.2 := by
    intro b h p hp hn
    exact h.options p.1 p.2 (Dict.get?_of_mem h.nodup hp) hn
  let opts : VDict → VDict := fun b => b.filter (fun p => decide (p.1 ≠ "name"))
  have hlines : ∀ b, VpnPlain b → b.flatMap (vpnOptionLines reprC) = (opts b).map (vpnOneLine reprC) := by
    intro b h
    have ho := hopt b h
    show b.flatMap (vpnOptionLines reprC) = (b.filter (fun p => decide (p.1 ≠ "name"))).map (vpnOneLine reprC)
    clear h
    induction b with
    | nil => rfl
    | cons p r ih =>
      have ih := ih (fun q hq => ho q (by simp [hq]))
      rw [List.flatMap_cons, List.filter_cons, ih]
      by_cases e : p.1 = "name"
      · simp [e, vpnOptionLines]
      · have := ho p (by simp) e
        rw [(oneLine_ok reprC this.1 e this.2).1]
        simp [e]
  have hname : ∀ b, VpnPlain b → VpnText (fieldText reprC b "name") := by
    intro b h
    obtain ⟨n, h1, h2⟩ := h.name
    unfold fieldText
    rw [h1]
    exact h2
  have hgroups : ∀ b, VpnPlain b → ∀ l ∈ (opts b).map (vpnOneLine reprC), Trimmed l ∧ CleanLine l ∧ ¬ vpnKw <+: l := by
    intro b h l hl
    obtain ⟨p, hp, rfl⟩ := List.mem_map.1 hl
    obtain ⟨hp1, hp2⟩ := List.mem_filter.1 hp
    have hn : p.1 ≠ "name" := by simpa using hp2
    have := hopt b h p hp1 hn
    have := oneLine_ok reprC this.1 hn this.2
    exact ⟨this.2.1, this.2.2.1, this.2.2.2.1⟩
  have hclean : ∀ b ∈ bs, ∀ l ∈ vpnTextLines reprC b, CleanLine l := by
    intro b hm l hl
    unfold vpnTextLines at hl
    rw [hlines b (hb b hm)] at hl
    rcases List.mem_cons.1 hl with rfl | hl
    · have hn := hname b (hb b hm)
      refine ⟨?_, ?_⟩
      · intro h
        rcases List.mem_append.1 h with h | h
        · exact absurd h (by decide)
        · exact hn.2.1 h
      · obtain ⟨c, d, h1, h2, _⟩ := hn.1
        obtain ⟨r, hr⟩ : ∃ r, fieldText reprC b "name" = c :: r := by
          cases e : fieldText reprC b "name" with
          | nil => rw [e] at h1; cases h1
          | cons x r => rw [e] at h1; cases h1; exact ⟨r, rfl⟩
        have hc : c ≠ ' ' := by rintro rfl; exact absurd h2 (by decide)
        rw [hr] at hn ⊢
        have hr : ¬ [' ', ' ', ' ', ' '] <:+: r := fun h => hn.2.2 (h.trans (List.suffix_cons c r).isInfix)
        exact noBlanks_sep hc (by decide +kernel) hr
    · rcases List.mem_cons.1 hl with rfl | hl
      · exact cleanLine_nil
      · exact (hgroups b (hb b hm) l hl).2.1
  rw [C59_exact_lines reprC bs hne hclean]
  have hg : bs.flatMap (fun b => vpnTextLines reprC b ++ [[]]) =
      groupLines vpnKw ((bs.map (fun b => (fieldText reprC b "name", (opts b).map (vpnOneLine reprC)))).map (fun g => (g.1, [] :: g.2 ++ [[]]))) := by
    unfold groupLines
    rw [List.map_map, List.flatMap_map]
    have : ∀ b ∈ bs, vpnTextLines reprC b ++ [[]] = (vpnKw ++ [' '] ++ fieldText reprC b "name") :: ([] :: (opts b).map (vpnOneLine reprC) ++ [[]]) := by
      intro b hm
      unfold vpnTextLines
      rw [hlines b (hb b hm)]
      have e1 : vpnKw ++ [' '] = "# openvpn config: ".toList := by decide +kernel
      rw [e1]
      simp
    clear hne hb hclean
    induction bs with
    | nil => rfl
    | cons b bs ih =>
      rw [List.flatMap_cons, List.flatMap_cons, this b (by simp), ih (fun x hx => this x (by simp [hx]))]
      rfl
  rw [hg, parse_groups]
  · refine ⟨bs.map (fun b => sortedDict (Dict.update [("name", txt (fieldText reprC b "name"))] (((opts b).map (vpnOneLine reprC)).map vpnLine))), ?_, ?_⟩
    · rw [List.map_map, List.map_map]
      rfl
    · have hall : ∀ b ∈ bs, (Dict.keys (sortedDict (Dict.update [("name", txt (fieldText reprC b "name"))] (((opts b).map (vpnOneLine reprC)).map vpnLine)))).Nodup ∧
          ∀ k, Dict.get? (sortedDict (Dict.update [("name", txt (fieldText reprC b "name"))] (((opts b).map (vpnOneLine reprC)).map vpnLine))) k =
            (Dict.get? b k).map vpnRead := by
        intro b hm
        have h := hb b hm
        have e : ((opts b).map (vpnOneLine reprC)).map vpnLine = (opts b).map (fun p => (p.1, vpnRead p.2)) := by
          rw [List.map_map]
          apply List.map_congr_left
          intro p hp
          obtain ⟨hp1, hp2⟩ := List.mem_filter.1 hp
          have hn : p.1 ≠ "name" := by simpa using hp2
          have := hopt b h p hp1 hn
          exact (oneLine_ok reprC this.1 hn this.2).2.2.2.2
        rw [e]
        have hopts : opts b = Dict.erase b "name" := rfl
        rw [hopts]
        have hnd : (Dict.keys ((Dict.erase b "name").map (fun p => (p.1, vpnRead p.2)))).Nodup := by
          have : Dict.keys ((Dict.erase b "name").map (fun p => (p.1, vpnRead p.2))) = Dict.keys (Dict.erase b "name") := by
            unfold Dict.keys; rw [List.map_map]; rfl
          rw [this]
          exact Dict.nodup_erase h.nodup _
        have hnu : (Dict.keys (Dict.update [("name", txt (fieldText reprC b "name"))] ((Dict.erase b "name").map (fun p => (p.1, vpnRead p.2))))).Nodup :=
          Dict.nodup_update (d := [("name", txt (fieldText reprC b "name"))]) (by simp [Dict.keys]) _
        refine ⟨sortedDict_nodup hnu, ?_⟩
        intro k
        rw [get?_sortedDict hnu, Dict.get?_update _ _ hnd, Dict.get?_map_val (Dict.erase b "name") (fun p => vpnRead p.2), Dict.get?_erase']
        by_cases e : k = "name"
        · subst e
          obtain ⟨n, h1, _⟩ := h.name
          simp [h1, fieldText, pyStr, txt, Dict.get?, vpnRead]
        · simp only [e, if_false]
          cases hk : Dict.get? b k with
          | none => simp [Dict.get?, e, Ne.symm e]
          | some v => rfl
      clear hg hclean hne hb
      induction bs with
      | nil => exact .nil
      | cons b bs ih => exact .cons (hall b (by simp)) (ih (fun x hx => hall x (by simp [hx])))
  · intro g hgm
    obtain ⟨b, hm, rfl⟩ := List.mem_map.1 hgm
    have hn := hname b (hb b hm)
    exact ⟨hn.1, hn.2.1, fun l hl => ⟨(hgroups b (hb b hm) l hl).1, (hgroups b (hb b hm) l hl).2.1.1, (hgroups b (hb b hm) l hl).2.2⟩⟩

end NJ
