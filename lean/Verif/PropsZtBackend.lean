import Verif.PropsZtText
import Verif.PropsVpnArchive

/-!
# C76: a configuration survives the ZeroTier backend
-/

set_option linter.unusedSimpArgs false
set_option linter.unnecessarySimpa false

namespace NJ

/-- a network that can be read back: the identifier is of one line, no text has the marks of a comment in it, and
the values have the types the schema asks for -/
structure ZtnOK (n : VDict) : Prop where
  wf : (Val.dict n).WF
  name : Dict.has n "name" = true
  nwid : ∀ v, Dict.get? n "nwid" = some v → ∃ s, v = .str s ∧ '\n' ∉ s.toList
  clean : ∀ k v, Dict.get? n k = some v → k ≠ "client_options" → NoComment k ∧ CommentFree v
  ints : ∀ k ∈ ["revision", "mtu", "multicastLimit", "remoteTraceLevel"], ∀ v, Dict.get? n k = some v → ∃ i, v = .int i
  bools : ∀ k ∈ ["enableBroadcast", "private"], ∀ v, Dict.get? n k = some v → ∃ b, v = .bool b

/-! ## Blocks -/

theorem get?_ztnBlock {n : VDict} (h : (Val.dict n).WF) (k : String) :
    Dict.get? (ztnBlock n) k = if k = "client_options" then none else Dict.get? n k := by
  cases h with
  | dict _ hd _ =>
    unfold ztnBlock
    rw [get?_sortedDict (Dict.nodup_erase hd _)]
    split_ifs with h
    · subst h; simp [Dict.get?_erase]
    · simp [Dict.get?_erase, Ne.symm h]

theorem ztnBlock_nodup {n : VDict} (h : (Val.dict n).WF) : (Dict.keys (ztnBlock n)).Nodup := by
  cases h with
  | dict _ hd _ => exact sortedDict_nodup (Dict.nodup_erase hd _)

theorem ztnBlock_wf {n : VDict} (h : (Val.dict n).WF) : (Val.dict (ztnBlock n)).WF := by
  refine .dict _ (ztnBlock_nodup h) (fun p hp => ?_)
  have := Dict.get?_of_mem (ztnBlock_nodup h) hp
  rw [get?_ztnBlock h] at this
  split_ifs at this
  exact h.of_get? this

theorem sortDeep_free {v : Val} (h : CommentFree v) : CommentFree (sortDeep v) := by
  induction h with
  | none => exact .none
  | bool b => exact .bool b
  | int i => exact .int i
  | str s hs => exact .str s hs
  | list l hl ih =>
    rw [sortDeep, sortDeepL_map]
    refine .list _ (fun v hv => ?_)
    obtain ⟨w, hw, rfl⟩ := List.mem_map.1 hv
    exact ih w hw
  | dict d hk hl ih =>
    rw [sortDeep, sortDeepD_map]
    refine .dict _ (fun p hp => ?_) (fun p hp => ?_)
    · have : p ∈ d.map (fun p => (p.1, sortDeep p.2)) := (C33_sorting_keeps _).subset hp
      obtain ⟨w, hw, rfl⟩ := List.mem_map.1 this
      exact hk w hw
    · have : p ∈ d.map (fun p => (p.1, sortDeep p.2)) := (C33_sorting_keeps _).subset hp
      obtain ⟨w, hw, rfl⟩ := List.mem_map.1 this
      exact ih w hw

theorem ztnBlock_free {n : VDict} (h : ZtnOK n) : CommentFree (.dict (ztnBlock n)) := by
  have hc : ∀ p ∈ ztnBlock n, NoComment p.1 ∧ CommentFree p.2 := by
    intro p hp
    have := Dict.get?_of_mem (ztnBlock_nodup h.wf) hp
    rw [get?_ztnBlock h.wf] at this
    split_ifs at this with hk
    exact h.clean p.1 p.2 this hk
  exact .dict _ (fun p hp => (hc p hp).1) (fun p hp => (hc p hp).2)

/-! ## Text -/

/-- the line above a network, without the two slashes -/
def ztnHead (reprC : Val → String) (b : VDict) : Chars := " zerotier controller config: ".toList ++ (fieldText reprC b "nwid" ++ jsonSuffix)

theorem rawZtn_eq (reprC : Val → String) (b : VDict) :
    rawZtn reprC b = '/' :: '/' :: (ztnHead reprC b ++ '\n' :: '\n' :: (tojson4 (.dict b) ++ ['\n', '\n'])) := by
  have : ztnKw ++ [' '] = '/' :: '/' :: " zerotier controller config: ".toList := by decide
  unfold rawZtn ztnHead
  rw [this]
  simp only [List.append_assoc, List.cons_append, List.nil_append]

/-- what the text needs of a block -/
structure ZtnPlain (reprC : Val → String) (b : VDict) : Prop where
  line : '\n' ∉ fieldText reprC b "nwid"
  piece : Piece (tojson4 (.dict b))
  ends : ∃ t, tojson4 (.dict b) = '{' :: (t ++ ['}'])

theorem tojson4_ends {b : VDict} (hb : b ≠ []) : ∃ t, tojson4 (.dict b) = '{' :: (t ++ ['}']) := by
  rw [tojson4_eq, sortDeep]
  have hne : sortedDict (sortDeepD b) ≠ [] := by
    intro h
    have := (C33_sorting_keeps (sortDeepD b)).length_eq
    rw [h, sortDeepD_map] at this
    simp at this
    exact hb (List.length_eq_zero_iff.1 this.symm)
  generalize sortedDict (sortDeepD b) = d at hne
  cases d with
  | nil => exact absurd rfl hne
  | cons p ps =>
    obtain ⟨k, v⟩ := p
    rw [dumpV]
    refine ⟨JsonStyle.brk ⟨escHtml, some 4⟩ (0 + 1) ++ (jsonText ⟨escHtml, some 4⟩ k.toList ++ ([':', ' '] ++ (dumpV ⟨escHtml, some 4⟩ (0 + 1) v ++
      (dumpD ⟨escHtml, some 4⟩ (0 + 1) ps ++ JsonStyle.brk ⟨escHtml, some 4⟩ 0)))), ?_⟩
    simp

theorem ztn_plain (reprC : Val → String) {n : VDict} (h : ZtnOK n) : ZtnPlain reprC (ztnBlock n) := by
  refine ⟨?_, ?_, ?_⟩
  · unfold fieldText
    rw [get?_ztnBlock h.wf, if_neg (by decide)]
    cases hw : Dict.get? n "nwid" with
    | none => simp
    | some v =>
      obtain ⟨s, rfl, hs⟩ := h.nwid v hw
      simpa [pyStr] using hs
  · rw [tojson4_eq]
    exact piece_dumpV escHtml_safe (sortDeep_free (ztnBlock_free h)) 0
  · apply tojson4_ends
    intro hb
    have := get?_ztnBlock h.wf "name"
    rw [hb, if_neg (by decide)] at this
    have hn := h.name
    simp [Dict.has, ← this] at hn

/-- the text of networks, the last of which is followed by some line breaks -/
def ztnText (reprC : Val → String) (k : Nat) : List VDict → Chars
  | [] => []
  | [b] => '/' :: '/' :: (ztnHead reprC b ++ '\n' :: '\n' :: (tojson4 (.dict b) ++ List.replicate k '\n'))
  | b :: b' :: bs => rawZtn reprC b ++ ztnText reprC k (b' :: bs)

theorem ztnText_all (reprC : Val → String) (bs : List VDict) : bs.flatMap (rawZtn reprC) = ztnText reprC 2 bs := by
  induction bs with
  | nil => rfl
  | cons b bs ih =>
    cases bs with
    | nil => rw [ztnText, List.flatMap_cons, List.flatMap_nil, List.append_nil, rawZtn_eq]; rfl
    | cons b' bs => rw [ztnText, List.flatMap_cons, ih]

theorem ztnText_breaks (reprC : Val → String) (k j : Nat) (bs : List VDict) (hne : bs ≠ []) :
    ztnText reprC (k + j) bs = ztnText reprC k bs ++ List.replicate j '\n' := by
  induction bs with
  | nil => exact absurd rfl hne
  | cons b bs ih =>
    cases bs with
    | nil => rw [ztnText, ztnText, List.replicate_add]; simp only [List.cons_append, List.append_assoc]
    | cons b' bs => rw [ztnText, ztnText, ih (by simp), List.append_assoc]

theorem renderZtn_eq (reprC : Val → String) (bs : List VDict) (hne : bs ≠ []) : renderZtn reprC bs = ztnText reprC 1 bs := by
  unfold renderZtn
  rw [ztnText_all]
  have h := ztnText_breaks reprC 0 2 bs hne
  have h1 := ztnText_breaks reprC 0 1 bs hne
  rw [Nat.zero_add] at h h1
  rw [h, h1]
  exact dropFinalBreak_two _

theorem drop_head (reprC : Val → String) {b : VDict} (h : ZtnPlain reprC b) (r : Chars) :
    dropComments ('/' :: '/' :: (ztnHead reprC b ++ '\n' :: '\n' :: (tojson4 (.dict b) ++ r))) = '\n' :: '\n' :: (tojson4 (.dict b) ++ dropComments r) := by
  have hl : '\n' ∉ ztnHead reprC b := by
    unfold ztnHead
    simp only [List.mem_append, not_or]
    exact ⟨by decide, h.line, by decide⟩
  rw [dropComments_line hl, dropComments_cons (fun _ _ e => absurd e (by decide)), dropComments_cons (fun _ _ e => absurd e (by decide)), dropComments_piece h.piece]

theorem dropComments_breaks (k : Nat) (s : Chars) : dropComments (List.replicate k '\n' ++ s) = List.replicate k '\n' ++ dropComments s := by
  induction k with
  | zero => rfl
  | succ k ih => rw [List.replicate_succ, List.cons_append, dropComments_cons (fun _ _ e => absurd e (by decide)), ih]; rfl

def fourBreaks : Chars := ['\n', '\n', '\n', '\n']

theorem dropComments_text (reprC : Val → String) (k : Nat) (bs : List VDict) (hne : bs ≠ []) (h : ∀ b ∈ bs, ZtnPlain reprC b) :
    dropComments (ztnText reprC k bs) = ['\n', '\n'] ++ joinWith fourBreaks (bs.map (fun b => tojson4 (.dict b))) ++ List.replicate k '\n' := by
  induction bs with
  | nil => exact absurd rfl hne
  | cons b bs ih =>
    cases bs with
    | nil =>
      have := dropComments_breaks k []
      rw [List.append_nil] at this
      rw [ztnText, drop_head reprC (h b (by simp)), this]
      simp [joinWith, dropComments, scan]
    | cons b' bs =>
      have e : rawZtn reprC b ++ ztnText reprC k (b' :: bs) = '/' :: '/' :: (ztnHead reprC b ++ '\n' :: '\n' :: (tojson4 (.dict b) ++ (List.replicate 2 '\n' ++ ztnText reprC k (b' :: bs)))) := by
        rw [rawZtn_eq]
        simp [List.replicate]
      rw [ztnText, e, drop_head reprC (h b (by simp)), dropComments_breaks, ih (by simp) (fun x hx => h x (by simp [hx]))]
      simp [joinWith, fourBreaks, List.replicate]

theorem split_networks {l : List Chars} (hne : l ≠ []) (h : ∀ t ∈ l, Piece t) : splitBlank false (joinWith fourBreaks l) = l := by
  induction l with
  | nil => exact absurd rfl hne
  | cons a l ih =>
    cases l with
    | nil =>
      have := splitBlank_piece (b := []) (h a (by simp))
      rw [List.append_nil] at this
      simp only [joinWith]
      rw [this]
      simp [splitBlank, consHead]
    | cons b l =>
      have hb : ∃ r, joinWith fourBreaks (b :: l) = b ++ r := by
        cases l with
        | nil => exact ⟨[], by simp [joinWith]⟩
        | cons c l => exact ⟨_, by rw [joinWith, List.append_assoc]⟩
      obtain ⟨r, hr⟩ := hb
      have ih := ih (by simp) (fun t ht => h t (by simp [ht]))
      rw [joinWith, List.append_assoc, splitBlank_piece (h a (by simp))]
      rw [hr] at ih ⊢
      have := splitBlank_breaks (h b (by simp)) 2 r
      rw [show fourBreaks = List.replicate (2 + 2) '\n' from rfl, this, ih]
      simp [consHead]

theorem curly_edges {s : Chars} (h : ∃ t, s = '{' :: (t ++ ['}'])) :
    ∃ c d, s.head? = some c ∧ isSpace c = false ∧ s.getLast? = some d ∧ isSpace d = false := by
  obtain ⟨t, rfl⟩ := h
  refine ⟨'{', '}', rfl, by decide, ?_, by decide⟩
  rw [← List.cons_append, List.getLast?_append_of_ne_nil _ (by simp)]
  rfl

theorem join_edges {l : List Chars} (hne : l ≠ []) (h : ∀ t ∈ l, ∃ u, t = '{' :: (u ++ ['}'])) : ∃ u, joinWith fourBreaks l = '{' :: (u ++ ['}']) := by
  induction l with
  | nil => exact absurd rfl hne
  | cons a l ih =>
    obtain ⟨u, hu⟩ := h a (by simp)
    cases l with
    | nil => exact ⟨u, by simpa [joinWith] using hu⟩
    | cons b l =>
      obtain ⟨w, hw⟩ := ih (by simp) (fun t ht => h t (by simp [ht]))
      exact ⟨u ++ '}' :: fourBreaks ++ '{' :: w, by rw [joinWith, hw, hu]; simp⟩

/-- the text made from networks is read as these networks, with their keys in order -/
theorem parse_networks (reprC : Val → String) (k : Nat) (bs : List VDict) (hne : bs ≠ []) (h : ∀ b ∈ bs, ZtnPlain reprC b)
    (hw : ∀ b ∈ bs, (Val.dict b).WF) : parseZtn (ztnText reprC k bs) = .ok [("zerotier", .list (bs.map (fun b => sortDeep (.dict b))))] := by
  have hstrip : strip (dropComments (ztnText reprC k bs)) = joinWith fourBreaks (bs.map (fun b => tojson4 (.dict b))) := by
    rw [dropComments_text reprC k bs hne h, strip_append_breaks]
    apply strip_core (by decide)
    apply curly_edges
    apply join_edges (by simpa using hne)
    intro t ht
    obtain ⟨b, hb, rfl⟩ := List.mem_map.1 ht
    exact (h b hb).ends
  unfold parseZtn
  rw [hstrip, split_networks (by simpa using hne) (by
    intro t ht
    obtain ⟨b, hb, rfl⟩ := List.mem_map.1 ht
    exact (h b hb).piece)]
  have hf : (bs.map (fun b => tojson4 (.dict b))).filter (fun r => !(strip r).isEmpty) = bs.map (fun b => tojson4 (.dict b)) := by
    rw [List.filter_eq_self]
    intro t ht
    obtain ⟨b, hb, rfl⟩ := List.mem_map.1 ht
    have := strip_core (a := []) (by simp) (curly_edges (h b hb).ends)
    rw [List.nil_append] at this
    rw [this]
    obtain ⟨u, hu⟩ := (h b hb).ends
    rw [hu]; rfl
  rw [hf]
  have hm : (bs.map (fun b => tojson4 (.dict b))).mapM loadsOrRaise = .ok (bs.map (fun b => sortDeep (.dict b))) := by
    clear hstrip hf hne h
    induction bs with
    | nil => rfl
    | cons b bs ih =>
      rw [List.map_cons, List.map_cons]
      refine (mapM_ok_cons _ _ _ _).2 ⟨_, _, ?_, ih (fun x hx => hw x (by simp [hx])), rfl⟩
      unfold loadsOrRaise
      rw [tojson4_eq, jsonLoads_dumpV escHtml_ok (sortDeep_wf (hw b (by simp)))]
  rw [hm]
  rfl

/-! ## Back -/

theorem typeCast_same {props : Dict String JType} {d : VDict} (h : ∀ p ∈ d, castValue (Dict.get? props p.1) p.2 = .ok p.2) : typeCast props d = .ok d := by
  unfold typeCast
  induction d with
  | nil => rfl
  | cons p d ih =>
    refine (mapM_ok_cons _ _ _ _).2 ⟨p, d, ?_, ih (fun q hq => h q (by simp [hq])), rfl⟩
    rw [h p (by simp)]
    rfl

theorem ztnProps_int {k : String} (h : Dict.get? ztnProps k = some .integer) : k ∈ ["revision", "mtu", "multicastLimit", "remoteTraceLevel"] := by
  have := Dict.mem_of_get? h
  simp [ztnProps] at this
  simpa using this

theorem ztnProps_bool {k : String} (h : Dict.get? ztnProps k = some .boolean) : k ∈ ["enableBroadcast", "private"] := by
  have := Dict.mem_of_get? h
  simp [ztnProps] at this
  simpa using this

/-- what comes back for a network -/
def ztnOut (n : VDict) : VDict := sortedDict (sortDeepD (ztnBlock n))

theorem sortDeep_dict (d : VDict) : sortDeep (.dict d) = .dict (sortedDict (sortDeepD d)) := rfl

theorem ztnOut_nodup {n : VDict} (h : (Val.dict n).WF) : (Dict.keys (ztnOut n)).Nodup := by
  unfold ztnOut
  rw [sortDeepD_map]
  exact sortedDict_nodup (by rw [keys_mapVals]; exact ztnBlock_nodup h)

theorem get?_ztnOut {n : VDict} (h : (Val.dict n).WF) (k : String) : Dict.get? (ztnOut n) k = (Dict.get? (ztnBlock n) k).map sortDeep := by
  unfold ztnOut
  rw [sortDeepD_map, get?_sortedDict (by rw [keys_mapVals]; exact ztnBlock_nodup h), get?_mapVals]

theorem ztnOut_cast {n : VDict} (h : ZtnOK n) : typeCast ztnProps (ztnOut n) = .ok (ztnOut n) := by
  apply typeCast_same
  intro p hp
  have hg := Dict.get?_of_mem (ztnOut_nodup h.wf) hp
  rw [get?_ztnOut h.wf, get?_ztnBlock h.wf] at hg
  split_ifs at hg with hk
  · cases hg
  cases hn : Dict.get? n p.1 with
  | none => rw [hn] at hg; cases hg
  | some v =>
    rw [hn] at hg
    have hv : sortDeep v = p.2 := Option.some.inj hg
    rw [← hv]
    cases ht : Dict.get? ztnProps p.1 with
    | none => rfl
    | some t =>
      cases t with
      | integer =>
        obtain ⟨i, rfl⟩ := h.ints p.1 (ztnProps_int ht) v hn
        rfl
      | boolean =>
        obtain ⟨i, rfl⟩ := h.bools p.1 (ztnProps_bool ht) v hn
        rfl
      | other => rfl

theorem SameVal.right {a : Val} {d e : VDict} (h : SameVal a (.dict d)) (he : ∀ k, Dict.get? e k = Dict.get? d k) : SameVal a (.dict e) := by
  cases h with
  | dict c _ h1 h2 => exact .dict _ _ (fun k => by rw [he, h1]) (fun k x y hx hy => h2 k x y hx (by rw [← he]; exact hy))

theorem ztnOut_same {n : VDict} (h : (Val.dict n).WF) : SameVal (.dict (ztnOut n)) (.dict (Dict.erase n "client_options")) := by
  have := sortDeep_same (ztnBlock_wf h)
  rw [sortDeep_dict] at this
  refine SameVal.right this (fun k => ?_)
  cases h with
  | dict _ hd _ => exact (get?_sortedDict (Dict.nodup_erase hd _) k).symm

theorem ztnOut_ne {n : VDict} (h : ZtnOK n) : ztnOut n ≠ [] := by
  intro hb
  have := get?_ztnOut h.wf "name"
  rw [hb, get?_ztnBlock h.wf, if_neg (by decide)] at this
  have hn := h.name
  unfold Dict.has at hn
  cases hg : Dict.get? n "name" with
  | none => rw [hg] at hn; simp at hn
  | some v => rw [hg] at this; cases this

theorem ztn_fwd (config : VDict) (l : List VDict) (hne : l ≠ []) (hk : Dict.get? config "zerotier" = some (.list (l.map .dict))) :
    fwd "zerotier" ztnFwd config = .ok [("zerotier", .list ((l.map ztnBlock).map .dict))] := by
  unfold fwd
  rw [hk]
  cases l with
  | nil => exact absurd rfl hne
  | cons d ds =>
    have hm : mapIdxM (fun (_ : Nat) (d : VDict) => (Except.ok (ztnBlock d) : Except PyErr VDict)) 2 ds = .ok (ds.map ztnBlock) := by
      generalize 2 = i
      clear hk hne
      induction ds generalizing i with
      | nil => rfl
      | cons x ds ih => rw [mapIdxM, ih (i + 1)]; rfl
    have := fwdList_blocks ztnFwd "zerotier" (fun _ d => .ok (ztnBlock d)) (fun i d r => rfl) 2 ds (ds.map ztnBlock) [.dict (ztnBlock d)] hm
    exact this

theorem ztn_back (inter : VDict) (outs : List VDict) (hne : outs ≠ []) (ho : ∀ o ∈ outs, o ≠ [] ∧ typeCast ztnProps o = .ok o) :
    ztnBConv.run [] inter [("zerotier", .list (outs.map .dict))] =
      (([], Dict.set [("zerotier", .list (outs.map .dict))] "zerotier" (.list (([] : List VDict).map .dict))), .ok [("zerotier", .list (outs.map .dict))]) := by
  have hs : ∀ b ∈ outs, skipBlock none b = false := by
    intro b hb
    have := (ho b hb).1
    unfold skipBlock
    cases b with
    | nil => exact absurd rfl this
    | cons => rfl
  have hm : List.Forall₂ (fun a b => typeCast ztnProps a = .ok b) outs outs := by
    clear hs hne
    induction outs with
    | nil => exact .nil
    | cons o os ih => exact .cons (ho o (by simp)).2 (ih (fun x hx => ho x (by simp [hx])))
  have hsec := backFold_section none ztnBack "zerotier" (fun _ => typeCast ztnProps) (fun _ _ _ => rfl) outs outs hne hs (mapIdxM_const 1 hm)
  exact bwd_split "zerotier" none () (fun i b (acc : Unit × VDict) => do let r ← ztnBack i b acc.2; pure ((), r))
    [] inter [("zerotier", .list (outs.map .dict))] outs [] _ (by simp) hs (by simp) hsec

/-- what parsing makes of the text -/
theorem ztn_parse (env : Env) (schema : VDict → Except PyErr Unit) (sh : Val → Bool) (l : List VDict) (hne : l ≠ []) (hl : ∀ n ∈ l, ZtnOK n) (text : Chars)
    (hp : parseZtn text = .ok [("zerotier", .list ((l.map ztnBlock).map (fun b => sortDeep (.dict b))))]) :
    parse (zerotierClass env schema sh) text = (do
      validate (zerotierClass env schema sh) [("zerotier", .list ((l.map ztnOut).map .dict))]
      pure ⟨[("zerotier", .list ((l.map ztnOut).map .dict))], some [("zerotier", .list ((l.map ztnOut).map .dict))]⟩) := by
  have e : (l.map ztnBlock).map (fun b => sortDeep (.dict b)) = (l.map ztnOut).map .dict := by
    rw [List.map_map, List.map_map]
    rfl
  rw [e] at hp
  have hrun := ztn_back [("zerotier", .list ((l.map ztnOut).map .dict))] (l.map ztnOut) (by simpa using hne) (by
    intro o ho
    obtain ⟨n, hn, rfl⟩ := List.mem_map.1 ho
    exact ⟨ztnOut_ne (hl n hn), ztnOut_cast (hl n hn)⟩)
  generalize ((l.map ztnOut).map Val.dict) = os at *
  have hloop : bconvLoop (zerotierClass env schema sh) [("zerotier", .list os)] [ztnBConv] [] [("zerotier", .list os)] =
      (([("zerotier", .list os)], [("zerotier", .list [])]), .ok ()) := by
    unfold bconvLoop
    have : ztnBConv.should [("zerotier", .list os)] = true := rfl
    rw [if_neg (by rw [this]; simp), hrun]
    dsimp only
    rw [if_neg (by simp), C04_empty_template _ _ _ (by simp)]
    rfl
  exact parse_of_loop rfl hp hloop

/-- the text rendered -/
theorem ztn_render (env : Env) (schema : VDict → Except PyErr Unit) (sh : Val → Bool) (config config' : VDict) (l : List VDict)
    (hne : l ≠ []) (hk : Dict.get? config "zerotier" = some (.list (l.map .dict)))
    (hv : validate (zerotierClass env schema sh) config = .ok ()) (hd : deduplicateFiles config = .ok config') :
    render (zerotierClass env schema sh) false ⟨config, none⟩ =
      (⟨config', some [("zerotier", .list ((l.map ztnBlock).map .dict))]⟩, .ok (renderZtn env.reprC (l.map ztnBlock))) := by
  unfold render
  rw [hv]
  have he : ensureIntermediate (zerotierClass env schema sh) ⟨config, none⟩ = (⟨config, some [("zerotier", .list ((l.map ztnBlock).map .dict))]⟩, .ok ()) := by
    unfold ensureIntermediate toIntermediate
    dsimp only
    rw [hv]
    show convLoop _ [ztnConv] config [] = _
    unfold convLoop
    have : ztnConv.should config = true := by
      show Dict.has config "zerotier" = true
      simp [Dict.has, hk]
    have hr : ztnConv.run config [] = (config, .ok [("zerotier", .list ((l.map ztnBlock).map .dict))]) := by
      show (config, fwd "zerotier" ztnFwd config) = _
      rw [ztn_fwd config l hne hk]
    rw [if_neg (by rw [this]; simp), hr]
    dsimp only
    rw [if_neg (by simp), C04_empty_template _ _ _ (by simp)]
    rfl
  rw [he]
  show renderTail _ _ _ = _
  unfold renderTail
  rw [hd]
  show (_, (do
    let out ← ztnNative env.reprC [("zerotier", .list ((l.map ztnBlock).map .dict))]
    _ : Except PyErr Chars)) = _
  have : ztnNative env.reprC [("zerotier", .list ((l.map ztnBlock).map .dict))] = .ok (renderZtn env.reprC (l.map ztnBlock)) := by
    unfold ztnNative
    rw [Dict.get?_cons_self]
    dsimp only
    rw [blocksOf_map]
    rfl
  rw [this]
  rfl

/-- **C76.** Rendering a configuration of the ZeroTier backend and parsing the text gives every network back, in the same order, with
the same options at any depth, up to the order of the keys; only the options meant for clients, which are not rendered, are missing. -/
theorem C76_round_trip (env : Env) (schema : VDict → Except PyErr Unit) (sh : Val → Bool) (config config' : VDict) (l : List VDict)
    (hne : l ≠ []) (hk : Dict.get? config "zerotier" = some (.list (l.map .dict))) (hl : ∀ n ∈ l, ZtnOK n)
    (hv : validate (zerotierClass env schema sh) config = .ok ()) (hd : deduplicateFiles config = .ok config') :
    ∃ st text inter outs, render (zerotierClass env schema sh) false ⟨config, none⟩ = (st, .ok text) ∧ st.config = config' ∧
      List.Forall₂ (fun out n => SameVal (.dict out) (.dict (Dict.erase n "client_options"))) outs l ∧
      parse (zerotierClass env schema sh) text = (do
        validate (zerotierClass env schema sh) [("zerotier", .list (outs.map .dict))]
        pure ⟨[("zerotier", .list (outs.map .dict))], some inter⟩) := by
  have hbne : l.map ztnBlock ≠ [] := by simpa using hne
  refine ⟨⟨config', some [("zerotier", .list ((l.map ztnBlock).map .dict))]⟩, renderZtn env.reprC (l.map ztnBlock), _, l.map ztnOut, ?_, rfl, ?_,
    ztn_parse env schema sh l hne hl _ ?_⟩
  · exact ztn_render env schema sh config config' l hne hk hv hd
  · clear hk hbne hne
    induction l with
    | nil => exact .nil
    | cons n l ih => exact .cons (ztnOut_same (hl n (by simp)).wf) (ih (fun x hx => hl x (by simp [hx])))
  · rw [renderZtn_eq _ _ hbne]
    apply parse_networks _ _ _ hbne
    · intro b hb
      obtain ⟨n, hn, rfl⟩ := List.mem_map.1 hb
      exact ztn_plain _ (hl n hn)
    · intro b hb
      obtain ⟨n, hn, rfl⟩ := List.mem_map.1 hb
      exact ztnBlock_wf (hl n hn).wf

end NJ
