import Verif.WholeGeneral

/-!
# Interfaces and switches as parts of a configuration
-/

namespace NJ

/-! ## Interfaces -/

theorem unit_blocks_nil {us : List IUnit} (h : us.flatMap IUnit.blocks = []) : us = [] := by
  cases us with
  | nil => rfl
  | cons u us =>
    rw [List.flatMap_cons] at h
    have := (List.append_eq_nil_iff.1 h).1
    unfold IUnit.blocks at this
    split at this <;> cases this

/-- interfaces that make nothing can be left out -/
theorem foldlM_skip {α ε : Type} (f : List Val × α → Val → Except ε (List Val × α)) (skip : VDict → Bool) (l : List VDict)
    (h1 : ∀ d ∈ l, skip d = true → ∀ acc, f ([], acc) (.dict d) = .ok ([], acc))
    (h2 : ∀ d ∈ l, skip d = false → ∀ acc r, f ([], acc) (.dict d) = .ok r → r.1 = []) (acc : α) :
    (l.map Val.dict).foldlM f ([], acc) = ((l.filter (fun d => !skip d)).map Val.dict).foldlM f ([], acc) := by
  induction l generalizing acc with
  | nil => rfl
  | cons d l ih =>
    have ih := ih (fun x hx => h1 x (by simp [hx])) (fun x hx => h2 x (by simp [hx]))
    rw [List.map_cons, List.foldlM_cons, List.filter_cons]
    cases hs : skip d with
    | true =>
      rw [h1 d (by simp) hs acc]
      exact ih acc
    | false =>
      rw [if_pos (by rfl), List.map_cons, List.foldlM_cons]
      cases hf : f ([], acc) (.dict d) with
      | error e => rfl
      | ok r =>
        obtain ⟨v, a⟩ := r
        have := h2 d (by simp) hs acc _ hf
        dsimp only at this
        subst this
        exact ih a

theorem ifaces_part {env : Env} {dsa : Bool} (sh : Val → Bool) {config : VDict} {servers search : List String} (hdns : DnsOK config servers search)
    {is : List Iface} {all : List VDict} {skip : VDict → Bool} (hk : ListIn config "interfaces" all)
    (hskip : ∀ d ∈ all, skip d = true → ∀ acc, ifaceFwd sh env dsa config ([], acc) (.dict d) = .ok ([], acc))
    (hall : all.filter (fun d => !skip d) = is.map Iface.options) (h : ∀ i ∈ is, i.OK env dsa) (ha : IfacesApart dsa is) :
    ∃ bs rs, (∀ inter, Makes (ifacesConv sh env dsa) config inter (pkgData "network" bs)) ∧
      (∀ b ∈ bs, (PlainData b ∧ Dict.get? (blockRead env.reprC b) ".name" = Dict.get? b ".name") ∧
        ∃ i ∈ is, Tracked env.reprC dsa (sectionName i.name i.network) i.options b) ∧
      (∀ gs g2, GlobalsBlocks env dsa gs (dictData "general" g2) → ((gs ++ bs.map (blockRead env.reprC)).map Val.dict).Nodup →
        ∃ out, (∀ copy others, (∀ b ∈ others, skipBlock ifaceTypes b = true) →
            Takes (ifacesBConv env dsa) copy "network" (gs ++ bs.map (blockRead env.reprC)) others out) ∧ (Dict.keys out).Nodup ∧
          ∀ k, Dict.get? out k = if k = "general" then dictItem g2 else if k = "interfaces" then listItem (rs.map .dict)
            else if k = "dns_servers" then listItem ((is.flatMap (fun i => serversOf servers i.group)).map .str)
            else if k = "dns_search" then listItem ((is.flatMap (fun i => searchOf search i.group)).map .str) else none) ∧
      List.Forall₂ (fun r (i : Iface) => IfaceComesBack env i.name i.network i.group r i.options) rs is := by
  obtain ⟨us, hus⟩ := units_exist (dsa := dsa) hdns is h
  have hok : ∀ u ∈ us, u.OK env dsa := by
    intro u hu
    obtain ⟨i, _, hi⟩ := forall₂_mem hus hu
    exact hi.ok
  have hnames : us.map IUnit.name = is.map Iface.name := forall₂_map_eq (fun u i hu => hu.nameEq) hus
  have hfwd : List.Forall₂ (fun (u : IUnit) (d : VDict) => ∀ result, ifaceFwd sh env dsa config ([], result) (.dict d) = addUnit sh u.D u.S result)
      us (is.map Iface.options) := by
    clear * - hus
    induction hus with
    | nil => exact .nil
    | cons h1 _ ih => exact .cons (fun result => h1.forward sh result) ih
  have hsep : Separate us := by
    intro u hu w hw hD hdot
    obtain ⟨i, hi, hui⟩ := forall₂_mem hus hu
    obtain ⟨j, hj, hwj⟩ := forall₂_mem hus hw
    have := ha.dots i hi j hj (hwj.deviceIff.1 hD) (by rw [← hui.nameEq]; exact hdot)
    rw [hui.nameEq, hwj.nameEq]
    refine ⟨this.1, fun hn => this.2 ?_⟩
    cases hd : i.hasDevice dsa with
    | false => rfl
    | true => exact absurd hn (hui.deviceIff.2 hd)
  have hnb := block_names_nodup hus ha.sections ha.devices
  have hbl : ∀ b ∈ us.flatMap IUnit.blocks, Named b := by
    intro b hb
    obtain ⟨u, hu', hb⟩ := List.mem_flatMap.1 hb
    exact (hok u hu').named b hb
  refine ⟨us.flatMap IUnit.blocks, us.map IUnit.r, fun inter => ?_, ?_, ?_, ?_⟩
  · rcases hk with ⟨hk, hnil⟩ | hk
    · left
      refine ⟨by simp [ifacesConv, pureConv, Dict.has, hk], ?_⟩
      subst hnil
      have hnil := hall.symm
      rw [List.filter_nil, List.map_eq_nil_iff] at hnil
      subst hnil
      cases hus
      rfl
    · right
      refine ⟨by simp [ifacesConv, pureConv, Dict.has, hk], ?_⟩
      show (config, ifacesRun sh env dsa config) = _
      unfold ifacesRun
      rw [hk]
      simp only [Option.getD_some]
      have := units_forward sh (ifaceFwd sh env dsa config) _ us hfwd [] (by simpa using hbl) (by simpa using hnb)
      have e0 : netOf [] = [] := rfl
      rw [e0, ← hall] at this
      rw [foldlM_skip _ skip all hskip ?_, this]
      rotate_left
      · intro d hd hs acc r hr
        have hm : d ∈ is.map Iface.options := by
          rw [← hall, List.mem_filter]
          exact ⟨hd, by rw [hs]; rfl⟩
        obtain ⟨u, _, hu⟩ := forall₂_mem (List.Forall₂.flip hfwd) hm
        rw [hu] at hr
        unfold addUnit at hr
        obtain ⟨_, _, hr⟩ := bind_ok_iff.1 hr
        cases hr
        rfl
      simp only [bind, Except.bind, pure, Except.pure, List.nil_append, netOf, pkgData]
      by_cases e : us.flatMap IUnit.blocks = []
      · rw [if_pos e, if_pos e]; rfl
      · rw [if_neg e, if_neg e]; rfl
  · intro b hb
    obtain ⟨u, hu', hb⟩ := List.mem_flatMap.1 hb
    obtain ⟨i, hi, hui⟩ := forall₂_mem hus hu'
    exact ⟨⟨(hok u hu').plain b hb, (hok u hu').nameRead b hb⟩, i, hi, hui.track b hb⟩
  · intro gs g2 hg hn
    have hread : ((us.flatMap IUnit.blocks).map (blockRead env.reprC)).map Val.dict = us.flatMap (unitRead env.reprC) := by
      rw [List.map_map, List.map_flatMap]; rfl
    rw [List.map_append, hread] at hn
    have gd : ∀ k, Dict.get? (dictData "general" g2) k = if k = "general" then dictItem g2 else none := get?_dictData _ _
    have g := note_get us (dictData "general" g2) [] [] [] (by rw [gd]; rfl) (by rw [gd]; rfl) (by rw [gd]; rfl)
    refine ⟨us.foldl (fun r u => u.note r) (dictData "general" g2), fun copy others ho => ⟨fun _ => rfl, fun c inter hi => ?_, fun he => ?_⟩, ?_, fun k => ?_⟩
    · obtain ⟨dev, hb⟩ := units_back_among us hok (by rw [hnames]; exact ha.names) hsep hg ho hn
      unfold ifacesBConv
      dsimp only
      rw [hi]
      simp only [Option.getD_some, List.map_append, hread, hb]
    · obtain ⟨rfl, e⟩ := List.append_eq_nil_iff.1 he
      rw [List.map_eq_nil_iff] at e
      rw [unit_blocks_nil e]
      rcases hg with ⟨_, hg⟩ | ⟨G, hG, _⟩
      · exact hg
      · cases hG
    · clear * -
      generalize hd : dictData "general" g2 = r0
      have : (Dict.keys r0).Nodup := by rw [← hd]; exact dictData_nodup _ _
      clear hd
      induction us generalizing r0 with
      | nil => exact this
      | cons u us ih =>
        rw [List.foldl_cons]
        apply ih
        have ha : ∀ (r : VDict) (k : String) (v : List Val), (Dict.keys r).Nodup → (Dict.keys (appendTo r k v)).Nodup := by
          intro r k v hr
          unfold appendTo
          split <;> exact Dict.nodup_set hr _ _
        have hw : ∀ (k : String) (ns : List String) (r : VDict), (Dict.keys r).Nodup → (Dict.keys (withNames k ns r)).Nodup := by
          intro k ns r hr
          unfold withNames
          split
          · exact hr
          · exact ha _ _ _ hr
        exact ha _ _ _ (hw _ _ _ (hw _ _ _ this))
    · rw [g, gd]
      have s1 : us.flatMap IUnit.servers = is.flatMap (fun i => serversOf servers i.group) := by
        clear * - hus
        induction hus with
        | nil => rfl
        | cons h1 _ ih => rw [List.flatMap_cons, List.flatMap_cons, ih, h1.serversEq]
      have s2 : us.flatMap IUnit.search = is.flatMap (fun i => searchOf search i.group) := by
        clear * - hus
        induction hus with
        | nil => rfl
        | cons h1 _ ih => rw [List.flatMap_cons, List.flatMap_cons, ih, h1.searchEq]
      rw [s1, s2]
      simp only [List.nil_append, List.map_map]
      by_cases k0 : k = "general"
      · subst k0; rfl
      · by_cases k1 : k = "interfaces"
        · subst k1; rfl
        · simp [k0, k1]
  · clear * - hus
    induction hus with
    | nil => exact .nil
    | cons h1 _ ih => exact .cons h1.back ih

/-! ## Switches -/

theorem backFold_index {σ : Type} (types : Option (List String)) (loop : Nat → VDict → σ × VDict → Except PyErr (σ × VDict))
    (h : ∀ i j b acc, loop i b acc = loop j b acc) (i j : Nat) (bs : List VDict) (acc : σ × VDict) :
    backFold types loop i bs acc = backFold types loop j bs acc := by
  induction bs generalizing i j acc with
  | nil => rfl
  | cons b bs ih =>
    rw [backFold, backFold, h i j b acc]
    split
    · exact ih _ _ _
    · congr 1
      funext a
      exact ih _ _ _

theorem eraseAll_perm {l : List Val} {a b : List Val} (h : List.Perm a b) : eraseAll l a = eraseAll l b := by
  induction h generalizing l with
  | nil => rfl
  | cons x _ ih => rw [eraseAll, eraseAll]; exact ih
  | swap x y r => rw [eraseAll, eraseAll, eraseAll, eraseAll, List.erase_comm]
  | trans _ _ ih1 ih2 => rw [ih1, ih2]

theorem perm_split {α : Type} (p : α → Bool) (l : List α) : List.Perm (l.filter (fun x => !p x) ++ l.filter p) l :=
  List.perm_append_comm.trans (by
    have := List.filter_append_perm p l
    simpa using this)

theorem switch_folds (env : Env) (xs : List (VDict × String × List VDict)) (ys : List (VDict × List VDict)) (hne : xs ≠ [])
    (hnames : (xs.map (fun x => x.2.1)).Nodup) (h : ∀ x ∈ xs, SwitchOK x.1 x.2.1 x.2.2) (hxy : List.Forall₂ SwitchBlocksOf xs ys) :
    ∃ mid fin os, backFold (some ["switch", "switch_vlan"]) (switchBack env) 1 (ys.map (fun y => blockBack env.reprC y.1)) ((0, []), []) = .ok mid ∧
      (∀ j, backFold (some ["switch", "switch_vlan"]) (switchBack env) j ((ys.flatMap (fun y => y.2)).map (blockBack env.reprC)) mid =
        .ok (fin, [("switch", .list (os.map .dict))])) ∧ SwitchesBack 0 xs os := by
  cases hxy with
  | nil => exact absurd rfl hne
  | @cons x y xs ys hx hxs =>
    have hok := h x (by simp)
    obtain ⟨s, s1, s2⟩ := switch_back env hok hx.nodup hx.switch 0 [] [] [] 1 rfl
    simp only [List.map_cons, List.nodup_cons] at hnames
    obtain ⟨ss, map', i1, i2, i3, i4⟩ := phase1 env xs ys (fun y hy => h y (by simp [hy])) hxs hnames.2 (Dict.set [] (.str x.2.1) 0) [.dict s] 2
    obtain ⟨os, c', p1, p2⟩ := phase2 env (x :: xs) (y :: ys) h (.cons hx hxs) (s :: ss) (.cons s1 i1) map' [] (by
      intro i hi
      cases i with
      | zero =>
        show Dict.get? map' (.str x.2.1) = _
        rw [i2 _ hnames.1]; simp [Dict.set, Dict.get?]
      | succ i =>
        have := i3 i (by simpa using hi)
        simp only [List.getElem_cons_succ]
        rw [this]; simp; omega) 0 (1 + (ys.length + 1))
    refine ⟨((0, map'), [("switch", .list ((s :: ss).map .dict))]), (c', map'), os, ?_, fun j => ?_, p1⟩
    · rw [List.map_cons, backFold, if_neg (by
        rw [skip_switch env (switch_plain hok hx.nodup hx.switch) (t := "switch") (by rw [hx.switch]; rfl) (by simp)]; simp), s2]
      exact i4
    · rw [backFold_index _ _ (fun _ _ _ _ => rfl) j (1 + (ys.length + 1))]
      exact p2

/-- the switches a configuration has -/
abbrev SwitchData := VDict × String × List VDict

theorem switch_part (env : Env) (config : VDict) (xs : List SwitchData) (hnames : (xs.map (fun x => x.2.1)).Nodup)
    (h : ∀ x ∈ xs, SwitchOK x.1 x.2.1 x.2.2) (hk : ListIn config "switch" (xs.map Prod.fst)) :
    ∃ bs os, (∀ inter, Makes (switchConv env) config inter (pkgData "network" bs)) ∧
      (∀ b ∈ bs, PlainBlock b ∧ skipBlock (some ["switch", "switch_vlan"]) (blockRead env.reprC b) = false) ∧
      (∀ copy others, (∀ b ∈ others, skipBlock (some ["switch", "switch_vlan"]) b = true) →
        Takes (switchBConv env) copy "network" (bs.map (blockRead env.reprC)) others (secData "switch" os)) ∧ SwitchesBack 0 xs os := by
  by_cases hne : xs = []
  · subst hne
    refine ⟨[], [], fun inter => ?_, by simp, fun copy others ho => ⟨fun _ => rfl, fun c inter hi => ?_, fun _ => rfl⟩, trivial⟩
    · rcases hk with ⟨hk, _⟩ | hk
      · exact .inl ⟨by simp [switchConv, pureConv, Dict.has, hk], rfl⟩
      · refine .inr ⟨by simp [switchConv, pureConv, Dict.has, hk], ?_⟩
        show (config, fwd "switch" (switchFwd env) config) = _
        unfold fwd
        rw [hk]
        rfl
    · have hno : ∀ b ∈ others, isSwitchVlan (.dict b) = false := by
        intro b hb
        have := ho b hb
        unfold skipBlock at this
        unfold isSwitchVlan
        rw [Bool.or_eq_true] at this
        rcases this with e | e
        · cases b with
          | nil => rfl
          | cons _ _ => cases e
        · simp only [List.any_cons, List.any_nil, Bool.or_false, Bool.not_eq_true', Bool.or_eq_false_iff] at e
          exact e.2
      have hc : switchClean (others.map .dict) = others.map .dict := by
        have e1 : (others.map Val.dict).filter (fun v => !isSwitchVlan v) = others.map .dict := by
          rw [List.filter_eq_self]
          intro v hv
          obtain ⟨b, hb, rfl⟩ := List.mem_map.1 hv
          rw [hno b hb]; rfl
        have e2 : (others.map Val.dict).filter isSwitchVlan = [] := by
          rw [List.filter_eq_nil_iff]
          intro v hv
          obtain ⟨b, hb, rfl⟩ := List.mem_map.1 hv
          rw [hno b hb]; simp
        show (others.map Val.dict).filter (fun v => !isSwitchVlan v) ++ (others.map Val.dict).filter isSwitchVlan = _
        rw [e1, e2, List.append_nil]
      unfold switchBConv bwd bwdG
      simp only [List.map_nil, List.nil_append] at hi
      simp only [hi, Option.getD_some, hc]
      rw [bwdLoop_eq _ _ _ _ _ _ _ (backFold_skip _ _ _ _ _ ho)]
      rw [List.filter_eq_nil_iff.2 (fun b hb => by rw [ho b hb]; simp)]
      rfl
  · have hk' : Dict.get? config "switch" = some (.list (xs.map (fun x => .dict x.1))) := by
      rcases hk with ⟨_, e⟩ | hk
      · exact absurd (List.map_eq_nil_iff.1 e) hne
      · rw [hk, List.map_map]; rfl
    obtain ⟨ys, hxy, hf⟩ := switch_fwd env config xs hne h hk'
    have hplain := switch_all_plain h hxy
    obtain ⟨mid, fin, os, f1, f2, f3⟩ := switch_folds env xs ys hne hnames h hxy
    obtain ⟨k1, k2⟩ := switch_parts env xs ys h hxy
    have hyne : ys.flatMap flatBlocks ≠ [] := by
      cases hxy with
      | nil => exact absurd rfl hne
      | cons _ _ => simp [flatBlocks]
    have hos : os ≠ [] := by
      rintro rfl
      cases xs with
      | nil => exact hne rfl
      | cons _ _ => exact f3
    have hskipV : ∀ b ∈ ys.flatMap flatBlocks, skipBlock (some ["switch", "switch_vlan"]) (blockBack env.reprC b) = false := by
      clear * - hxy h
      induction hxy with
      | nil => simp
      | @cons x y xs ys hx hxs ih =>
        intro b hb
        have hok := h x (by simp)
        rw [List.flatMap_cons, List.mem_append] at hb
        rcases hb with hb | hb
        · rcases List.mem_cons.1 hb with rfl | hb
          · exact skip_switch env (switch_plain hok hx.nodup hx.switch) (t := "switch") (by rw [hx.switch]; rfl) (by simp)
          · have : ∀ (i : Nat) (vl bs : List VDict), (∀ v ∈ vl, VlanOK x.2.1 v) → Forall2Idx (VlanBlockOf x.2.1) i vl bs → ∀ b ∈ bs,
                skipBlock (some ["switch", "switch_vlan"]) (blockBack env.reprC b) = false := by
              intro i vl
              induction vl generalizing i with
              | nil => intro bs _ hb b hbm; cases bs with
                | nil => cases hbm
                | cons _ _ => cases hb
              | cons v vs ihv =>
                intro bs hv hb b hbm
                cases bs with
                | nil => cases hbm
                | cons b' bs =>
                  rcases List.mem_cons.1 hbm with rfl | hbm
                  · exact skip_switch env (vlan_plain hok.name.2 (hv v (by simp)) hb.1.1 hb.1.2) (t := "switch_vlan") (by rw [hb.1.2]; rfl) (by simp)
                  · exact ihv (i + 1) bs (fun x hx => hv x (by simp [hx])) hb.2 b hbm
            exact this 1 _ _ hok.vlans.2.2 hx.vlans b hb
        · exact ih (fun y hy => h y (by simp [hy])) b hb
    refine ⟨ys.flatMap flatBlocks, os, fun inter => .inr ⟨by simp [switchConv, pureConv, Dict.has, hk'], ?_⟩, fun b hb => ⟨hplain b hb, by
      rw [plain_read (hplain b hb)]; exact hskipV b hb⟩, fun copy others ho => ⟨fun _ => rfl, fun c inter hi => ?_, fun he => ?_⟩, f3⟩
    · show (config, fwd "switch" (switchFwd env) config) = _
      rw [hf]
      unfold pkgData
      rw [if_neg hyne]
      rfl
    · have hno : ∀ b ∈ others, isSwitchVlan (.dict b) = false := by
        intro b hb
        have := ho b hb
        unfold skipBlock at this
        unfold isSwitchVlan
        rw [Bool.or_eq_true] at this
        rcases this with e | e
        · cases b with
          | nil => rfl
          | cons _ _ => cases e
        · simp only [List.any_cons, List.any_nil, Bool.or_false, Bool.not_eq_true', Bool.or_eq_false_iff] at e
          exact e.2
      rw [map_plain_read hplain] at hi
      generalize hA : ys.map (fun y => blockBack env.reprC y.1) = A at *
      generalize hB : (ys.flatMap (fun y => y.2)).map (blockBack env.reprC) = B at *
      generalize hm : (ys.flatMap flatBlocks).map (blockBack env.reprC) = mine at *
      have hmine : ∀ b ∈ mine, skipBlock (some ["switch", "switch_vlan"]) b = false := by
        intro b hb
        rw [← hm] at hb
        obtain ⟨c, hc, rfl⟩ := List.mem_map.1 hb
        exact hskipV c hc
      have hperm : List.Perm (A.map Val.dict ++ B.map .dict) (mine.map .dict) := by
        rw [← k1, ← k2]
        exact perm_split _ _
      have hAB : ∀ b ∈ A ++ B, skipBlock (some ["switch", "switch_vlan"]) b = false := by
        intro b hb
        have : Val.dict b ∈ mine.map Val.dict := hperm.mem_iff.1 (by rw [← List.map_append]; exact List.mem_map_of_mem hb)
        obtain ⟨c, hc, e⟩ := List.mem_map.1 this
        injection e with e
        rw [← e]
        exact hmine c hc
      have hc : switchClean ((mine ++ others).map .dict) = (A ++ others ++ B).map .dict := by
        have e1 : (others.map Val.dict).filter (fun v => !isSwitchVlan v) = others.map .dict := by
          rw [List.filter_eq_self]
          intro v hv
          obtain ⟨b, hb, rfl⟩ := List.mem_map.1 hv
          rw [hno b hb]; rfl
        have e2 : (others.map Val.dict).filter isSwitchVlan = [] := by
          rw [List.filter_eq_nil_iff]
          intro v hv
          obtain ⟨b, hb, rfl⟩ := List.mem_map.1 hv
          rw [hno b hb]; simp
        show ((mine ++ others).map Val.dict).filter (fun v => !isSwitchVlan v) ++ ((mine ++ others).map Val.dict).filter isSwitchVlan = _
        rw [List.map_append, List.filter_append, List.filter_append, e1, e2, k1, k2, List.append_nil, List.map_append, List.map_append]
      have hfold : backFold (some ["switch", "switch_vlan"]) (switchBack env) 1 (A ++ others ++ B) ((0, []), []) =
          .ok (fin, [("switch", .list (os.map .dict))]) := by
        rw [List.append_assoc, backFold_append _ _ _ _ _ _ _ f1, backFold_append _ _ _ _ _ _ _ (backFold_skip _ _ _ _ _ ho)]
        exact f2 _
      have hfil : (A ++ others ++ B).filter (fun b => !skipBlock (some ["switch", "switch_vlan"]) b) = A ++ B := by
        have e0 : others.filter (fun b => !skipBlock (some ["switch", "switch_vlan"]) b) = [] :=
          List.filter_eq_nil_iff.2 (fun b hb => by rw [ho b hb]; simp)
        rw [List.filter_append, List.filter_append, e0, List.append_nil, ← List.filter_append,
          List.filter_eq_self.2 (fun b hb => by rw [hAB b hb]; rfl)]
      unfold switchBConv bwd bwdG
      simp only [hi, Option.getD_some, hc]
      rw [bwdLoop_eq _ _ _ _ _ _ _ hfold, hfil, List.map_append, List.map_append, eraseAll_perm hperm, eraseAll_prefix]
      unfold secData
      rw [if_neg hos]
      rfl
    · rw [List.map_eq_nil_iff] at he
      exact absurd he hyne

end NJ
