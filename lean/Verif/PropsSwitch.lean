import Verif.PropsDefault

/-!
# C44: switches and their VLANs
-/

namespace NJ

/-- the automatic name of the VLAN number `i` of the switch `n` -/
def vlanAuto (n : String) (i : Nat) : String := String.ofList (n.toList ++ "_vlan".toList ++ showNat i)

theorem vlanAutoName_str (env : Env) (n : String) (i : Nat) : vlanAutoName env (.str n) i = .str (vlanAuto n i) := rfl

/-- the name of the section of a VLAN -/
def vlanName (n : String) (i : Nat) (d : VDict) : String :=
  match Dict.get? d "id" with
  | some (.str s) => s
  | _ => vlanAuto n i

/-- A VLAN of the switch `n` whose settings survive: its device is the switch, its number an integer, `vid`, if it is there,
another integer, the identifier a word, the other options survive. -/
structure VlanOK (n : String) (d : VDict) : Prop where
  options : OptionsOK vlanProps ["id", "vid"] d
  device : Dict.get? d "device" = some (.str n)
  number : ∃ v, Dict.get? d "vlan" = some (.int v) ∧ (Dict.get? d "vid" = none ∨ ∃ w, Dict.get? d "vid" = some (.int w) ∧ w ≠ v)
  id : Dict.get? d "id" = none ∨ ∃ s, Dict.get? d "id" = some (.str s) ∧ IsWord s.toList

/-- What comes back of the VLAN number `i` of its switch and number `c` of all the VLANs of the configuration: the same options;
the identifier is there when the name of the section is not the automatic one for the number `c`. -/
def vlanReturned (n : String) (i c : Nat) (d : VDict) (k : String) : Option Val :=
  if k = "id" then (if vlanName n i d = vlanAuto n c then none else some (.str (vlanName n i d))) else Dict.get? d k

/-- the section of a VLAN, item by item -/
def vlanItem (n : String) (i : Nat) (d : VDict) (k : String) : Option Val :=
  if k = ".name" then some (.str (vlanName n i d)) else if k = ".type" then some (.str "switch_vlan")
  else if k = "id" then none else if k = "vid" then (Dict.get? d "vid").or (Dict.get? d "vlan") else Dict.get? d k

theorem vlanAuto_word {n : String} (hn : IsWord n.toList) (i : Nat) : IsWord (vlanAuto n i).toList := by
  unfold vlanAuto
  rw [String.toList_ofList]
  refine isWord_append (isWord_append hn (by decide)) ?_
  intro c hc
  exact (autoName_word ['x'] (by decide) i).2 c (by simp [hc])

theorem vlan_pop (env : Env) {n : String} {i : Nat} {d : VDict} (h : VlanOK n d) :
    popOrElse d "id" (fun _ => .ok (vlanAutoName env (.str n) i)) = .ok (.str (vlanName n i d), Dict.erase d "id") := by
  unfold popOrElse vlanName
  rcases h.id with h1 | ⟨s, h1, h2⟩
  · rw [h1]; rfl
  · rw [h1]
    have : (Val.str s).truthy = true := by
      simp only [Val.truthy, bne_iff_ne, ne_eq]
      exact fun e => h2.1 (by rw [e]; rfl)
    simp only [this, if_true]

theorem vlan_block (env : Env) {n : String} {i : Nat} {d : VDict} (h : VlanOK n d) :
    ∃ b, vlanBlock env (.str n) i d = .ok b ∧ (Dict.keys b).Nodup ∧ ∀ k, Dict.get? b k = vlanItem n i d k := by
  obtain ⟨v, hv, hvid⟩ := h.number
  generalize hr : Dict.update (Dict.erase d "id") [(".type", .str "switch_vlan"), (".name", .str (vlanName n i d))] = r
  have hrn : (Dict.keys r).Nodup := by rw [← hr]; exact Dict.nodup_update (Dict.nodup_erase h.options.nodup _) _
  have hrg : ∀ k, Dict.get? r k = if k = ".name" then some (.str (vlanName n i d)) else
      if k = ".type" then some (.str "switch_vlan") else if k = "id" then none else Dict.get? d k := by
    intro k; rw [← hr]; simp only [Dict.update_cons, Dict.update_nil, Dict.get?_set', Dict.get?_erase']
  have hblk : vlanBlock env (.str n) i d = (if Dict.has r "vid" then pure (sortedDict r) else do
      let n ← getKey r "vlan"
      pure (sortedDict (Dict.set r "vid" n))) := by
    unfold vlanBlock
    rw [vlan_pop env h, ← hr]
    rfl
  rw [hblk]
  have hvd : Dict.get? r "vid" = Dict.get? d "vid" := by rw [hrg]; rfl
  rcases hvid with h1 | ⟨w, h1, _⟩
  · have : Dict.has r "vid" = false := by simp [Dict.has, hvd, h1]
    rw [this, getKey_ok (v := .int v) (by rw [hrg]; exact hv)]
    refine ⟨_, rfl, sortedDict_nodup (Dict.nodup_set hrn _ _), fun k => ?_⟩
    rw [get?_sortedDict (Dict.nodup_set hrn _ _), Dict.get?_set', hrg]
    unfold vlanItem
    by_cases e : k = "vid"
    · subst e; simp [h1, hv]
    · simp [e]
  · have : Dict.has r "vid" = true := by simp [Dict.has, hvd, h1]
    rw [this]
    refine ⟨_, rfl, sortedDict_nodup hrn, fun k => ?_⟩
    rw [get?_sortedDict hrn, hrg]
    unfold vlanItem
    by_cases e : k = "vid"
    · subst e; simp [h1]
    · simp [e]

theorem vlan_plain {n : String} {i : Nat} {d b : VDict} (hn : IsWord n.toList) (h : VlanOK n d) (hbn : (Dict.keys b).Nodup)
    (hb : ∀ k, Dict.get? b k = vlanItem n i d k) : PlainBlock b := by
  obtain ⟨v, hv, hvid⟩ := h.number
  have hnm : IsWord (vlanName n i d).toList := by
    unfold vlanName
    rcases h.id with h1 | ⟨s, h1, h2⟩
    · rw [h1]; exact vlanAuto_word hn i
    · rw [h1]; exact h2
  refine ⟨hbn, ⟨"switch_vlan", by rw [hb]; rfl, by decide⟩, ⟨_, by rw [hb]; rfl, hnm⟩, ?_⟩
  intro k w hk h1 h2
  rw [hb] at hk
  unfold vlanItem at hk
  rw [if_neg h2, if_neg h1] at hk
  split at hk
  · cases hk
  · next h3 =>
    split at hk
    · next h4 =>
      subst h4
      refine ⟨by decide, by decide, ?_⟩
      rcases hvid with e | ⟨w', e, _⟩
      · rw [e, hv] at hk; cases hk; trivial
      · rw [e] at hk; cases hk; trivial
    · next h4 =>
      obtain ⟨o1, o2, o3⟩ := h.options.options k w hk (by simp [h3, h4])
      exact ⟨o1, o2, survives_plain o3⟩

/-- one step of the backward conversion with a VLAN -/
theorem vlan_back (env : Env) {n : String} {i c : Nat} {d b : VDict} (hn : IsWord n.toList) (h : VlanOK n d) (hbn : (Dict.keys b).Nodup)
    (hb : ∀ k, Dict.get? b k = vlanItem n i d k) (map : Dict Val Nat) (sw : List Val) (pos : Nat) (hm : Dict.get? map (.str n) = some pos) (j : Nat) :
    ∃ r : VDict, (∀ k, Dict.get? r k = vlanReturned n i (c + 1) d k) ∧
      switchBack env j (blockBack env.reprC b) ((c, map), [("switch", .list sw)]) = .ok ((c + 1, map), [("switch", .list (addVlan sw pos r))]) := by
  have hplain := vlan_plain hn h hbn hb
  obtain ⟨v, hv, hvid⟩ := h.number
  generalize hx : blockBack env.reprC b = x
  have hget : ∀ k, Dict.get? x k = if k = ".type" ∨ k = ".name" then vlanItem n i d k else (vlanItem n i d k).bind readVal := by
    intro k; rw [← hx, get?_blockBack _ hplain, hb]
  have hxn : (Dict.keys x).Nodup := by rw [← hx]; exact blockBack_nodup _ hplain
  have gname : Dict.get? x ".name" = some (.str (vlanName n i d)) := by rw [hget]; rfl
  have gtype : Dict.get? x ".type" = some (.str "switch_vlan") := by rw [hget]; rfl
  have hne : n ≠ "" := fun e => hn.1 (by rw [e]; rfl)
  -- the value of vid
  obtain ⟨w, hw, hwv⟩ : ∃ w, (Dict.get? d "vid").or (Dict.get? d "vlan") = some (.int w) ∧
      ((w = v ∧ Dict.get? d "vid" = none) ∨ (w ≠ v ∧ Dict.get? d "vid" = some (.int w))) := by
    rcases hvid with e | ⟨w, e, e2⟩
    · exact ⟨v, by rw [e, hv]; rfl, .inl ⟨rfl, e⟩⟩
    · exact ⟨w, by rw [e]; rfl, .inr ⟨e2, e⟩⟩
  generalize hy : Dict.erase (Dict.erase x ".name") ".type" = y
  have hyn : (Dict.keys y).Nodup := by rw [← hy]; exact Dict.nodup_erase (Dict.nodup_erase hxn _) _
  have hyg : ∀ k, Dict.get? y k = if k = ".type" ∨ k = ".name" then none else (vlanItem n i d k).bind readVal := by
    intro k
    rw [← hy, Dict.get?_erase', Dict.get?_erase', hget]
    by_cases e1 : k = ".type"
    · simp [e1]
    · by_cases e2 : k = ".name" <;> simp [e1, e2]
  have gdev : Dict.get? y "device" = some (.str n) := by
    rw [hyg, if_neg (by decide)]; simp [vlanItem, h.device, readVal, hne]
  generalize hz : (if Val.str (vlanName n i d) = .str (vlanAuto n (c + 1)) then y else Dict.set y "id" (.str (vlanName n i d))) = z
  have hzn : (Dict.keys z).Nodup := by
    rw [← hz]; split
    · exact hyn
    · exact Dict.nodup_set hyn _ _
  have hzg : ∀ k, Dict.get? z k = if k = "id" then vlanReturned n i (c + 1) d "id" else Dict.get? y k := by
    intro k
    have hyid : Dict.get? y "id" = none := by rw [hyg]; simp [vlanItem]
    unfold vlanReturned
    rw [← hz, if_pos rfl]
    simp only [Val.str.injEq]
    split
    · by_cases e : k = "id"
      · subst e; rw [if_pos rfl, hyid]
      · rw [if_neg e]
    · rw [Dict.get?_set']
  -- after type_cast
  generalize hwant : Dict.set (if vlanName n i d = vlanAuto n (c + 1) then Dict.erase d "id" else Dict.set d "id" (.str (vlanName n i d))) "vid"
    (.str (String.ofList (showInt w))) = want
  have hwg : ∀ k, Dict.get? want k = if k = "vid" then some (.str (String.ofList (showInt w))) else vlanReturned n i (c + 1) d k := by
    intro k
    rw [← hwant, Dict.get?_set']
    unfold vlanReturned
    split
    · rfl
    · split
      · rw [Dict.get?_erase']
      · rw [Dict.get?_set']
  obtain ⟨out, ho1, ho2⟩ := typeCast_items vlanProps z want hzn (by
    intro k
    rw [hzg, hwg]
    by_cases e1 : k = "id"
    · subst e1
      simp only [if_true, String.reduceEq, if_false]
      cases hv : vlanReturned n i (c + 1) d "id" with
      | none => exact .inl ⟨rfl, rfl⟩
      | some v => exact .inr ⟨v, v, rfl, rfl, rfl⟩
    rw [if_neg e1, hyg]
    by_cases e2 : k = "vid"
    · subst e2
      refine .inr ⟨.str (String.ofList (showInt w)), _, ?_, by simp, rfl⟩
      simp [vlanItem, hw, readVal]
    have hvr : vlanReturned n i (c + 1) d k = Dict.get? d k := by unfold vlanReturned; rw [if_neg e1]
    rw [if_neg e2, hvr]
    by_cases e3 : k = ".type" ∨ k = ".name"
    · rw [if_pos e3]
      left
      refine ⟨rfl, ?_⟩
      rcases e3 with rfl | rfl <;> exact h.options.dotless (by decide) (by decide)
    · rw [if_neg e3]
      have : vlanItem n i d k = Dict.get? d k := by
        simp only [not_or] at e3
        unfold vlanItem
        rw [if_neg e3.2, if_neg e3.1, if_neg e1, if_neg e2]
      rw [this]
      cases hv : Dict.get? d k with
      | none => exact .inl ⟨rfl, rfl⟩
      | some v =>
        obtain ⟨r, s1, s2⟩ := survives_spec (h.options.options k v hv (by simp [e1, e2])).2.2
        exact .inr ⟨r, v, by simp [s1], rfl, s2⟩)
  have hog : ∀ k, Dict.get? out k = if k = "vid" then some (.str (String.ofList (showInt w))) else vlanReturned n i (c + 1) d k :=
    fun k => (ho2 k).trans (hwg k)
  have gvlan : Dict.get? out "vlan" = some (.int v) := by rw [hog]; simp [vlanReturned, hv]
  have gvid : Dict.get? out "vid" = some (.str (String.ofList (showInt w))) := by rw [hog]; rfl
  have hvb : ∃ r, vidBack out = .ok r ∧ (∀ k, Dict.get? r k = vlanReturned n i (c + 1) d k) := by
    unfold vidBack
    rw [gvid]
    have : pyInt (.str (String.ofList (showInt w))) = .ok (.int w) := by simp [pyInt, parseInt_showInt]
    simp only [this, bind, Except.bind]
    rw [getKey_ok gvlan]
    have hpe : Val.pyEq (.int w) (.int v) = decide (w = v) := by
      rw [Val.pyEq]
      by_cases e : w = v <;> simp [e]
    simp only [hpe]
    rcases hwv with ⟨e1, e2⟩ | ⟨e1, e2⟩
    · rw [if_pos (by simpa using e1)]
      refine ⟨_, rfl, fun k => ?_⟩
      rw [Dict.get?_erase', hog]
      by_cases e : k = "vid"
      · subst e; simp [vlanReturned, e2]
      · simp [e]
    · rw [if_neg (by simpa using e1)]
      refine ⟨_, rfl, fun k => ?_⟩
      rw [Dict.get?_set', hog]
      by_cases e : k = "vid"
      · subst e; simp [vlanReturned, e2]
      · simp [e]
  obtain ⟨r, hr1, hr2⟩ := hvb
  refine ⟨r, hr2, ?_⟩
  have gdev2 : Dict.get? r "device" = some (.str n) := by rw [hr2]; simp [vlanReturned, h.device]
  unfold switchBack
  rw [popKey_ok gname]
  simp only [bind, Except.bind]
  rw [popKey_ok (v := .str "switch_vlan") (by rw [Dict.get?_erase', if_neg (by decide)]; exact gtype), hy]
  simp only [Val.str.injEq, String.reduceEq, if_false]
  rw [getKey_ok gdev]
  simp only [vlanAutoName_str, Val.str.injEq]
  simp only [Val.str.injEq] at hz
  rw [hz, ho1]
  simp only [hr1]
  rw [getKey_ok gdev2]
  simp [hm, appendTo, Dict.get?, Dict.set, pure, Except.pure]

/-- A switch, with its VLANs, whose settings survive: there is a name, used as the name of the section or another word is the
identifier; there is at least one VLAN; the other options survive. -/
structure SwitchOK (d : VDict) (n : String) (vl : List VDict) : Prop where
  options : OptionsOK switchProps ["id", "vlan"] d
  name : Dict.get? d "name" = some (.str n) ∧ IsWord n.toList
  id : Dict.get? d "id" = none ∨ ∃ s, Dict.get? d "id" = some (.str s) ∧ IsWord s.toList ∧ s ≠ n
  vlans : Dict.get? d "vlan" = some (.list (vl.map .dict)) ∧ vl ≠ [] ∧ ∀ v ∈ vl, VlanOK n v

def switchName (n : String) (d : VDict) : String :=
  match Dict.get? d "id" with
  | some (.str s) => s
  | _ => n

def switchItem (n : String) (d : VDict) (k : String) : Option Val :=
  if k = "vlan" then none else if k = ".name" then some (.str (switchName n d)) else if k = ".type" then some (.str "switch")
  else if k = "id" then none else Dict.get? d k

theorem switchName_word {d : VDict} {n : String} {vl : List VDict} (h : SwitchOK d n vl) : IsWord (switchName n d).toList := by
  unfold switchName
  rcases h.id with e | ⟨s, e, e2, _⟩ <;> rw [e]
  · exact h.name.2
  · exact e2

theorem vlans_blocks (env : Env) {n : String} (hn : IsWord n.toList) (i : Nat) (vl : List VDict) (h : ∀ v ∈ vl, VlanOK n v) :
    ∃ bs : List VDict, vlanBlocks env (.str n) i (vl.map .dict) = .ok (bs.map .dict) ∧
      Forall2Idx (fun i d b => (Dict.keys b).Nodup ∧ ∀ k, Dict.get? b k = vlanItem n i d k) i vl bs := by
  induction vl generalizing i with
  | nil => exact ⟨[], rfl, trivial⟩
  | cons v vs ih =>
    obtain ⟨b, b1, b2, b3⟩ := vlan_block env (i := i) (h v (by simp))
    obtain ⟨bs, i1, i2⟩ := ih (i + 1) (fun x hx => h x (by simp [hx]))
    refine ⟨b :: bs, ?_, ⟨b2, b3⟩, i2⟩
    rw [List.map_cons, vlanBlocks]
    simp only [asDict, bind, Except.bind, b1, i1]
    rfl

theorem switch_blocks (env : Env) {d : VDict} {n : String} {vl : List VDict} (h : SwitchOK d n vl) :
    ∃ (sb : VDict) (bs : List VDict), switchBlocks env d = .ok (.dict sb :: bs.map .dict) ∧ (Dict.keys sb).Nodup ∧
      (∀ k, Dict.get? sb k = switchItem n d k) ∧
      Forall2Idx (fun i d b => (Dict.keys b).Nodup ∧ ∀ k, Dict.get? b k = vlanItem n i d k) 1 vl bs := by
  obtain ⟨bs, h1, h2⟩ := vlans_blocks env h.name.2 1 vl h.vlans.2.2
  have hpop : popOrElse d "id" (fun s => getKey s "name") = .ok (.str (switchName n d), Dict.erase d "id") := by
    unfold popOrElse switchName
    rcases h.id with e | ⟨s, e, e2, _⟩ <;> rw [e]
    · simp only
      rw [getKey_ok (v := .str n) (by rw [Dict.get?_erase', if_neg (by decide)]; exact h.name.1)]
      rfl
    · have : (Val.str s).truthy = true := by
        simp only [Val.truthy, bne_iff_ne, ne_eq]
        exact fun e => e2.1 (by rw [e]; rfl)
      simp only [this, if_true]
  generalize hr : Dict.update (Dict.erase d "id") [(".type", .str "switch"), (".name", .str (switchName n d))] = r
  have hrn : (Dict.keys r).Nodup := by rw [← hr]; exact Dict.nodup_update (Dict.nodup_erase h.options.nodup _) _
  have hrg : ∀ k, Dict.get? r k = if k = ".name" then some (.str (switchName n d)) else
      if k = ".type" then some (.str "switch") else if k = "id" then none else Dict.get? d k := by
    intro k; rw [← hr]; simp only [Dict.update_cons, Dict.update_nil, Dict.get?_set', Dict.get?_erase']
  refine ⟨sortedDict (Dict.erase r "vlan"), bs, ?_, sortedDict_nodup (Dict.nodup_erase hrn _), fun k => ?_, h2⟩
  · unfold switchBlocks
    rw [hpop]
    simp only [bind, Except.bind, hr]
    rw [getKey_ok (v := .list (vl.map .dict)) (by rw [hrg]; simpa using h.vlans.1),
      getKey_ok (v := .str n) (by rw [hrg]; simpa using h.name.1)]
    simp only [h1]
    rfl
  · rw [get?_sortedDict (Dict.nodup_erase hrn _), Dict.get?_erase', hrg]
    rfl

theorem switch_plain {d sb : VDict} {n : String} {vl : List VDict} (h : SwitchOK d n vl) (hbn : (Dict.keys sb).Nodup)
    (hb : ∀ k, Dict.get? sb k = switchItem n d k) : PlainBlock sb := by
  refine ⟨hbn, ⟨"switch", by rw [hb]; rfl, by decide⟩, ⟨_, by rw [hb]; rfl, switchName_word h⟩, ?_⟩
  intro k w hk h1 h2
  rw [hb] at hk
  unfold switchItem at hk
  rw [if_neg h2, if_neg h1] at hk
  by_cases h3 : k = "vlan"
  · rw [if_pos h3] at hk; cases hk
  · rw [if_neg h3] at hk
    by_cases h4 : k = "id"
    · rw [if_pos h4] at hk; cases hk
    · rw [if_neg h4] at hk
      obtain ⟨o1, o2, o3⟩ := h.options.options k w hk (by simp [h3, h4])
      exact ⟨o1, o2, survives_plain o3⟩

/-- one step of the backward conversion with a switch -/
theorem switch_back (env : Env) {d sb : VDict} {n : String} {vl : List VDict} (h : SwitchOK d n vl) (hbn : (Dict.keys sb).Nodup)
    (hb : ∀ k, Dict.get? sb k = switchItem n d k) (c : Nat) (map : Dict Val Nat) (result : VDict) (sw : List Val) (j : Nat)
    (hres : appendTo result "switch" [] = [("switch", .list sw)]) :
    ∃ s : VDict, (∀ k, Dict.get? s k = if k = "vlan" then none else Dict.get? d k) ∧
      switchBack env j (blockBack env.reprC sb) ((c, map), result) =
        .ok ((0, Dict.set map (.str n) sw.length), [("switch", .list (sw ++ [.dict s]))]) := by
  have hplain := switch_plain h hbn hb
  generalize hx : blockBack env.reprC sb = x
  have hget : ∀ k, Dict.get? x k = if k = ".type" ∨ k = ".name" then switchItem n d k else (switchItem n d k).bind readVal := by
    intro k; rw [← hx, get?_blockBack _ hplain, hb]
  have hxn : (Dict.keys x).Nodup := by rw [← hx]; exact blockBack_nodup _ hplain
  have gname : Dict.get? x ".name" = some (.str (switchName n d)) := by rw [hget]; rfl
  have gtype : Dict.get? x ".type" = some (.str "switch") := by rw [hget]; rfl
  have hne : n ≠ "" := fun e => h.name.2.1 (by rw [e]; rfl)
  generalize hy : Dict.erase (Dict.erase x ".name") ".type" = y
  have hyn : (Dict.keys y).Nodup := by rw [← hy]; exact Dict.nodup_erase (Dict.nodup_erase hxn _) _
  have hyg : ∀ k, Dict.get? y k = if k = ".type" ∨ k = ".name" then none else (switchItem n d k).bind readVal := by
    intro k
    rw [← hy, Dict.get?_erase', Dict.get?_erase', hget]
    by_cases e1 : k = ".type"
    · simp [e1]
    · by_cases e2 : k = ".name" <;> simp [e1, e2]
  have gn : Dict.get? y "name" = some (.str n) := by
    rw [hyg, if_neg (by decide)]; simp [switchItem, h.name.1, readVal, hne]
  generalize hz : (if Val.str (switchName n d) = .str n then y else Dict.set y "id" (.str (switchName n d))) = z
  have hzn : (Dict.keys z).Nodup := by
    rw [← hz]; split
    · exact hyn
    · exact Dict.nodup_set hyn _ _
  have hzg : ∀ k, Dict.get? z k = if k = "id" then Dict.get? d "id" else Dict.get? y k := by
    intro k
    have hyid : Dict.get? y "id" = none := by rw [hyg]; simp [switchItem]
    rw [← hz]
    unfold switchName
    rcases h.id with e | ⟨s, e, e2, e3⟩ <;> rw [e]
    · rw [if_pos rfl]
      by_cases ek : k = "id"
      · subst ek; rw [if_pos rfl, hyid]
      · rw [if_neg ek]
    · rw [if_neg (by simpa using e3), Dict.get?_set']
  obtain ⟨out, ho1, ho2⟩ := typeCast_items switchProps z (Dict.erase d "vlan") hzn (by
    intro k
    rw [hzg, Dict.get?_erase']
    by_cases e0 : k = "vlan"
    · subst e0
      left
      refine ⟨?_, by simp⟩
      rw [if_neg (by decide), hyg]; simp [switchItem]
    rw [if_neg e0]
    by_cases e1 : k = "id"
    · subst e1
      rw [if_pos rfl]
      cases hv : Dict.get? d "id" with
      | none => exact .inl ⟨rfl, rfl⟩
      | some v => exact .inr ⟨v, v, rfl, rfl, rfl⟩
    rw [if_neg e1, hyg]
    by_cases e3 : k = ".type" ∨ k = ".name"
    · rw [if_pos e3]
      left
      refine ⟨rfl, ?_⟩
      rcases e3 with rfl | rfl <;> exact h.options.dotless (by decide) (by decide)
    · rw [if_neg e3]
      have : switchItem n d k = Dict.get? d k := by
        simp only [not_or] at e3
        unfold switchItem
        rw [if_neg e0, if_neg e3.2, if_neg e3.1, if_neg e1]
      rw [this]
      cases hv : Dict.get? d k with
      | none => exact .inl ⟨rfl, rfl⟩
      | some v =>
        obtain ⟨r, s1, s2⟩ := survives_spec (h.options.options k v hv (by simp [e0, e1])).2.2
        exact .inr ⟨r, v, by simp [s1], rfl, s2⟩)
  have hog : ∀ k, Dict.get? out k = if k = "vlan" then none else Dict.get? d k := fun k => (ho2 k).trans (Dict.get?_erase' _ _ _)
  refine ⟨out, hog, ?_⟩
  unfold switchBack
  rw [popKey_ok gname]
  simp only [bind, Except.bind]
  rw [popKey_ok (v := .str "switch") (by rw [Dict.get?_erase', if_neg (by decide)]; exact gtype), hy]
  simp only [hres, if_true]
  rw [getKey_ok gn]
  simp only [hz, ho1]
  rw [getKey_ok (v := .str n) (by rw [hog]; simpa using h.name.1)]
  simp [Dict.get?, Dict.set, pure, Except.pure]

/-! ## All the switches -/

theorem Dict.set_set {α : Type} (d : Dict String α) (k : String) (a b : α) : Dict.set (Dict.set d k a) k b = Dict.set d k b := by
  induction d with
  | nil => simp [Dict.set]
  | cons p r ih =>
    obtain ⟨k', v⟩ := p
    by_cases e : k' = k <;> simp [Dict.set, e, ih]

theorem addVlan_at (done rest : List Val) (s : VDict) (r : VDict) :
    addVlan (done ++ .dict s :: rest) done.length r = done ++ .dict (appendTo s "vlan" [.dict r]) :: rest := by
  unfold addVlan
  induction done with
  | nil => rfl
  | cons x xs ih => simp only [List.cons_append, List.length_cons, List.modify_succ_cons, ih]

/-- the switch with VLANs appended -/
def withVlans (s : VDict) (l : List VDict) : VDict := if l = [] then s else appendTo s "vlan" (l.map .dict)

theorem appendTo_twice (s : VDict) (a b : List Val) (ha : Dict.get? s "vlan" = none ∨ ∃ l, Dict.get? s "vlan" = some (.list l)) :
    appendTo (appendTo s "vlan" a) "vlan" b = appendTo s "vlan" (a ++ b) := by
  have key : ∀ l : List Val, appendTo (Dict.set s "vlan" (.list l)) "vlan" b = Dict.set s "vlan" (.list (l ++ b)) := by
    intro l
    unfold appendTo
    simp [Dict.get?_set', Dict.set_set]
  unfold appendTo
  rcases ha with e | ⟨l, e⟩
  · simp only [e]; exact key a
  · simp only [e]; rw [← List.append_assoc]; exact key (l ++ a)

theorem withVlans_cons (s r : VDict) (rs : List VDict) (ha : Dict.get? s "vlan" = none ∨ ∃ l, Dict.get? s "vlan" = some (.list l)) :
    withVlans (appendTo s "vlan" [.dict r]) rs = withVlans s (r :: rs) := by
  unfold withVlans
  cases rs with
  | nil => rfl
  | cons x xs => rw [if_neg (by simp), if_neg (by simp), appendTo_twice s _ _ ha]; rfl

theorem skip_switch {b : VDict} (env : Env) (hp : PlainBlock b) {t : String} (h : Dict.get? b ".type" = some (.str t)) (ht : t ∈ ["switch", "switch_vlan"]) :
    skipBlock (some ["switch", "switch_vlan"]) (blockBack env.reprC b) = false :=
  skip_of_type (t := t) (by rw [get?_blockBack _ hp, if_pos (.inl rfl), h]) ht

def VlanBlockOf (n : String) (i : Nat) (d b : VDict) : Prop := (Dict.keys b).Nodup ∧ ∀ k, Dict.get? b k = vlanItem n i d k

/-- the VLANs of one switch -/
theorem vlans_back (env : Env) {n : String} (hn : IsWord n.toList) (c : Nat) (vl bs : List VDict) (i : Nat) (h : ∀ v ∈ vl, VlanOK n v)
    (hb : Forall2Idx (VlanBlockOf n) (i + 1) vl bs)
    (map : Dict Val Nat) (done rest : List Val) (s : VDict) (hs : Dict.get? s "vlan" = none ∨ ∃ l, Dict.get? s "vlan" = some (.list l))
    (hm : Dict.get? map (.str n) = some done.length) (j : Nat) :
    ∃ rs : List VDict, Forall2Idx (fun i d r => ∀ k, Dict.get? r k = vlanReturned n i (c + i) d k) (i + 1) vl rs ∧
      backFold (some ["switch", "switch_vlan"]) (switchBack env) j (bs.map (blockBack env.reprC)) ((c + i, map), [("switch", .list (done ++ .dict s :: rest))]) =
        .ok ((c + i + vl.length, map), [("switch", .list (done ++ .dict (withVlans s rs) :: rest))]) := by
  induction vl generalizing i bs s j with
  | nil =>
    cases bs with
    | nil => exact ⟨[], trivial, rfl⟩
    | cons b bs => cases hb
  | cons v vs ih =>
    cases bs with
    | nil => cases hb
    | cons b bs =>
      obtain ⟨⟨hb1, hb2⟩, hb3⟩ := hb
      have hv := h v (by simp)
      obtain ⟨r, hr1, hr2⟩ := vlan_back env (c := c + i) hn hv hb1 hb2 map (done ++ .dict s :: rest) done.length hm j
      have hs2 : ∃ l, Dict.get? (appendTo s "vlan" [.dict r]) "vlan" = some (.list l) := by
        unfold appendTo
        rcases hs with e | ⟨l, e⟩ <;> simp [e, Dict.get?_set']
      obtain ⟨rs, i1, i2⟩ := ih bs (i + 1) (fun x hx => h x (by simp [hx])) hb3 (appendTo s "vlan" [.dict r]) (.inr hs2) (j + 1)
      refine ⟨r :: rs, ⟨hr1, i1⟩, ?_⟩
      rw [List.map_cons, backFold, if_neg (by
        rw [skip_switch env (vlan_plain hn hv hb1 hb2) (t := "switch_vlan") (by rw [hb2]; rfl) (by simp)]; simp), hr2]
      show backFold _ _ _ _ _ = _
      rw [addVlan_at, show c + i + 1 = c + (i + 1) by omega, i2, withVlans_cons _ _ _ hs]
      have : c + (i + 1) + vs.length = c + i + (v :: vs).length := by simp; omega
      rw [this]

/-- what the switch becomes: its section and those of its VLANs -/
structure SwitchBlocksOf (x : VDict × String × List VDict) (y : VDict × List VDict) : Prop where
  nodup : (Dict.keys y.1).Nodup
  switch : ∀ k, Dict.get? y.1 k = switchItem x.2.1 x.1 k
  vlans : Forall2Idx (VlanBlockOf x.2.1) 1 x.2.2 y.2

/-- the sections of a switch -/
def flatBlocks (y : VDict × List VDict) : List VDict := y.1 :: y.2

theorem switch_fwd_list (env : Env) (xs : List (VDict × String × List VDict)) (h : ∀ x ∈ xs, SwitchOK x.1 x.2.1 x.2.2) :
    ∃ ys : List (VDict × List VDict), List.Forall₂ SwitchBlocksOf xs ys ∧ ∀ (i : Nat) (done : List Val),
      fwdList (switchFwd env) i [("network", .list done)] (xs.map (fun x => .dict x.1)) = .ok [("network", .list (done ++ (ys.flatMap flatBlocks).map .dict))] := by
  induction xs with
  | nil => exact ⟨[], .nil, fun i done => by simp [fwdList]⟩
  | cons x xs ih =>
    obtain ⟨ys, i1, i2⟩ := ih (fun y hy => h y (by simp [hy]))
    obtain ⟨sb, bs, h1, h2, h3, h4⟩ := switch_blocks env (h x (by simp))
    refine ⟨(sb, bs) :: ys, .cons ⟨h2, h3, h4⟩ i1, fun i done => ?_⟩
    rw [List.map_cons, fwdList]
    have : switchFwd env (some i) (.dict x.1) [("network", .list done)] = .ok (appendTo [("network", .list done)] "network" (.dict sb :: bs.map .dict)) := by
      unfold switchFwd
      simp only [asDict, bind, Except.bind, h1]
      rfl
    rw [this]
    show fwdList _ _ _ _ = _
    rw [appendTo_one, i2]
    simp [flatBlocks]

theorem switch_fwd (env : Env) (config : VDict) (xs : List (VDict × String × List VDict)) (hne : xs ≠ []) (h : ∀ x ∈ xs, SwitchOK x.1 x.2.1 x.2.2)
    (hk : Dict.get? config "switch" = some (.list (xs.map (fun x => .dict x.1)))) :
    ∃ ys : List (VDict × List VDict), List.Forall₂ SwitchBlocksOf xs ys ∧
      fwd "switch" (switchFwd env) config = .ok [("network", .list ((ys.flatMap flatBlocks).map .dict))] := by
  cases xs with
  | nil => exact absurd rfl hne
  | cons x xs =>
    obtain ⟨ys, i1, i2⟩ := switch_fwd_list env xs (fun y hy => h y (by simp [hy]))
    obtain ⟨sb, bs, h1, h2, h3, h4⟩ := switch_blocks env (h x (by simp))
    refine ⟨(sb, bs) :: ys, .cons ⟨h2, h3, h4⟩ i1, ?_⟩
    unfold fwd
    simp only [hk, Option.getD_some, List.map_cons]
    rw [fwdList]
    have : switchFwd env (some 1) (.dict x.1) [] = .ok (appendTo [] "network" (.dict sb :: bs.map .dict)) := by
      unfold switchFwd
      simp only [asDict, bind, Except.bind, h1]
      rfl
    rw [this]
    show fwdList _ _ _ _ = _
    rw [appendTo_nil, i2]
    simp [flatBlocks]

/-- the first phase of the way back: the switches, without VLANs -/
theorem phase1 (env : Env) (xs : List (VDict × String × List VDict)) (ys : List (VDict × List VDict)) (h : ∀ x ∈ xs, SwitchOK x.1 x.2.1 x.2.2)
    (hxy : List.Forall₂ SwitchBlocksOf xs ys) (hnames : (xs.map (fun x => x.2.1)).Nodup) (map : Dict Val Nat) (sw : List Val) (j : Nat) :
    ∃ (ss : List VDict) (map' : Dict Val Nat), List.Forall₂ (fun (x : VDict × String × List VDict) s => ∀ k, Dict.get? s k = if k = "vlan" then none else Dict.get? x.1 k) xs ss ∧
      (∀ n, n ∉ xs.map (fun x => x.2.1) → Dict.get? map' (.str n) = Dict.get? map (.str n)) ∧
      (∀ i (hi : i < xs.length), Dict.get? map' (.str xs[i].2.1) = some (sw.length + i)) ∧
      backFold (some ["switch", "switch_vlan"]) (switchBack env) j (ys.map (fun y => blockBack env.reprC y.1)) ((0, map), [("switch", .list sw)]) =
        .ok ((0, map'), [("switch", .list (sw ++ ss.map .dict))]) := by
  induction hxy generalizing map sw j with
  | nil => exact ⟨[], map, .nil, fun _ _ => rfl, fun i hi => absurd hi (by simp), by simp [backFold]⟩
  | @cons x y xs ys hx hxs ih =>
    have hok := h x (by simp)
    obtain ⟨s, s1, s2⟩ := switch_back env hok hx.nodup hx.switch 0 map [("switch", .list sw)] sw j (by rw [appendTo_one]; simp)
    simp only [List.map_cons, List.nodup_cons] at hnames
    obtain ⟨ss, map', i1, i2, i3, i4⟩ := ih (fun y hy => h y (by simp [hy])) hnames.2 (Dict.set map (.str x.2.1) sw.length) (sw ++ [.dict s]) (j + 1)
    have hget : ∀ k : Val, Dict.get? (Dict.set map (.str x.2.1) sw.length) k = if k = .str x.2.1 then some sw.length else Dict.get? map k := by
      intro k; rw [Dict.get?_set']
    refine ⟨s :: ss, map', .cons s1 i1, ?_, ?_, ?_⟩
    · intro n hn
      simp only [List.map_cons, List.mem_cons, not_or] at hn
      rw [i2 n hn.2, hget, if_neg (by simpa using hn.1)]
    · intro i hi
      cases i with
      | zero =>
        show Dict.get? map' (.str x.2.1) = _
        rw [i2 _ hnames.1, hget, if_pos rfl]; rfl
      | succ i =>
        have := i3 i (by simpa using hi)
        simp only [List.getElem_cons_succ]
        rw [this]; simp; omega
    · rw [List.map_cons, backFold, if_neg (by
        rw [skip_switch env (switch_plain hok hx.nodup hx.switch) (t := "switch") (by rw [hx.switch]; rfl) (by simp)]; simp), s2]
      show backFold _ _ _ _ _ = _
      rw [i4]
      simp

/-- What comes back of the switches, when `c` VLANs come before: the same options and the same VLANs, whose identifiers are
there when the name of the section is not the automatic one for its number among all the VLANs of the configuration. -/
def SwitchesBack : Nat → List (VDict × String × List VDict) → List VDict → Prop
  | _, [], [] => True
  | c, x :: xs, o :: os => (∀ k, k ≠ "vlan" → Dict.get? o k = Dict.get? x.1 k) ∧
      (∃ rs : List VDict, Dict.get? o "vlan" = some (.list (rs.map .dict)) ∧
        Forall2Idx (fun i d r => ∀ k, Dict.get? r k = vlanReturned x.2.1 i (c + i) d k) 1 x.2.2 rs) ∧
      SwitchesBack (c + x.2.2.length) xs os
  | _, _, _ => False

/-- the second phase: the VLANs -/
theorem phase2 (env : Env) (xs : List (VDict × String × List VDict)) (ys : List (VDict × List VDict)) (h : ∀ x ∈ xs, SwitchOK x.1 x.2.1 x.2.2)
    (hxy : List.Forall₂ SwitchBlocksOf xs ys) (ss : List VDict)
    (hss : List.Forall₂ (fun (x : VDict × String × List VDict) s => ∀ k, Dict.get? s k = if k = "vlan" then none else Dict.get? x.1 k) xs ss)
    (map : Dict Val Nat) (done : List Val) (hmap : ∀ i (hi : i < xs.length), Dict.get? map (.str xs[i].2.1) = some (done.length + i)) (c j : Nat) :
    ∃ (os : List VDict) (c' : Nat), SwitchesBack c xs os ∧
      backFold (some ["switch", "switch_vlan"]) (switchBack env) j ((ys.flatMap (fun y => y.2)).map (blockBack env.reprC)) ((c, map), [("switch", .list (done ++ ss.map .dict))]) =
        .ok ((c', map), [("switch", .list (done ++ os.map .dict))]) := by
  induction hxy generalizing ss done c j with
  | nil =>
    cases hss
    exact ⟨[], c, trivial, by simp [backFold]⟩
  | @cons x y xs ys hx hxs ih =>
    cases hss with
    | @cons _ s _ ss hs hss =>
      have hok := h x (by simp)
      have hm0 : Dict.get? map (.str x.2.1) = some done.length := by
        have := hmap 0 (by simp)
        simpa using this
      obtain ⟨rs, r1, r2⟩ := vlans_back env hok.name.2 c x.2.2 y.2 0 hok.vlans.2.2 hx.vlans map done (ss.map .dict) s
        (.inl (by rw [hs]; simp)) hm0 j
      have hrs : rs ≠ [] := by
        rintro rfl
        cases hv : x.2.2 with
        | nil => exact hok.vlans.2.1 hv
        | cons v vs => rw [hv] at r1; exact r1
      obtain ⟨os, c', i1, i2⟩ := ih (fun y hy => h y (by simp [hy])) ss hss (done ++ [.dict (withVlans s rs)]) (by
        intro i hi
        have := hmap (i + 1) (by simpa using hi)
        simp only [List.getElem_cons_succ] at this
        rw [this]; simp; omega) (c + x.2.2.length) (j + y.2.length)
      refine ⟨withVlans s rs :: os, c', ⟨fun k hk => ?_, ⟨rs, ?_, r1⟩, i1⟩, ?_⟩
      · unfold withVlans appendTo
        rw [if_neg hrs]
        have : Dict.get? s "vlan" = none := by rw [hs]; simp
        simp only [this]
        rw [Dict.get?_set', if_neg hk, hs, if_neg hk]
      · unfold withVlans appendTo
        rw [if_neg hrs]
        have : Dict.get? s "vlan" = none := by rw [hs]; simp
        simp only [this]
        rw [Dict.get?_set', if_pos rfl]
      · rw [List.flatMap_cons, List.map_append]
        simp only [List.map_cons]
        rw [Nat.add_zero] at r2
        rw [backFold_append _ _ _ _ _ _ _ r2]
        simp only [List.append_assoc, List.cons_append, List.nil_append, Nat.add_zero, List.length_map] at i2 ⊢
        exact i2

/-- whether a block is a VLAN of a switch -/
def isSwitchVlan (v : Val) : Bool := match v with
  | .dict d => Dict.get? d ".type" == some (.str "switch_vlan")
  | _ => false

theorem switch_parts (env : Env) (xs : List (VDict × String × List VDict)) (ys : List (VDict × List VDict)) (h : ∀ x ∈ xs, SwitchOK x.1 x.2.1 x.2.2)
    (hxy : List.Forall₂ SwitchBlocksOf xs ys) :
    (((ys.flatMap flatBlocks).map (blockBack env.reprC)).map Val.dict).filter (fun v => !isSwitchVlan v) =
        (ys.map (fun y => blockBack env.reprC y.1)).map Val.dict ∧
      (((ys.flatMap flatBlocks).map (blockBack env.reprC)).map Val.dict).filter isSwitchVlan =
        ((ys.flatMap (fun y => y.2)).map (blockBack env.reprC)).map Val.dict := by
  have hsw : ∀ y ∈ ys, Dict.get? (blockBack env.reprC y.1) ".type" = some (.str "switch") := by
    intro y hy
    induction hxy with
    | nil => cases hy
    | @cons x y' xs ys hx hxs ih =>
      rcases List.mem_cons.1 hy with rfl | hy
      · rw [get?_blockBack _ (switch_plain (h x (by simp)) hx.nodup hx.switch), if_pos (.inl rfl), hx.switch]; rfl
      · exact ih (fun y hy => h y (by simp [hy])) hy
  have hvl : ∀ y ∈ ys, ∀ b ∈ y.2, Dict.get? (blockBack env.reprC b) ".type" = some (.str "switch_vlan") := by
    intro y hy
    induction hxy with
    | nil => cases hy
    | @cons x y' xs ys hx hxs ih =>
      rcases List.mem_cons.1 hy with rfl | hy
      · have hok := h x (by simp)
        have : ∀ (i : Nat) (vl bs : List VDict), (∀ v ∈ vl, VlanOK x.2.1 v) → Forall2Idx (VlanBlockOf x.2.1) i vl bs →
            ∀ b ∈ bs, Dict.get? (blockBack env.reprC b) ".type" = some (.str "switch_vlan") := by
          intro i vl
          induction vl generalizing i with
          | nil => intro bs _ hb b hbm; cases bs with
            | nil => cases hbm
            | cons _ _ => cases hb
          | cons v vs ihv =>
            intro bs hv hb b hbm
            cases bs with
            | nil => cases hbm
            | cons b' bs =>
              rcases List.mem_cons.1 hbm with rfl | hbm
              · rw [get?_blockBack _ (vlan_plain hok.name.2 (hv v (by simp)) hb.1.1 hb.1.2), if_pos (.inl rfl), hb.1.2]; rfl
              · exact ihv (i + 1) bs (fun x hx => hv x (by simp [hx])) hb.2 b hbm
        exact this 1 _ _ hok.vlans.2.2 hx.vlans
      · exact ih (fun y hy => h y (by simp [hy])) (fun z hz => hsw z (by simp [hz])) hy
  have key : ∀ ys : List (VDict × List VDict), (∀ y ∈ ys, Dict.get? (blockBack env.reprC y.1) ".type" = some (.str "switch")) →
      (∀ y ∈ ys, ∀ b ∈ y.2, Dict.get? (blockBack env.reprC b) ".type" = some (.str "switch_vlan")) →
      ((((ys.flatMap flatBlocks).map (blockBack env.reprC)).map Val.dict).filter (fun v => !(match v with
        | .dict d => Dict.get? d ".type" == some (.str "switch_vlan")
        | _ => false)) = (ys.map (fun y => blockBack env.reprC y.1)).map Val.dict) ∧
      ((((ys.flatMap flatBlocks).map (blockBack env.reprC)).map Val.dict).filter (fun v => (match v with
        | .dict d => Dict.get? d ".type" == some (.str "switch_vlan")
        | _ => false)) = ((ys.flatMap (fun y => y.2)).map (blockBack env.reprC)).map Val.dict) := by
    intro ys
    induction ys with
    | nil => intro _ _; exact ⟨rfl, rfl⟩
    | cons y ys ih =>
      intro h1 h2
      obtain ⟨i1, i2⟩ := ih (fun z hz => h1 z (by simp [hz])) (fun z hz => h2 z (by simp [hz]))
      have a1 := h1 y (by simp)
      have a2 := h2 y (by simp)
      simp only [List.flatMap_cons, flatBlocks, List.cons_append, List.map_cons, List.map_append, List.filter_cons, List.filter_append, a1]
      constructor
      · rw [i1]
        rw [List.filter_eq_nil_iff.2 (by
          intro v hv
          obtain ⟨b, hb, rfl⟩ := List.mem_map.1 hv
          obtain ⟨b', hb', rfl⟩ := List.mem_map.1 hb
          simp [a2 b' hb'])]
        simp
      · rw [i2]
        rw [List.filter_eq_self.2 (by
          intro v hv
          obtain ⟨b, hb, rfl⟩ := List.mem_map.1 hv
          obtain ⟨b', hb', rfl⟩ := List.mem_map.1 hb
          simp [a2 b' hb'])]
        simp
  exact key ys hsw hvl

theorem switchClean_flat (env : Env) (xs : List (VDict × String × List VDict)) (ys : List (VDict × List VDict)) (h : ∀ x ∈ xs, SwitchOK x.1 x.2.1 x.2.2)
    (hxy : List.Forall₂ SwitchBlocksOf xs ys) :
    switchClean (((ys.flatMap flatBlocks).map (blockBack env.reprC)).map .dict) =
      ((ys.map (fun y => blockBack env.reprC y.1)) ++ (ys.flatMap (fun y => y.2)).map (blockBack env.reprC)).map .dict := by
  obtain ⟨k1, k2⟩ := switch_parts env xs ys h hxy
  unfold switchClean
  rw [List.map_append]
  exact congrArg₂ (· ++ ·) k1 k2

theorem switch_all_plain {xs : List (VDict × String × List VDict)} {ys : List (VDict × List VDict)} (h : ∀ x ∈ xs, SwitchOK x.1 x.2.1 x.2.2)
    (hxy : List.Forall₂ SwitchBlocksOf xs ys) : ∀ b ∈ ys.flatMap flatBlocks, PlainBlock b := by
  induction hxy with
  | nil => simp
  | @cons x y xs ys hx hxs ih =>
    intro b hb
    have hok := h x (by simp)
    rw [List.flatMap_cons, List.mem_append] at hb
    rcases hb with hb | hb
    · rcases List.mem_cons.1 hb with rfl | hb
      · exact switch_plain hok hx.nodup hx.switch
      · have : ∀ (i : Nat) (vl bs : List VDict), (∀ v ∈ vl, VlanOK x.2.1 v) → Forall2Idx (VlanBlockOf x.2.1) i vl bs → ∀ b ∈ bs, PlainBlock b := by
          intro i vl
          induction vl generalizing i with
          | nil => intro bs _ hb b hbm; cases bs with
            | nil => cases hbm
            | cons _ _ => cases hb
          | cons v vs ihv =>
            intro bs hv hb b hbm
            cases bs with
            | nil => cases hbm
            | cons b' bs =>
              rcases List.mem_cons.1 hbm with rfl | hbm
              · exact vlan_plain hok.name.2 (hv v (by simp)) hb.1.1 hb.1.2
              · exact ihv (i + 1) bs (fun x hx => hv x (by simp [hx])) hb.2 b hbm
        exact this 1 _ _ hok.vlans.2.2 hx.vlans b hb
    · exact ih (fun y hy => h y (by simp [hy])) b hb

/-- **C44.** Switches with different names, each with at least one VLAN, whose settings survive, written as UCI text and read
back: the same switches in the same order, each with the same VLANs. -/
theorem C44_round_trip (env : Env) (config : VDict) (xs : List (VDict × String × List VDict)) (hne : xs ≠ [])
    (hnames : (xs.map (fun x => x.2.1)).Nodup) (h : ∀ x ∈ xs, SwitchOK x.1 x.2.1 x.2.2)
    (hk : Dict.get? config "switch" = some (.list (xs.map (fun x => .dict x.1)))) :
    ∃ os : List VDict, viaText env.reprC (switchConv env) (switchBConv env) config = .ok [("switch", .list (os.map .dict))] ∧ SwitchesBack 0 xs os := by
  obtain ⟨ys, hxy, hf⟩ := switch_fwd env config xs hne h hk
  have hplain := switch_all_plain h hxy
  obtain ⟨t, ht1, ht2⟩ := text_back env.reprC [("network", ys.flatMap flatBlocks)] (by simp) (by simp; decide) (by simpa using hplain)
  cases hxy with
  | nil => exact absurd rfl hne
  | @cons x y xs ys hx hxs =>
    have hok := h x (by simp)
    have hclean := switchClean_flat env (x :: xs) (y :: ys) h (.cons hx hxs)
    obtain ⟨s, s1, s2⟩ := switch_back env hok hx.nodup hx.switch 0 [] [] [] 1 rfl
    simp only [List.map_cons, List.nodup_cons] at hnames
    obtain ⟨ss, map', i1, i2, i3, i4⟩ := phase1 env xs ys (fun y hy => h y (by simp [hy])) hxs hnames.2 (Dict.set [] (.str x.2.1) 0) [.dict s] 2
    obtain ⟨os, c', p1, p2⟩ := phase2 env (x :: xs) (y :: ys) h (.cons hx hxs) (s :: ss) (.cons s1 i1) map' [] (by
      intro i hi
      cases i with
      | zero =>
        show Dict.get? map' (.str x.2.1) = _
        rw [i2 _ hnames.1]; simp [Dict.set, Dict.get?]
      | succ i =>
        have := i3 i (by simpa using hi)
        simp only [List.getElem_cons_succ]
        rw [this]; simp; omega) 0 (1 + (ys.length + 1))
    refine ⟨os, ?_, p1⟩
    refine viaText_eq (inter := interOf [("network", (y :: ys).flatMap flatBlocks)]) (text := t) ?_ hf ht1 ht2 ?_ ?_
    · simp [switchConv, pureConv, Dict.has, hk]
    · simp [switchBConv, bwd, bwdG, Dict.has, interOf, Dict.get?]
    · unfold switchBConv bwd bwdG interOf
      simp only [List.map_cons, List.map_nil, Dict.get?, Option.getD_some]
      simp only [if_true, Option.getD_some]
      have hfold : backFold (some ["switch", "switch_vlan"]) (switchBack env) 1
          (((y :: ys).map (fun y => blockBack env.reprC y.1)) ++ ((y :: ys).flatMap (fun y => y.2)).map (blockBack env.reprC)) ((0, []), []) =
          .ok ((c', map'), [("switch", .list (os.map .dict))]) := by
        have f1 : backFold (some ["switch", "switch_vlan"]) (switchBack env) 1 ((y :: ys).map (fun y => blockBack env.reprC y.1)) ((0, []), []) =
            .ok ((0, map'), [("switch", .list ((s :: ss).map .dict))]) := by
          rw [List.map_cons, backFold, if_neg (by
            rw [skip_switch env (switch_plain hok hx.nodup hx.switch) (t := "switch") (by rw [hx.switch]; rfl) (by simp)]; simp), s2]
          exact i4
        rw [backFold_append _ _ _ _ _ _ _ f1]
        simpa [Nat.add_comm, Nat.add_assoc] using p2
      rw [hclean, bwdLoop_eq _ _ _ _ _ _ _ hfold]
      rfl

/-- **C44, one switch.** One switch whose VLANs have no identifier, or one that is not the automatic name, comes back exactly. -/
theorem C44_one_switch (env : Env) (config d : VDict) (n : String) (vl : List VDict) (h : SwitchOK d n vl)
    (hk : Dict.get? config "switch" = some (.list [.dict d]))
    (hid : AllIdx (fun i v => Dict.get? v "id" ≠ some (.str (vlanAuto n i))) 1 vl) :
    ∃ (o : VDict) (rs : List VDict), viaText env.reprC (switchConv env) (switchBConv env) config = .ok [("switch", .list [.dict o])] ∧
      (∀ k, k ≠ "vlan" → Dict.get? o k = Dict.get? d k) ∧ Dict.get? o "vlan" = some (.list (rs.map .dict)) ∧ List.Forall₂ SameItems rs vl := by
  obtain ⟨os, h1, h2⟩ := C44_round_trip env config [(d, n, vl)] (by simp) (by simp) (by simpa using h) (by simpa using hk)
  cases os with
  | nil => cases h2
  | cons o os =>
    cases os with
    | cons _ _ => cases h2.2.2
    | nil =>
      obtain ⟨a1, ⟨rs, a2, a3⟩, _⟩ := h2
      refine ⟨o, rs, h1, a1, a2, ?_⟩
      have hv := h.vlans.2.2
      clear h h1 a1 a2 hk
      simp only at a3
      have key : ∀ (vl rs : List VDict) (i : Nat), (∀ v ∈ vl, VlanOK n v) → AllIdx (fun i v => Dict.get? v "id" ≠ some (.str (vlanAuto n i))) i vl →
          Forall2Idx (fun i d r => ∀ k, Dict.get? r k = vlanReturned n i (0 + i) d k) i vl rs → List.Forall₂ SameItems rs vl := by
        intro vl
        induction vl with
        | nil => intro rs i _ _ hr; cases rs with
          | nil => exact .nil
          | cons _ _ => cases hr
        | cons v vs ih =>
          intro rs i hv hi hr
          cases rs with
          | nil => cases hr
          | cons r rs =>
            refine .cons (fun k => ?_) (ih rs (i + 1) (fun x hx => hv x (by simp [hx])) hi.2 hr.2)
            rw [hr.1 k]
            unfold vlanReturned
            split
            · next e =>
              subst e
              unfold vlanName
              rcases (hv v (by simp)).id with e | ⟨s, e, _⟩
              · rw [e]; simp
              · have : Dict.get? v "id" ≠ some (.str (vlanAuto n i)) := hi.1
                rw [e] at this ⊢
                simp only [ne_eq, Option.some.injEq, Val.str.injEq] at this
                simp [this]
            · rfl
      exact key vl rs 1 hv hid a3

/-! ## Cases and boundaries -/

def sampleVlan (dev : String) (n : Int) (ports : String) : VDict := [("device", .str dev), ("vlan", .int n), ("ports", .str ports)]

def sampleSwitch (n : String) (vl : List VDict) : VDict :=
  [("name", .str n), ("reset", .bool true), ("enable_vlan", .bool true), ("vlan", .list (vl.map .dict))]

theorem sampleVlan_ok (dev ports : String) (n : Int) (h : optionsB vlanProps ["id", "vid"] (sampleVlan dev n ports) = true) :
    VlanOK dev (sampleVlan dev n ports) :=
  ⟨optionsB_sound h, rfl, ⟨n, rfl, .inl rfl⟩, .inl rfl⟩

theorem sampleVlanId_ok (dev ports s : String) (n v : Int) (h : optionsB vlanProps ["id", "vid"] (("id", .str s) :: ("vid", .int v) :: sampleVlan dev n ports) = true)
    (hs : IsWord s.toList) (hv : v ≠ n) : VlanOK dev (("id", .str s) :: ("vid", .int v) :: sampleVlan dev n ports) :=
  ⟨optionsB_sound h, rfl, ⟨n, rfl, .inr ⟨v, rfl, hv⟩⟩, .inr ⟨s, rfl, hs⟩⟩

def sampleVlans0 : List VDict := [sampleVlan "switch0" 1 "0t 2 3", ("id", .str "lan2") :: ("vid", .int 20) :: sampleVlan "switch0" 2 "0t 1"]
def sampleVlans1 : List VDict := [sampleVlan "switch1" 1 "0t"]

theorem sampleSwitch0_ok : SwitchOK (sampleSwitch "switch0" sampleVlans0) "switch0" sampleVlans0 :=
  ⟨optionsB_sound (by decide +kernel), ⟨rfl, by decide⟩, .inl rfl, rfl, by decide, by
    intro v hv
    simp only [sampleVlans0, List.mem_cons, List.not_mem_nil, or_false] at hv
    rcases hv with rfl | rfl
    · exact sampleVlan_ok _ _ _ (by decide +kernel)
    · exact sampleVlanId_ok _ _ _ _ _ (by decide +kernel) (by decide) (by decide)⟩

theorem sampleSwitch1_ok : SwitchOK (sampleSwitch "switch1" sampleVlans1) "switch1" sampleVlans1 :=
  ⟨optionsB_sound (by decide +kernel), ⟨rfl, by decide⟩, .inl rfl, rfl, by decide, by
    intro v hv
    simp only [sampleVlans1, List.mem_cons, List.not_mem_nil, or_false] at hv
    rcases hv with rfl
    exact sampleVlan_ok _ _ _ (by decide +kernel)⟩

example : ∃ os : List VDict, viaText sampleEnv.reprC (switchConv sampleEnv) (switchBConv sampleEnv)
    [("switch", .list [.dict (sampleSwitch "switch0" sampleVlans0), .dict (sampleSwitch "switch1" sampleVlans1)])] = .ok [("switch", .list (os.map .dict))] ∧
    SwitchesBack 0 [(sampleSwitch "switch0" sampleVlans0, "switch0", sampleVlans0), (sampleSwitch "switch1" sampleVlans1, "switch1", sampleVlans1)] os :=
  C44_round_trip sampleEnv _ _ (by simp) (by simp) (by
    intro x hx
    simp only [List.mem_cons, List.not_mem_nil, or_false] at hx
    rcases hx with rfl | rfl
    · exact sampleSwitch0_ok
    · exact sampleSwitch1_ok) rfl

example : ∃ (o : VDict) (rs : List VDict), viaText sampleEnv.reprC (switchConv sampleEnv) (switchBConv sampleEnv)
    [("switch", .list [.dict (sampleSwitch "switch0" sampleVlans0)])] = .ok [("switch", .list [.dict o])] ∧
      (∀ k, k ≠ "vlan" → Dict.get? o k = Dict.get? (sampleSwitch "switch0" sampleVlans0) k) ∧ Dict.get? o "vlan" = some (.list (rs.map .dict)) ∧
      List.Forall₂ SameItems rs sampleVlans0 :=
  C44_one_switch sampleEnv _ _ _ _ sampleSwitch0_ok rfl ⟨by decide, by decide, trivial⟩

/-- the identifiers of the VLANs of the switches of a configuration -/
def vlanIds (config : VDict) : List (List (Option Val)) :=
  match Dict.get? config "switch" with
  | some (.list l) => l.map (fun s => match s with
    | .dict d => (match Dict.get? d "vlan" with
      | some (.list vs) => vs.map (fun v => match v with
        | .dict v => Dict.get? v "id"
        | _ => none)
      | _ => [])
    | _ => [])
  | _ => []

/-- **C44, why one switch.** With two switches the VLANs of the second, which had no identifier, come back with one: the VLANs
are counted through all the switches on the way back and for each switch on the way out. -/
theorem C44_needs_one_switch :
    let config : VDict := [("switch", .list [.dict (sampleSwitch "switch0" sampleVlans0), .dict (sampleSwitch "switch1" sampleVlans1)])]
    vlanIds config = [[none, some (.str "lan2")], [none]] ∧
    (viaText sampleEnv.reprC (switchConv sampleEnv) (switchBConv sampleEnv) config).map vlanIds =
      .ok [[none, some (.str "lan2")], [some (.str "switch1_vlan1")]] := by
  decide +kernel

/-- **C44, why a VLAN.** A switch with an empty list of VLANs comes back without the list, which the schema requires. -/
theorem C44_needs_vlan :
    viaText sampleEnv.reprC (switchConv sampleEnv) (switchBConv sampleEnv) [("switch", .list [.dict (sampleSwitch "switch0" [])])] =
      .ok [("switch", .list [.dict [("enable_vlan", .bool true), ("name", .str "switch0"), ("reset", .bool true)]])] := by
  decide +kernel

end NJ
