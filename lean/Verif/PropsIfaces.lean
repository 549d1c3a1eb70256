import Verif.IfaceEth
import Verif.IfaceBridgeBack

/-!
# C73: interfaces survive UCI

Interfaces converted to UCI, written as text, parsed and converted back come back with all their options, in their order; see `IfaceComesBack`
for what is said of each of them.
-/

namespace NJ

/-- an interface of a configuration: its name, its network, its addresses; `options` is the interface itself -/
structure Iface where
  name : String
  network : Option String
  group : Group
  options : VDict

/-- the interfaces the theorem is about: Ethernet, loopback and bridges -/
def Iface.OK (env : Env) (dsa : Bool) (i : Iface) : Prop :=
  EthOK env i.name i.network i.group i.options ∨ ∃ members, BridgeOK env dsa i.name i.network i.group members i.options

/-- whether the interface needs a device of its own -/
def Iface.hasDevice (dsa : Bool) (i : Iface) : Bool :=
  dsa && (hasL2 i.options || decide (Dict.get? i.options "type" = some (.str "bridge")))

/-- The interfaces do not get into each other's way: names and names of sections are different, none is the name of the section of a device,
and no device has the name of another interface up to its first dot (or up to its last dot, if that interface has no device). -/
structure IfacesApart (dsa : Bool) (is : List Iface) : Prop where
  names : (is.map Iface.name).Nodup
  sections : (is.map (fun i => sectionName i.name i.network)).Nodup
  devices : ∀ i ∈ is, ∀ j ∈ is, j.hasDevice dsa = true → sectionName i.name i.network ≠ "device_".toList ++ sectionName j.name j.network
  dots : ∀ i ∈ is, ∀ j ∈ is, j.hasDevice dsa = true → '.' ∈ i.name.toList →
    j.name.toList ≠ (splitOn '.' i.name.toList).headD [] ∧ (i.hasDevice dsa = false → j.name.toList ≠ beforeLastDot i.name.toList)

/-- the unit of each interface -/
theorem units_exist {env : Env} {dsa : Bool} {config : VDict} {servers search : List String} (hdns : DnsOK config servers search) (is : List Iface)
    (h : ∀ i ∈ is, i.OK env dsa) :
    ∃ us, List.Forall₂ (fun (u : IUnit) (i : Iface) => UnitFor env dsa config servers search i.name i.network i.group (i.hasDevice dsa) i.options u) us is := by
  induction is with
  | nil => exact ⟨[], .nil⟩
  | cons i is ih =>
    obtain ⟨us, hus⟩ := ih (fun x hx => h x (by simp [hx]))
    have : ∃ u, UnitFor env dsa config servers search i.name i.network i.group (i.hasDevice dsa) i.options u := by
      rcases h i (by simp) with h1 | ⟨m, h1⟩
      · have e : i.hasDevice dsa = (dsa && hasL2 i.options) := by
          unfold Iface.hasDevice
          have : ¬ (some (.str (ethType i.name)) : Option Val) = some (.str "bridge") := by
            unfold ethType; split <;> decide
          rw [h1.type, decide_eq_false this, Bool.or_false]
        rw [e]
        exact eth_unit hdns h1
      · have e : i.hasDevice dsa = dsa := by
          unfold Iface.hasDevice
          rw [h1.type]
          simp
        rw [e]
        exact bridge_unit hdns h1
    obtain ⟨u, hu⟩ := this
    exact ⟨u :: us, .cons hu hus⟩

theorem forall₂_map_eq {α β γ : Type} {P : α → β → Prop} {f : α → γ} {g : β → γ} (h : ∀ a b, P a b → f a = g b) {as : List α} {bs : List β}
    (hf : List.Forall₂ P as bs) : as.map f = bs.map g := by
  induction hf with
  | nil => rfl
  | cons h1 _ ih => rw [List.map_cons, List.map_cons, ih, h _ _ h1]

theorem forall₂_mem {α β : Type} {P : α → β → Prop} {as : List α} {bs : List β} (hf : List.Forall₂ P as bs) {a : α} (ha : a ∈ as) :
    ∃ b ∈ bs, P a b := by
  induction hf with
  | nil => cases ha
  | cons h1 _ ih =>
    rcases List.mem_cons.1 ha with rfl | ha
    · exact ⟨_, by simp, h1⟩
    · obtain ⟨b, hb, hp⟩ := ih ha
      exact ⟨b, by simp [hb], hp⟩

theorem block_names_nodup {env : Env} {dsa : Bool} {config : VDict} {servers search : List String} {us : List IUnit} {is : List Iface}
    (hf : List.Forall₂ (fun (u : IUnit) (i : Iface) => UnitFor env dsa config servers search i.name i.network i.group (i.hasDevice dsa) i.options u) us is)
    (hs : (is.map (fun i => sectionName i.name i.network)).Nodup)
    (hd : ∀ i ∈ is, ∀ j ∈ is, j.hasDevice dsa = true → sectionName i.name i.network ≠ "device_".toList ++ sectionName j.name j.network) :
    ((us.flatMap IUnit.blocks).map nameKey).Nodup := by
  induction hf with
  | nil => simp
  | @cons u i us is h1 hrest ih =>
    rw [List.map_cons, List.nodup_cons] at hs
    rw [List.flatMap_cons, List.map_append, List.nodup_append]
    refine ⟨?_, ih hs.2 (fun x hx y hy => hd x (by simp [hx]) y (by simp [hy])), ?_⟩
    · unfold IUnit.blocks
      cases hD : u.D with
      | none => simp
      | some D =>
        have := hd i (by simp) i (by simp) (h1.deviceIff.1 (by rw [hD]; simp))
        simp only [List.map_cons, List.map_nil, h1.secKey, h1.devKey D hD, List.nodup_cons, List.mem_singleton, List.not_mem_nil, not_false_eq_true,
          List.nodup_nil, and_true]
        intro e
        exact this (txt_inj (by injection e with e; exact e.symm))
    · -- the names of a unit are not those of another
      have key : ∀ (v : IUnit) (j : Iface), UnitFor env dsa config servers search j.name j.network j.group (j.hasDevice dsa) j.options v →
          ∀ x ∈ v.blocks.map nameKey, x = .val (txt (sectionName j.name j.network)) ∨
            (j.hasDevice dsa = true ∧ x = .val (txt ("device_".toList ++ sectionName j.name j.network))) := by
        intro v j hv x hx
        unfold IUnit.blocks at hx
        cases hD : v.D with
        | none =>
          rw [hD] at hx
          simp only [List.map_cons, List.map_nil, List.mem_singleton] at hx
          rw [hx, hv.secKey]; exact .inl rfl
        | some D =>
          rw [hD] at hx
          simp only [List.map_cons, List.map_nil, List.mem_cons, List.not_mem_nil, or_false] at hx
          rcases hx with rfl | rfl
          · exact .inr ⟨hv.deviceIff.1 (by rw [hD]; simp), hv.devKey D hD⟩
          · exact .inl hv.secKey
      intro a ha b hb e
      subst e
      obtain ⟨y, hy, hb⟩ := List.mem_map.1 hb
      obtain ⟨v, hv, hy⟩ := List.mem_flatMap.1 hy
      obtain ⟨j, hj, hvj⟩ := forall₂_mem hrest hv
      have k1 := key u i h1 a ha
      have k2 := key v j hvj a (by rw [← hb]; exact List.mem_map_of_mem hy)
      have hij : sectionName i.name i.network ≠ sectionName j.name j.network := by
        intro e
        exact hs.1 (List.mem_map.2 ⟨j, hj, e.symm⟩)
      have inj : ∀ {a b : Chars}, LKey.val (txt a) = .val (txt b) → a = b := fun e => txt_inj (by injection e)
      rcases k1 with k1 | ⟨k0, k1⟩ <;> rcases k2 with k2 | ⟨k3, k2⟩ <;> rw [k1] at k2 <;> have k2 := inj k2
      · exact hij k2
      · exact hd i (by simp) j (by simp [hj]) k3 k2
      · exact hd j (by simp [hj]) i (by simp) k0 k2.symm
      · exact hij (List.append_cancel_left k2)

/-- **C73.** Interfaces come back from UCI, in order, with their options; the DNS servers and search domains come back once for each interface
that uses them; nothing else comes back. -/
theorem C73_interfaces {env : Env} {dsa : Bool} (sh : Val → Bool) {config : VDict} {servers search : List String} (hdns : DnsOK config servers search)
    {is : List Iface} (hne : is ≠ []) (hk : Dict.get? config "interfaces" = some (.list (is.map (fun i => Val.dict i.options))))
    (h : ∀ i ∈ is, i.OK env dsa) (ha : IfacesApart dsa is) :
    ∃ out rs, viaText env.reprC (ifacesConv sh env dsa) (ifacesBConv env dsa) config = .ok out ∧
      Dict.get? out "interfaces" = some (.list (rs.map .dict)) ∧
      List.Forall₂ (fun r (i : Iface) => IfaceComesBack env i.name i.network i.group r i.options) rs is ∧
      Dict.get? out "dns_servers" = listItem ((is.flatMap (fun i => serversOf servers i.group)).map .str) ∧
      Dict.get? out "dns_search" = listItem ((is.flatMap (fun i => searchOf search i.group)).map .str) ∧
      ∀ k, k ∉ ["interfaces", "dns_servers", "dns_search"] → Dict.get? out k = none := by
  obtain ⟨us, hus⟩ := units_exist (dsa := dsa) hdns is h
  have hok : ∀ u ∈ us, u.OK env dsa := by
    intro u hu
    obtain ⟨i, _, hi⟩ := forall₂_mem hus hu
    exact hi.ok
  have hnames : us.map IUnit.name = is.map Iface.name := forall₂_map_eq (fun u i hu => hu.nameEq) hus
  have hfwd : List.Forall₂ (fun (u : IUnit) (d : VDict) => ∀ result, ifaceFwd sh env dsa config ([], result) (.dict d) = addUnit sh u.D u.S result)
      us (is.map Iface.options) := by
    clear * - hus
    induction hus with
    | nil => exact .nil
    | cons h1 _ ih => exact .cons (fun result => h1.forward sh result) ih
  have hsep : Separate us := by
    intro u hu w hw hD hdot
    obtain ⟨i, hi, hui⟩ := forall₂_mem hus hu
    obtain ⟨j, hj, hwj⟩ := forall₂_mem hus hw
    have := ha.dots i hi j hj (hwj.deviceIff.1 hD) (by rw [← hui.nameEq]; exact hdot)
    rw [hui.nameEq, hwj.nameEq]
    refine ⟨this.1, fun hn => this.2 ?_⟩
    cases hd : i.hasDevice dsa with
    | false => rfl
    | true => exact absurd hn (hui.deviceIff.2 hd)
  refine ⟨_, us.map IUnit.r, units_round sh us (ds := is.map Iface.options) (by simpa using hne) (by rw [hk, List.map_map]; rfl) hfwd hok
    (by rw [hnames]; exact ha.names) hsep (block_names_nodup hus ha.sections ha.devices), ?_⟩
  have g := note_get us [] [] [] [] rfl rfl rfl
  refine ⟨?_, ?_, ?_, ?_, ?_⟩
  · rw [g, if_pos rfl, List.nil_append, List.map_map]
    unfold listItem
    rw [if_neg]
    · rfl
    · cases hus with
      | nil => exact absurd rfl hne
      | cons _ _ => simp
  · clear * - hus
    induction hus with
    | nil => exact .nil
    | cons h1 _ ih => exact .cons h1.back ih
  · rw [g]
    simp only [String.reduceEq, if_false, if_true, List.nil_append]
    congr 2
    clear * - hus
    induction hus with
    | nil => rfl
    | cons h1 _ ih => rw [List.flatMap_cons, List.flatMap_cons, ih, h1.serversEq]
  · rw [g]
    simp only [String.reduceEq, if_false, if_true, List.nil_append]
    congr 2
    clear * - hus
    induction hus with
    | nil => rfl
    | cons h1 _ ih => rw [List.flatMap_cons, List.flatMap_cons, ih, h1.searchEq]
  · intro k hk
    simp only [List.mem_cons, List.not_mem_nil, or_false, not_or] at hk
    rw [g, if_neg hk.1, if_neg hk.2.1, if_neg hk.2.2]
    rfl

end NJ
