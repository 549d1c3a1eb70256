import Verif.OpenWrtChecks
import Verif.PropsRadio

/-!
# C55, C56: the checks of the OpenWrt backend besides the schema
-/

namespace NJ

theorem list_forM_cons {α : Type} (f : α → Except PyErr Unit) (x : α) (xs : List α) : (x :: xs).forM f = (do f x; xs.forM f) := rfl

/-! ## C56 -/

/-- a radio of 802.11n or 802.11ax with automatic channel (0) that says neither `band` nor `hwmode` -/
def AutoWithoutBand (d : VDict) : Prop :=
  (Dict.get? d "protocol" = some (.str "802.11n") ∨ Dict.get? d "protocol" = some (.str "802.11ax")) ∧
  (∃ c, Dict.get? d "channel" = some c ∧ Val.pyEq c (.int 0) = true) ∧
  (Dict.get? d "band" = none ∨ Dict.get? d "band" = some .none) ∧ (Dict.get? d "hwmode" = none ∨ Dict.get? d "hwmode" = some .none)

theorem radioRefused_iff (d : VDict) (hp : Dict.get? d "protocol" ≠ none) : ∃ b, radioRefused d = .ok b ∧ (b = true ↔ AutoWithoutBand d) := by
  cases hpv : Dict.get? d "protocol" with
  | none => exact absurd hpv hp
  | some p =>
    unfold radioRefused
    rw [getKey_ok hpv]
    refine ⟨_, rfl, ?_⟩
    have hn : ∀ k, (Dict.get? d k).getD .none = .none ↔ Dict.get? d k = none ∨ Dict.get? d k = some .none := by
      intro k
      cases Dict.get? d k <;> simp
    have hc : Val.pyEq ((Dict.get? d "channel").getD .none) (.int 0) = true ↔ ∃ c, Dict.get? d "channel" = some c ∧ Val.pyEq c (.int 0) = true := by
      cases Dict.get? d "channel" with
      | none => simp [Val.pyEq]
      | some c => simp
    unfold AutoWithoutBand
    simp only [Bool.and_eq_true, decide_eq_true_eq, hn, hc, inTexts, List.any_cons, List.any_nil, Bool.or_false, Bool.or_eq_true, hpv, Option.some.injEq]
    tauto

/-- **C56.** Radios that are objects with a protocol: the check accepts the list exactly when no radio of 802.11n or 802.11ax has an automatic
channel and neither `band` nor `hwmode`, and refuses it with the error of the JSON schema library otherwise. -/
theorem C56_check (config : VDict) (l : List VDict) (hk : Dict.get? config "radios" = some (.list (l.map .dict)))
    (hp : ∀ d ∈ l, Dict.get? d "protocol" ≠ none) :
    (validateRadios config = .ok () ↔ ∀ d ∈ l, ¬ AutoWithoutBand d) ∧
    (validateRadios config = .error .jsonSchema ↔ ∃ d ∈ l, AutoWithoutBand d) := by
  unfold validateRadios
  rw [hk]
  simp only
  clear hk
  induction l with
  | nil => simp [pure, Except.pure]
  | cons d ds ih =>
    obtain ⟨b, h1, h2⟩ := radioRefused_iff d (hp d (by simp))
    have ih := ih (fun x hx => hp x (by simp [hx]))
    rw [List.map_cons, list_forM_cons]
    simp only [checkRadio, h1, bind, Except.bind]
    cases b with
    | true =>
      have : AutoWithoutBand d := h2.1 rfl
      simp [this]
    | false =>
      have : ¬ AutoWithoutBand d := fun h => by simpa using h2.2 h
      simp only [Bool.false_eq_true, if_false, pure, Except.pure, List.mem_cons, forall_eq_or_imp, this, not_false_eq_true, true_and, exists_eq_or_imp, false_or]
      exact ih

/-- without radios there is nothing to check -/
theorem C56_no_radios (config : VDict) (hk : Dict.get? config "radios" = none) : validateRadios config = .ok () := by
  unfold validateRadios; rw [hk]

/-- The check comes before the schema: a list with a radio without a protocol is refused with `KeyError` instead of a validation error
(if the radios before it are accepted). -/
theorem C56_missing_protocol (config : VDict) (pre post : List VDict) (d : VDict) (hk : Dict.get? config "radios" = some (.list ((pre ++ d :: post).map .dict)))
    (hp : ∀ x ∈ pre, Dict.get? x "protocol" ≠ none ∧ ¬ AutoWithoutBand x) (hd : Dict.get? d "protocol" = none) :
    validateRadios config = .error .keyError := by
  unfold validateRadios
  rw [hk]
  simp only
  clear hk
  induction pre with
  | nil =>
    rw [List.nil_append, List.map_cons, list_forM_cons]
    simp [checkRadio, radioRefused, getKey, hd, bind, Except.bind]
  | cons x xs ih =>
    obtain ⟨b, h1, h2⟩ := radioRefused_iff x (hp x (by simp)).1
    have hb : b = false := by
      cases b with
      | false => rfl
      | true => exact absurd (h2.1 rfl) (hp x (by simp)).2
    subst hb
    rw [List.cons_append, List.map_cons, list_forM_cons]
    simp only [checkRadio, h1, bind, Except.bind, Bool.false_eq_true, if_false, pure, Except.pure]
    exact ih (fun y hy => hp y (by simp [hy]))

/-- the hypotheses of `C56_check` are met by lists of both kinds -/
example : validateRadios [("radios", .list [.dict sampleRadio1, .dict sampleRadio2])] = .ok () := by decide +kernel
example : validateRadios [("radios", .list [.dict sampleRadio1, .dict [("name", .str "radio1"), ("protocol", .str "802.11ax"), ("channel", .int 0)]])] =
    .error .jsonSchema := by decide +kernel
example : validateRadios [("radios", .list [.dict sampleRadio1, .dict [("name", .str "radio1")]])] = .error .keyError := by decide +kernel

/-! ## C55 -/

/-- the ports of a bridge for which the primary VLAN is set, by name, in the order of the configuration: one entry for each setting -/
def primaryPorts (vlans : List (List VDict)) : List String :=
  vlans.flatten.filterMap (fun port =>
    if ((Dict.get? port "primary_vid").getD (.bool false)).truthy then
      (match Dict.get? port "ifname" with | some (.str s) => some s | _ => none)
    else none)

/-- the interface is a bridge with the given VLANs (each given by its ports), all the ports being named -/
structure BridgeVlans (interface : VDict) (vlans : List (List VDict)) : Prop where
  type : Dict.get? interface "type" = some (.str "bridge")
  filtering : ∃ vs : List VDict, Dict.get? interface "vlan_filtering" = some (.list (vs.map .dict)) ∧
    List.Forall₂ (fun v ports => Dict.get? v "ports" = some (.list (ports.map .dict))) vs vlans
  names : ∀ ports ∈ vlans, ∀ port ∈ ports, ∃ s, Dict.get? port "ifname" = some (.str s)

theorem dictsAt_ok {d : VDict} {key : String} {l : List VDict} (h : Dict.get? d key = some (.list (l.map .dict))) : dictsAt d key = .ok l := by
  unfold dictsAt
  rw [h]
  simp only
  clear h
  induction l with
  | nil => rfl
  | cons x xs ih => rw [List.map_cons, mapM_ok_cons]; exact ⟨x, xs, rfl, ih, rfl⟩

theorem seen_any (s : String) (seen : List String) : (seen.map Val.str).any (fun v => Val.pyEq (.str s) v) = decide (s ∈ seen) := by
  induction seen with
  | nil => rfl
  | cons x xs ih =>
    rw [List.map_cons, List.any_cons, ih]
    simp [Val.pyEq, List.mem_cons, Bool.decide_or]
    rfl

theorem pvid_ports (ports : List VDict) (hn : ∀ port ∈ ports, ∃ s, Dict.get? port "ifname" = some (.str s)) (seen : List String) (hs : seen.Nodup) :
    ports.foldlM pvidPort (seen.map Val.str) = if (seen ++ primaryPorts [ports]).Nodup then .ok ((seen ++ primaryPorts [ports]).map Val.str)
      else .error .validation := by
  induction ports generalizing seen with
  | nil => simp [primaryPorts, hs, pure, Except.pure]
  | cons port rest ih =>
    obtain ⟨s, hsn⟩ := hn port (by simp)
    have ih := ih (fun p hp => hn p (by simp [hp]))
    rw [List.foldlM_cons]
    by_cases hp : ((Dict.get? port "primary_vid").getD (Val.bool false)).truthy = true
    · have e : primaryPorts [port :: rest] = s :: primaryPorts [rest] := by
        simp [primaryPorts, hp, hsn]
      rw [e]
      unfold pvidPort
      simp only [hp, if_true, getKey_ok hsn, bind, Except.bind, seen_any]
      by_cases hm : s ∈ seen
      · simp only [hm, decide_true, if_true]
        rw [if_neg]
        intro hnd
        exact (List.nodup_append.1 hnd).2.2 s hm s (by simp) rfl
      · simp only [hm, decide_false, Bool.false_eq_true, if_false, pure, Except.pure]
        have := ih (seen ++ [s]) (by rw [List.nodup_append]; refine ⟨hs, by simp, ?_⟩; rintro a ha b hb rfl; simp at hb; subst hb; exact hm ha)
        rw [List.map_append] at this
        refine this.trans ?_
        simp [List.append_assoc]
    · have e : primaryPorts [port :: rest] = primaryPorts [rest] := by
        simp [primaryPorts, hp]
      rw [e]
      unfold pvidPort
      rw [if_neg hp]
      exact ih seen hs

theorem pvid_vlans (vs : List VDict) (vlans : List (List VDict)) (hv : List.Forall₂ (fun v ports => Dict.get? v "ports" = some (.list (ports.map .dict))) vs vlans)
    (hn : ∀ ports ∈ vlans, ∀ port ∈ ports, ∃ s, Dict.get? port "ifname" = some (.str s)) (seen : List String) (hs : seen.Nodup) :
    vs.foldlM pvidVlan (seen.map Val.str) = if (seen ++ primaryPorts vlans).Nodup then .ok ((seen ++ primaryPorts vlans).map Val.str)
      else .error .validation := by
  induction hv generalizing seen with
  | nil => simp [primaryPorts, hs, pure, Except.pure]
  | @cons v ports vs vlans hvp hvs ih =>
    have ih := ih (fun p hp => hn p (by simp [hp]))
    rw [List.foldlM_cons]
    have e : primaryPorts (ports :: vlans) = primaryPorts [ports] ++ primaryPorts vlans := by
      simp [primaryPorts]
    unfold pvidVlan
    simp only [dictsAt_ok hvp, bind, Except.bind]
    rw [pvid_ports ports (hn ports (by simp)) seen hs, e]
    by_cases h1 : (seen ++ primaryPorts [ports]).Nodup
    · rw [if_pos h1]
      refine (ih _ h1).trans ?_
      simp [List.append_assoc]
    · rw [if_neg h1, if_neg]
      intro h
      rw [← List.append_assoc] at h
      exact h1 (List.nodup_append.1 h).1

theorem pvid_bridge {interface : VDict} {vlans : List (List VDict)} (h : BridgeVlans interface vlans) :
    pvidInterface interface = if (primaryPorts vlans).Nodup then .ok () else .error .validation := by
  obtain ⟨vs, h1, h2⟩ := h.filtering
  unfold pvidInterface
  rw [if_neg (by rw [h.type]; simp)]
  simp only [dictsAt_ok h1, bind, Except.bind]
  have := pvid_vlans vs vlans h2 h.names [] (by simp)
  simp only [List.map_nil, List.nil_append] at this
  rw [this]
  by_cases hn : (primaryPorts vlans).Nodup
  · simp only [hn, if_true]; rfl
  · simp only [hn, if_false]

/-- what the check says of one interface: not a bridge, or a bridge without VLAN filtering, or one with the given VLANs -/
inductive PvidShape (interface : VDict) : List (List VDict) → Prop
  | other (h : Dict.get? interface "type" ≠ some (.str "bridge")) : PvidShape interface []
  | plain (h : Dict.get? interface "vlan_filtering" = none) : PvidShape interface []
  | bridge {vlans : List (List VDict)} (h : BridgeVlans interface vlans) : PvidShape interface vlans

theorem pvid_shape {interface : VDict} {vlans : List (List VDict)} (h : PvidShape interface vlans) :
    pvidInterface interface = if (primaryPorts vlans).Nodup then .ok () else .error .validation := by
  cases h with
  | other h => unfold pvidInterface; rw [if_pos h]; rfl
  | plain h =>
    unfold pvidInterface dictsAt
    rw [h]
    split <;> rfl
  | bridge h => exact pvid_bridge h

/-- **C55.** The check accepts the interfaces exactly when no bridge sets the primary VLAN twice for a port, and refuses them with a validation
error otherwise. Bridges are independent of each other, and interfaces that are not bridges are not checked. -/
theorem C55_primary_vlan (config : VDict) (ifs : List VDict) (shapes : List (List (List VDict)))
    (hk : Dict.get? config "interfaces" = some (.list (ifs.map .dict))) (hs : List.Forall₂ PvidShape ifs shapes) :
    (validatePvid config = .ok () ↔ ∀ vlans ∈ shapes, (primaryPorts vlans).Nodup) ∧
    (validatePvid config = .error .validation ↔ ∃ vlans ∈ shapes, ¬ (primaryPorts vlans).Nodup) := by
  unfold validatePvid
  simp only [dictsAt_ok hk, bind, Except.bind]
  clear hk
  induction hs with
  | nil => simp [pure, Except.pure]
  | @cons i vlans ifs shapes h1 h2 ih =>
    rw [list_forM_cons, pvid_shape h1]
    by_cases hn : (primaryPorts vlans).Nodup
    · rw [if_pos hn]
      simp only [bind, Except.bind, List.mem_cons, forall_eq_or_imp, exists_eq_or_imp, hn, true_and, not_true_eq_false, false_or]
      exact ih
    · rw [if_neg hn]
      simp [bind, Except.bind, hn]

/-- without interfaces there is nothing to check -/
theorem C55_no_interfaces (config : VDict) (hk : Dict.get? config "interfaces" = none) : validatePvid config = .ok () := by
  unfold validatePvid dictsAt; rw [hk]; rfl

/-! ### Examples -/

def samplePort (name : String) (primary : Bool) : VDict := [("ifname", .str name), ("tagging", .str "u"), ("primary_vid", .bool primary)]

def sampleVlanBridge (twice : Bool) : VDict :=
  [("type", .str "bridge"), ("name", .str "br-lan"), ("vlan_filtering", .list [
    .dict [("vlan", .int 1), ("ports", .list [.dict (samplePort "lan1" true), .dict (samplePort "lan2" true)])],
    .dict [("vlan", .int 2), ("ports", .list [.dict (samplePort "lan1" twice), .dict (samplePort "lan3" true)])]])]

theorem sampleVlanBridge_shape (twice : Bool) : PvidShape (sampleVlanBridge twice)
    [[samplePort "lan1" true, samplePort "lan2" true], [samplePort "lan1" twice, samplePort "lan3" true]] :=
  .bridge ⟨rfl, ⟨[_, _], rfl, .cons rfl (.cons rfl .nil)⟩, by
    intro ports hp port hport
    simp only [List.mem_cons, List.not_mem_nil, or_false] at hp
    rcases hp with rfl | rfl <;> simp only [List.mem_cons, List.not_mem_nil, or_false] at hport <;> rcases hport with rfl | rfl <;> exact ⟨_, rfl⟩⟩

example : validatePvid [("interfaces", .list [.dict [("type", .str "ethernet"), ("name", .str "eth0")], .dict (sampleVlanBridge false)])] = .ok () :=
  (C55_primary_vlan _ [[("type", .str "ethernet"), ("name", .str "eth0")], sampleVlanBridge false] _ rfl
    (.cons (.other (by decide)) (.cons (sampleVlanBridge_shape false) .nil))).1.2 (by decide +kernel)

example : validatePvid [("interfaces", .list [.dict [("type", .str "ethernet"), ("name", .str "eth0")], .dict (sampleVlanBridge true)])] = .error .validation :=
  (C55_primary_vlan _ [[("type", .str "ethernet"), ("name", .str "eth0")], sampleVlanBridge true] _ rfl
    (.cons (.other (by decide)) (.cons (sampleVlanBridge_shape true) .nil))).2.2 ⟨_, List.mem_cons_of_mem _ (List.mem_cons_self), by decide +kernel⟩

end NJ
