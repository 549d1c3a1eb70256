import Verif.WholeParts

/-!
# General settings, NTP and interfaces as parts of a configuration
-/

namespace NJ

/-- a dictionary in the configuration; no dictionary is like an empty one -/
def DictIn (config : VDict) (key : String) (d : VDict) : Prop :=
  Dict.get? config key = none ∧ d = [] ∨ Dict.get? config key = some (.dict d)

/-- a section with the given settings, if there are any -/
def dictData (key : String) (d : VDict) : VDict := if d = [] then [] else [(key, .dict d)]

theorem dictData_nodup (key : String) (d : VDict) : (Dict.keys (dictData key d)).Nodup := by
  unfold dictData
  split <;> simp [Dict.keys]

/-- the settings of a dictionary section, `none` when there are none -/
def dictItem (d : VDict) : Option Val := if d = [] then none else some (.dict d)

theorem get?_dictData (key : String) (d : VDict) (k : String) : Dict.get? (dictData key d) k = if k = key then dictItem d else none := by
  unfold dictData dictItem
  by_cases h : d = []
  · simp [h]
  · simp [h, Dict.get?_cons, eq_comm]

/-! ## NTP -/

theorem ntp_part (env : Env) (config d : VDict) (hk : DictIn config "ntp" d) (h : d = [] ∨ NtpOK d) :
    ∃ bs out, (∀ inter, Makes ntpConv config inter (pkgData "system" bs)) ∧
      (∀ b ∈ bs, PlainBlock b ∧ skipBlock (some ["timeserver"]) (blockRead env.reprC b) = false) ∧
      (∀ copy others, (∀ b ∈ others, skipBlock (some ["timeserver"]) b = true) →
        Takes ntpBConv copy "system" (bs.map (blockRead env.reprC)) others (dictData "ntp" out)) ∧ SameItems out d ∧ (out = [] ↔ d = []) := by
  by_cases hd : d = []
  · subst hd
    refine ⟨[], [], fun inter => ?_, by simp, fun copy others ho => takes_simple copy (by simp) ho rfl, fun k => rfl, Iff.rfl⟩
    rcases hk with ⟨hk, _⟩ | hk
    · exact .inl ⟨by simp [ntpConv, pureConv, Dict.has, hk], rfl⟩
    · refine .inr ⟨by simp [ntpConv, pureConv, Dict.has, hk], ?_⟩
      show (config, fwd "ntp" ntpFwd config) = _
      unfold fwd
      rw [hk]
      rfl
  · have h := h.resolve_left hd
    have hk : Dict.get? config "ntp" = some (.dict d) := by
      rcases hk with ⟨_, e⟩ | hk
      · exact absurd e hd
      · exact hk
    obtain ⟨b, out, h1, h2, _, h3, h4, h5⟩ := ntp_item env d h
    have hr : blockRead env.reprC b = blockBack env.reprC b := plain_read h2
    have hout : out ≠ [] := by
      rintro rfl
      apply hd
      cases d with
      | nil => rfl
      | cons p r =>
        have := h5 p.1
        rw [show Dict.get? (p :: r) p.1 = some p.2 from Dict.get?_cons_self ..] at this
        cases this
    refine ⟨[b], out, fun inter => .inr ⟨by simp [ntpConv, pureConv, Dict.has, hk], ?_⟩, ?_, fun copy others ho => ?_, h5, by simp [hout, hd]⟩
    · show (config, fwd "ntp" ntpFwd config) = _
      unfold fwd
      rw [hk]
      show (config, ntpFwd none (.dict d) []) = _
      rw [h1]
      rfl
    · intro x hx
      rw [List.mem_singleton] at hx
      subst hx
      exact ⟨h2, by rw [hr]; exact h3⟩
    · refine takes_simple copy ?_ ho ?_
      · intro x hx
        rw [List.map_cons, List.map_nil, List.mem_singleton] at hx
        subst hx
        rw [hr]; exact h3
      · rw [List.map_cons, List.map_nil, backFold, hr, if_neg (by rw [h3]; simp), h4]
        unfold dictData
        rw [if_neg hout]
        rfl

/-! ## General settings -/

/-- the general settings besides the ULA prefix and the name of its section -/
def baseSettings (d : VDict) : VDict := if Dict.has d "ula_prefix" then Dict.erase (Dict.erase d "globals_id") "ula_prefix" else d

/-- General settings that survive: an ULA prefix, if there is one, is a text and so is the identifier of its section, a word other than `globals`;
the other settings survive. -/
structure GeneralOK' (env : Env) (d : VDict) : Prop where
  ula : ∀ v, Dict.get? d "ula_prefix" = some v → (∃ u : String, v = .str u ∧ u ≠ "" ∧ PlainText u.toList) ∧
    (Dict.get? d "globals_id" = none ∨ ∃ n, Dict.get? d "globals_id" = some (.str n) ∧ IsWord n.toList ∧ n ≠ "globals")
  base : baseSettings d = [] ∨ GeneralOK env (baseSettings d)

/-- what comes back of general settings: the same settings; a host name, if there are settings of the system and none of them is a host name -/
def generalReturned (d : VDict) : VDict := if baseSettings d = [] then d else withHostname d

/-- the settings about the ULA prefix -/
def ulaItem (d : VDict) (k : String) : Option Val :=
  if Dict.has d "ula_prefix" = true ∧ (k = "ula_prefix" ∨ k = "globals_id") then Dict.get? d k else none

theorem get?_withHostname (d : VDict) (k : String) :
    Dict.get? (withHostname d) k = if k = "hostname" then some ((Dict.get? d "hostname").getD (.str "OpenWRT")) else Dict.get? d k := by
  unfold withHostname Dict.has
  cases h : Dict.get? d "hostname" with
  | none =>
    simp only [Option.isSome_none, Bool.false_eq_true, if_false, Dict.get?_set']
    rfl
  | some v =>
    simp only [Option.isSome_some, if_true]
    by_cases e : k = "hostname"
    · rw [if_pos e, e, h]; rfl
    · rw [if_neg e]

theorem get?_baseSettings (d : VDict) (k : String) :
    Dict.get? (baseSettings d) k = if Dict.has d "ula_prefix" = true ∧ (k = "ula_prefix" ∨ k = "globals_id") then none else Dict.get? d k := by
  unfold baseSettings
  by_cases h : Dict.has d "ula_prefix" = true
  · rw [if_pos h, Dict.get?_erase', Dict.get?_erase']
    by_cases h1 : k = "ula_prefix" <;> by_cases h2 : k = "globals_id" <;> simp [h, h1, h2]
  · rw [if_neg h]
    simp [h]

/-- the settings of the system and those about the ULA prefix, together -/
theorem generalReturned_items (d : VDict) (k : String) :
    Dict.get? (generalReturned d) k =
      (ulaItem d k).or (if baseSettings d = [] then none else Dict.get? (withHostname (baseSettings d)) k) := by
  unfold generalReturned ulaItem
  by_cases hb : baseSettings d = []
  · rw [if_pos hb, if_pos hb, Option.or_none]
    have := get?_baseSettings d k
    rw [hb] at this
    by_cases h : Dict.has d "ula_prefix" = true ∧ (k = "ula_prefix" ∨ k = "globals_id")
    · rw [if_pos h]
    · rw [if_neg h] at this ⊢
      exact this.symm
  · rw [if_neg hb, if_neg hb, get?_withHostname, get?_withHostname, get?_baseSettings, get?_baseSettings]
    by_cases h : Dict.has d "ula_prefix" = true ∧ (k = "ula_prefix" ∨ k = "globals_id")
    · rw [if_pos h]
      have hk : k ≠ "hostname" := by rcases h.2 with rfl | rfl <;> decide
      rw [if_neg hk, if_neg hk, if_pos h, Option.or_none]
    · have h0 : ¬ (Dict.has d "ula_prefix" = true ∧ ("hostname" = "ula_prefix" ∨ "hostname" = "globals_id")) := by
        rintro ⟨_, e | e⟩ <;> exact absurd e (by decide)
      simp only [if_neg h, if_neg h0, Option.none_or]

/-- the section of the ULA prefix -/
theorem globals_part (env : Env) (dsa : Bool) (d : VDict) (h : GeneralOK' env d) :
    ∃ o g, ulaBlock d = .ok (o, baseSettings d) ∧ (∀ b ∈ o.toList, PlainBlock b) ∧
      GlobalsBlocks env dsa (o.toList.map (blockRead env.reprC)) (dictData "general" g) ∧ (Dict.keys g).Nodup ∧ ∀ k, Dict.get? g k = ulaItem d k := by
  unfold ulaBlock
  cases hu : Dict.get? d "ula_prefix" with
  | none =>
    have hh : Dict.has d "ula_prefix" = false := by simp [Dict.has, hu]
    refine ⟨none, [], ?_, by simp, .inl ⟨rfl, rfl⟩, by simp [Dict.keys], fun k => ?_⟩
    · rw [hh]
      unfold baseSettings
      rw [hh]
      rfl
    · unfold ulaItem; simp [hh]
  | some v =>
    have hh : Dict.has d "ula_prefix" = true := by simp [Dict.has, hu]
    obtain ⟨⟨u, rfl, hne, hpu⟩, hid⟩ := h.ula v hu
    obtain ⟨n, hn1, hn2, hn3⟩ : ∃ n : String, (Dict.get? d "globals_id").getD (.str "globals") = .str n ∧ IsWord n.toList ∧
        Dict.get? d "globals_id" = if n = "globals" then none else some (.str n) := by
      rcases hid with e | ⟨n, e, h1, h2⟩
      · exact ⟨"globals", by rw [e]; rfl, by decide, by rw [e]; simp⟩
      · exact ⟨n, by rw [e]; rfl, h1, by rw [e, if_neg h2]⟩
    have hb : baseSettings d = Dict.erase (Dict.erase d "globals_id") "ula_prefix" := by unfold baseSettings; rw [if_pos hh]
    have h3 : Dict.get? (Dict.erase d "globals_id") "ula_prefix" = some (.str u) := by rw [Dict.get?_erase', if_neg (by decide)]; exact hu
    let b : VDict := sortedDict [(".type", .str "globals"), (".name", .str n), ("ula_prefix", .str u)]
    have gb : ∀ k, Dict.get? b k = if k = ".type" then some (.str "globals") else if k = ".name" then some (.str n) else if k = "ula_prefix" then some (.str u) else none := by
      intro k
      rw [get?_sortedDict (by simp [Dict.keys])]
      simp only [Dict.get?, eq_comm]
    have hp : PlainBlock b := by
      refine ⟨sortedDict_nodup (by simp [Dict.keys]), ⟨"globals", by rw [gb]; rfl, by decide⟩, ⟨n, by rw [gb]; rfl, hn2⟩, ?_⟩
      intro k v hv k1 k2
      rw [gb, if_neg k1, if_neg k2] at hv
      by_cases k3 : k = "ula_prefix"
      · rw [if_pos k3] at hv
        cases hv
        subst k3
        exact ⟨by decide, by decide, hpu⟩
      · rw [if_neg k3] at hv; cases hv
    have rb : ∀ k, Dict.get? (blockRead env.reprC b) k = Dict.get? b k := by
      intro k
      rw [get?_blockRead _ hp]
      split
      · rfl
      · rw [gb]
        next h0 =>
        rw [not_or] at h0
        rw [if_neg h0.1, if_neg h0.2]
        by_cases k3 : k = "ula_prefix"
        · simp [k3, readVal, hne]
        · simp [k3]
    have rt : Dict.get? (blockRead env.reprC b) ".type" = some (.str "globals") := by rw [rb, gb]; rfl
    have rn : Dict.get? (blockRead env.reprC b) ".name" = some (.str n) := by rw [rb, gb]; rfl
    have ru : Dict.get? (blockRead env.reprC b) "ula_prefix" = some (.str u) := by rw [rb, gb]; rfl
    have rs : skipBlock ifaceTypes (blockRead env.reprC b) = false := skip_of_type rt (by simp)
    refine ⟨some b, if n = "globals" then [("ula_prefix", .str u)] else [("ula_prefix", .str u), ("globals_id", .str n)], ?_, ?_, .inr ⟨_, rfl, ⟨?_, ?_, ?_⟩⟩, ?_, ?_⟩
    · rw [if_pos hh]
      simp only [popOr, hn1, popKey_ok h3, bind, Except.bind, pure, Except.pure]
      rw [hb]
    · intro x hx
      simp only [Option.toList_some, List.mem_singleton] at hx
      subst hx; exact hp
    · intro dev
      unfold skipNonDevice
      rw [rs, rb, rb, gb, gb]
      rfl
    · intro dev
      unfold skipVlan
      rw [rs, rb, gb]
      rfl
    · intro st
      unfold ifaceLoop
      rw [if_pos rt]
      unfold globalsBack
      have ht : Val.truthy (.str u) = true := by simp [Val.truthy, hne]
      rw [ru]
      simp only [Option.getD_some, ht, if_true, popKey_ok rn, bind, Except.bind, pure, Except.pure]
      unfold dictData
      by_cases e : n = "globals"
      · subst e; rfl
      · simp [e]
    · split <;> simp [Dict.keys]
    · intro k
      unfold ulaItem
      rw [hh]
      simp only [true_and]
      by_cases k1 : k = "ula_prefix"
      · subst k1
        have e : ("ula_prefix" = "ula_prefix" ∨ "ula_prefix" = "globals_id") := .inl rfl
        rw [if_pos e, hu]
        split <;> rfl
      · by_cases k2 : k = "globals_id"
        · subst k2
          have e : ("globals_id" = "ula_prefix" ∨ "globals_id" = "globals_id") := .inr rfl
          rw [if_pos e, hn3]
          by_cases e : n = "globals"
          · simp [e, Dict.get?]
          · simp [e, Dict.get?]
        · have e : ¬ (k = "ula_prefix" ∨ k = "globals_id") := by simp [k1, k2]
          rw [if_neg e]
          split
          · simp [Dict.get?, Ne.symm k1]
          · simp [Dict.get?, Ne.symm k1, Ne.symm k2]

/-- the packages made from general settings -/
def generalData (sys glob : Option VDict) : Data := pkgData "system" sys.toList ++ pkgData "network" glob.toList

theorem generalData_nodup (sys glob : Option VDict) : (Dict.keys (generalData sys glob)).Nodup := by
  cases sys <;> cases glob <;> simp [generalData, pkgData, Dict.keys]

theorem blocksIn_generalData (sys glob : Option VDict) (k : String) :
    blocksIn (generalData sys glob) k = if k = "system" then sys.toList else if k = "network" then glob.toList else [] := by
  cases sys <;> cases glob <;> simp only [generalData, pkgData, Option.toList, if_true, List.nil_append, List.append_nil, List.cons_append,
    reduceCtorEq, if_false, blocksIn_cons] <;> simp [blocksIn] <;>
    (rintro rfl; decide)

theorem general_part (env : Env) (dsa : Bool) (config d : VDict) (hk : DictIn config "general" d) (h : GeneralOK' env d) :
    ∃ sys glob g1 g2, (∀ inter, Makes (generalConv env) config inter (generalData sys glob)) ∧
      (∀ b ∈ sys.toList, PlainBlock b ∧ skipBlock (some ["system"]) (blockRead env.reprC b) = false) ∧
      (∀ b ∈ glob.toList, PlainBlock b) ∧
      (∀ copy others, (∀ b ∈ others, skipBlock (some ["system"]) b = true) →
        Takes (generalBConv env) copy "system" (sys.toList.map (blockRead env.reprC)) others (dictData "general" g1)) ∧
      GlobalsBlocks env dsa (glob.toList.map (blockRead env.reprC)) (dictData "general" g2) ∧
      (Dict.keys g2).Nodup ∧ (∀ k, Dict.get? g2 k = ulaItem d k) ∧
      ∀ k, Dict.get? g1 k = if baseSettings d = [] then none else Dict.get? (withHostname (baseSettings d)) k := by
  obtain ⟨glob, g2, a1, a2, a3, a4, a5⟩ := globals_part env dsa d h
  by_cases hb : baseSettings d = []
  · refine ⟨none, glob, [], g2, fun inter => ?_, by simp, a2, fun copy others ho => takes_simple copy (by simp) ho rfl, a3, a4, a5, fun k => by rw [if_pos hb]; rfl⟩
    rcases hk with ⟨hk, rfl⟩ | hk
    · left
      refine ⟨by simp [generalConv, pureConv, Dict.has, hk], ?_⟩
      have : ulaBlock [] = .ok (none, []) := rfl
      rw [this] at a1
      injection a1 with a1
      injection a1 with a1 _
      rw [← a1]; rfl
    · right
      refine ⟨by simp [generalConv, pureConv, Dict.has, hk], ?_⟩
      show (config, fwd "general" (generalFwd env) config) = _
      unfold fwd
      rw [hk]
      show (config, generalFwd env none (.dict d) []) = _
      unfold generalFwd systemBlock
      simp only [asDict, bind, Except.bind, a1, hb, List.isEmpty_nil, if_true, pure, Except.pure]
      cases glob <;> rfl
  · have hg := h.base.resolve_left hb
    obtain ⟨b, out, h3, h1, _, h2, ho1, ho2⟩ := general_item env _ hg
    have hr : blockRead env.reprC b = blockBack env.reprC b := plain_read h1
    have hkd : Dict.get? config "general" = some (.dict d) := by
      rcases hk with ⟨_, rfl⟩ | hk
      · exact absurd rfl hb
      · exact hk
    have hout : out ≠ [] := by
      rintro rfl
      have := ho2 "hostname"
      rw [get?_withHostname, if_pos rfl] at this
      cases this
    refine ⟨some b, glob, out, g2, fun inter => .inr ⟨by simp [generalConv, pureConv, Dict.has, hkd], ?_⟩, ?_, a2, fun copy others ho => ?_, a3, a4, a5,
      fun k => by rw [if_neg hb]; exact ho2 k⟩
    · show (config, fwd "general" (generalFwd env) config) = _
      unfold fwd
      rw [hkd]
      show (config, generalFwd env none (.dict d) []) = _
      unfold generalFwd
      simp only [asDict, bind, Except.bind, a1, h3, pure, Except.pure]
      cases glob <;> rfl
    · intro x hx
      simp only [Option.toList_some, List.mem_singleton] at hx
      subst hx
      exact ⟨h1, by rw [hr]; exact h2⟩
    · refine takes_simple copy ?_ ho ?_
      · intro x hx
        simp only [Option.toList_some, List.map_cons, List.map_nil, List.mem_singleton] at hx
        subst hx
        rw [hr]; exact h2
      · simp only [Option.toList_some, List.map_cons, List.map_nil]
        rw [backFold, hr, if_neg (by rw [h2]; simp)]
        have : generalBack env 1 (blockBack env.reprC b) [] = .ok [("general", .dict out)] := by
          show (systemBack env _ >>= _) = _
          rw [ho1]; rfl
        rw [this]
        unfold dictData
        rw [if_neg hout]
        rfl

end NJ
