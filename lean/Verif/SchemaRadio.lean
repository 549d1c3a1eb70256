import Verif.PropsValid
import Verif.PropsRadio

/-!
# C99: the radios that the schema of the OpenWrt backend accepts

`SchemaFacts` knows texts only; `enumAt` finds the values the schema allows under a key, of whatever type. `radio_valid`: every radio of an
accepted configuration matches one of the alternatives of `ValidRadio`, which the theorems about radios (C46, C47, C99) start from.
-/

namespace NJ

/-- the values that the `properties` of a schema list under a key (`[]`: none are listed) -/
def listedAt (s : VDict) (k : String) : List Val :=
  match Dict.get? s "properties" with
  | some (.dict ps) => match Dict.get? ps k with
    | some (.dict p) => if Dict.has p "$ref" then [] else schemaList p "enum"
    | _ => []
  | _ => []

/-- the values the schema allows under a key, when it lists them (`[]`: it does not) -/
def enumAt (root : VDict) : Nat → Val → String → List Val
  | 0, _, _ => []
  | n + 1, .dict s, k => match Dict.get? s "$ref" with
    | some (.str r) => match resolveRef root r with
      | some t => enumAt root n t k
      | none => []
    | _ =>
      if listedAt s k = [] then (((schemaList s "allOf").map fun t => enumAt root n t k).find? fun l => !l.isEmpty).getD [] else listedAt s k
  | _ + 1, _, _ => []

theorem valid_keyword {ip6 : Ip6} {root s : VDict} {m : Nat} {v : Val} (hv : valid ip6 root (m + 1) (.dict s) v = true)
    (hr : ∀ r, Dict.get? s "$ref" ≠ some (.str r)) {k : String} {arg : Val} (hk : Dict.get? s k = some arg) :
    keywordOk ip6 (valid ip6 root m) s k arg v = true := by
  rw [valid] at hv
  split at hv
  · rename_i r hr'
    exact absurd hr' (hr r)
  · rw [List.all_eq_true] at hv
    exact hv (k, arg) (Dict.mem_of_get? hk)

theorem valid_property {ip6 : Ip6} {root s ps : VDict} {m : Nat} {d : VDict} (hv : valid ip6 root (m + 1) (.dict s) (.dict d) = true)
    (hr : ∀ r, Dict.get? s "$ref" ≠ some (.str r)) (hp : Dict.get? s "properties" = some (.dict ps)) {k : String} {p x : Val}
    (hk : Dict.get? ps k = some p) (hx : Dict.get? d k = some x) : valid ip6 root m p x = true := by
  have := valid_keyword hv hr hp
  simp only [keywordOk, List.all_eq_true] at this
  have := this (k, p) (Dict.mem_of_get? hk)
  dsimp only at this
  rw [hx] at this
  exact this

theorem enumAt_sound {ip6 : Ip6} {root : VDict} {n m : Nat} {s : Val} {d : VDict} {k : String} {x : Val} (hv : valid ip6 root m s (.dict d) = true)
    (hx : Dict.get? d k = some x) (hne : enumAt root n s k ≠ []) : ∃ y ∈ enumAt root n s k, Val.jsEq y x = true := by
  induction n generalizing m s with
  | zero => exact absurd rfl hne
  | succ n ih =>
    cases m with
    | zero => simp [valid] at hv
    | succ m =>
      cases s with
      | dict s =>
        rw [enumAt] at hne ⊢
        split at hne
        · rename_i r hr
          rw [valid, hr] at hv
          dsimp only at hv
          cases ht : resolveRef root r with
          | none => rw [ht] at hne; exact absurd rfl hne
          | some t =>
            rw [ht] at hne hv
            exact ih hv hne
        · rename_i hr
          by_cases h0 : listedAt s k = []
          · rw [if_pos h0] at hne ⊢
            cases hf : ((schemaList s "allOf").map fun t => enumAt root n t k).find? fun l => !l.isEmpty with
            | none => rw [hf] at hne; exact absurd rfl hne
            | some l =>
              rw [Option.getD_some]
              have h1 := List.mem_of_find?_eq_some hf
              obtain ⟨t, ht, e⟩ := List.mem_map.1 h1
              have h2 := List.find?_some hf
              have h3 := valid_keyword hv (fun r h => hr r h) (schemaList_mem ht)
              simp only [keywordOk, List.all_eq_true] at h3
              subst e
              refine ih (h3 t ht) ?_
              intro e
              rw [e] at h2
              cases h2
          · rw [if_neg h0]
            unfold listedAt at h0 ⊢
            split at h0
            · rename_i ps hps
              split at h0
              · rename_i p hp
                split at h0
                · exact absurd rfl h0
                · rename_i hh
                  rw [if_neg hh]
                  have h1 := valid_property hv (fun r h => hr r h) hps hp hx
                  cases m with
                  | zero => simp [valid] at h1
                  | succ m =>
                    have h2 := valid_keyword h1 (fun r h => hh (by rw [Dict.has_eq, h]; rfl)) (schemaList_get (k := "enum") (by
                      cases e : schemaList p "enum" with
                      | nil => exact absurd e h0
                      | cons => rfl))
                    simpa [keywordOk, List.any_eq_true] using h2
              · exact absurd rfl h0
            · exact absurd rfl h0
      | _ => exact absurd rfl hne

/-- the alternatives for radios -/
def radioRefs : List String :=
  ["#/definitions/radio_80211ax_2ghz_settings", "#/definitions/radio_80211gn_settings", "#/definitions/radio_80211bg_settings",
   "#/definitions/radio_80211ax_5ghz_settings", "#/definitions/radio_80211ac_5ghz_settings", "#/definitions/radio_80211an_settings",
   "#/definitions/radio_80211a_settings", "#/definitions/radio_80211ax_6ghz_settings", "#/definitions/radio_80211ad_60ghz_settings"]

def radioItems : VDict := [("oneOf", .list (radioRefs.map fun r => .dict [("$ref", .str r)]))]

theorem radio_alternative {ip6 : Ip6} {config : VDict} (h : OwValid ip6 config) {l : List Val} (hl : Dict.get? config "radios" = some (.list l))
    {x : Val} (hx : x ∈ l) : ∃ m r t, r ∈ radioRefs ∧ resolveRef owSchema r = some t ∧ valid ip6 owSchema m t x = true := by
  have h : valid ip6 owSchema (23 + 1) (.dict owSchema) (.dict config) = true := h
  have h1 := valid_property (ps := owSchema_properties) (p := owSchema_pro_radios) h (fun r e => by
    have : Dict.get? owSchema "$ref" = none := by decide +kernel
    rw [this] at e; cases e) (by rfl) (by rfl) hl
  have h2 := valid_keyword (m := 22) (k := "items") (arg := .dict radioItems) h1 (fun r e => by
    simp [Dict.get?] at e) (by rfl)
  simp only [keywordOk, List.all_eq_true] at h2
  have h3 := h2 x hx
  have h4 := valid_keyword (m := 21) (k := "oneOf") (arg := .list (radioRefs.map fun r => .dict [("$ref", .str r)])) h3 (fun r e => by
    have : Dict.get? radioItems "$ref" = none := by decide +kernel
    rw [this] at e; cases e) (by rfl)
  simp only [keywordOk, decide_eq_true_eq] at h4
  obtain ⟨t, ht⟩ := List.length_pos_iff_exists_mem.1 (by rw [h4]; exact Nat.one_pos)
  obtain ⟨h5, h6⟩ := List.mem_filter.1 ht
  obtain ⟨r, hr, e⟩ := List.mem_map.1 h5
  subst e
  rw [valid] at h6
  have e : Dict.get? [("$ref", Val.str r)] "$ref" = some (.str r) := by simp [Dict.get?]
  rw [e] at h6
  dsimp only at h6
  cases hq : resolveRef owSchema r with
  | none => rw [hq] at h6; cases h6
  | some t => rw [hq] at h6; exact ⟨20, r, t, hr, hq, h6⟩

local infixr:35 " & " => Fact.and
local notation "S" => Fact.isType "string"
local notation "I" => Fact.isType "integer"
local notation "O" => Fact.isType "object"

/-- every value is one of these numbers -/
def intsAmong (l : List Val) (cs : List Int) : Bool := !l.isEmpty && l.all fun y => match y with
  | .int i => decide (i ∈ cs)
  | _ => false

/-- what one alternative for radios says -/
def radioAlt (t : Val) (ps : List String) (cs ws : List Int) (hw bd : List String) : Bool :=
  implies owSchema 24 t (O & .has "name" & .at "name" S & .has "protocol" & .at "protocol" (.among ps) & .has "channel" & .has "channel_width" & .at "country" S) &&
  intsAmong (enumAt owSchema 24 t "channel") cs && intsAmong (enumAt owSchema 24 t "channel_width") ws &&
  (hw.isEmpty || implies owSchema 24 t (.at "hwmode" (.among hw))) && (bd.isEmpty || implies owSchema 24 t (.at "band" (.among bd)))

theorem enum_ints {ip6 : Ip6} {t : Val} {m : Nat} {d : VDict} {k : String} {cs : List Int} (hv : valid ip6 owSchema m t (.dict d) = true)
    (hk : Dict.has d k = true) (h : intsAmong (enumAt owSchema 24 t k) cs = true) : ∃ c, c ∈ cs ∧ Dict.get? d k = some (.int c) := by
  simp only [intsAmong, Bool.and_eq_true, List.all_eq_true, Bool.not_eq_true'] at h
  rw [Dict.has_eq, Option.isSome_iff_exists] at hk
  obtain ⟨x, hx⟩ := hk
  obtain ⟨y, hy, he⟩ := enumAt_sound (n := 24) hv hx (fun e => by rw [e] at h; cases h.1)
  have := h.2 y hy
  cases y with
  | int i =>
    cases x with
    | int j =>
      simp only [Val.jsEq, beq_iff_eq] at he
      subst he
      exact ⟨i, by simpa using this, hx⟩
    | _ => simp [Val.jsEq] at he
  | _ => cases this

theorem among_opt {ip6 : Ip6} {d : VDict} {k : String} {l : List String} (h : (Fact.at k (.among l)).Holds ip6 (.dict d)) : OptIn d k l := by
  cases e : Dict.get? d k with
  | none => exact .inl e
  | some x =>
    obtain ⟨s, hs, he⟩ := h d x rfl e
    exact .inr ⟨s, hs, by rw [e, he]⟩

theorem radioAlt_sound {ip6 : Ip6} {t x : Val} {m : Nat} {ps : List String} {cs ws : List Int} {hw bd : List String}
    (h : radioAlt t ps cs ws hw bd = true) (hv : valid ip6 owSchema m t x = true) (hwf : x.WF) :
    ∃ d, x = .dict d ∧ RadioIs d ps (· ∈ cs) ws ∧ (hw ≠ [] → OptIn d "hwmode" hw) ∧ (bd ≠ [] → OptIn d "band" bd) := by
  simp only [radioAlt, Bool.and_eq_true, Bool.or_eq_true] at h
  obtain ⟨⟨⟨⟨h1, h2⟩, h3⟩, h4⟩, h5⟩ := h
  obtain ⟨f1, f2, f3, f4, f5, f6, f7, f8⟩ := implies_sound h1 hv
  cases x with
  | dict d =>
    refine ⟨d, rfl, ⟨wf_nodup hwf, ?_, ?_, enum_ints hv (holds_has f6) h2, enum_ints hv (holds_has f7) h3, ?_⟩, fun hne => ?_, fun hne => ?_⟩
    · have := holds_has f2
      rw [Dict.has_eq, Option.isSome_iff_exists] at this
      obtain ⟨y, hy⟩ := this
      obtain ⟨n, rfl⟩ := holds_txt (f3 d y rfl hy)
      exact ⟨n, hy⟩
    · have := holds_has f4
      rw [Dict.has_eq, Option.isSome_iff_exists] at this
      obtain ⟨y, hy⟩ := this
      obtain ⟨s, hs, rfl⟩ := f5 d y rfl hy
      exact ⟨s, hs, hy⟩
    · cases e : Dict.get? d "country" with
      | none => exact .inl rfl
      | some y =>
        obtain ⟨n, rfl⟩ := holds_txt (f8 d y rfl e)
        exact .inr ⟨n, rfl⟩
    · rcases h4 with h4 | h4
      · exact absurd (List.isEmpty_iff.1 h4) hne
      · exact among_opt (implies_sound h4 hv)
    · rcases h5 with h5 | h5
      · exact absurd (List.isEmpty_iff.1 h5) hne
      · exact among_opt (implies_sound h5 hv)
  | _ => cases f1

theorem RadioIs.of {d : VDict} {ps : List String} {P Q : Int → Prop} {ws : List Int} (h : RadioIs d ps P ws) (hq : ∀ c, P c → Q c) : RadioIs d ps Q ws :=
  ⟨h.nodup, h.name, h.protocol, (by obtain ⟨c, h1, h2⟩ := h.channel; exact ⟨c, hq c h1, h2⟩), h.width, h.country⟩

def altAt (r : String) (ps : List String) (cs ws : List Int) (hw bd : List String) : Bool :=
  match resolveRef owSchema r with
  | some t => radioAlt t ps cs ws hw bd
  | none => false

theorem altAt_sound {ip6 : Ip6} {r : String} {t x : Val} {m : Nat} {ps : List String} {cs ws : List Int} {hw bd : List String}
    (h : altAt r ps cs ws hw bd = true) (hr : resolveRef owSchema r = some t) (hv : valid ip6 owSchema m t x = true) (hwf : x.WF) :
    ∃ d, x = .dict d ∧ RadioIs d ps (· ∈ cs) ws ∧ (hw ≠ [] → OptIn d "hwmode" hw) ∧ (bd ≠ [] → OptIn d "band" bd) := by
  unfold altAt at h
  rw [hr] at h
  exact radioAlt_sound h hv hwf

theorem mem_channels60 (c : Int) : c ∈ ([1, 2, 3, 4, 5, 6, 9, 10, 11, 12, 13, 17, 18, 19, 20, 25, 26, 27] : List Int) ↔ Channel60 c := by
  simp only [List.mem_cons, List.not_mem_nil, or_false, Channel60]
  omega

/-- Every radio of a configuration that the schema of the OpenWrt backend accepts is one of the alternatives of `ValidRadio`. -/
theorem radio_valid {ip6 : Ip6} {config : VDict} (h : OwValid ip6 config) (hw : (Val.dict config).WF) {l : List Val}
    (hl : Dict.get? config "radios" = some (.list l)) {x : Val} (hx : x ∈ l) : ∃ d f, x = .dict d ∧ ValidRadio d f := by
  obtain ⟨m, r, t, hr, ht, hv⟩ := radio_alternative h hl hx
  have hwf : x.WF := wf_each hw hl hx
  simp only [radioRefs, List.mem_cons, List.not_mem_nil, or_false] at hr
  rcases hr with rfl | rfl | rfl | rfl | rfl | rfl | rfl | rfl | rfl
  · obtain ⟨d, e, h1, h2, h3⟩ := altAt_sound (ps := ["802.11ax"]) (cs := channels2ghz) (ws := [20, 40, 80, 160]) (hw := ["11g"]) (bd := ["2g"]) (by decide +kernel) ht hv hwf
    exact ⟨d, _, e, .ax2 (h1.of fun c => (mem_channels2 c).1) (h2 (by simp)) (h3 (by simp))⟩
  · obtain ⟨d, e, h1, h2, h3⟩ := altAt_sound (ps := ["802.11n"]) (cs := channels2ghz) (ws := [20, 40]) (hw := ["11g"]) (bd := ["2g"]) (by decide +kernel) ht hv hwf
    exact ⟨d, _, e, .gn (h1.of fun c => (mem_channels2 c).1) (h2 (by simp)) (h3 (by simp))⟩
  · obtain ⟨d, e, h1, _, _⟩ := altAt_sound (ps := ["802.11b", "802.11g"]) (cs := channels2ghz) (ws := [20]) (hw := []) (bd := []) (by decide +kernel) ht hv hwf
    exact ⟨d, _, e, .bg (h1.of fun c => (mem_channels2 c).1)⟩
  · obtain ⟨d, e, h1, h2, h3⟩ := altAt_sound (ps := ["802.11ax"]) (cs := channels5ghz) (ws := [20, 40, 80, 160]) (hw := ["11a"]) (bd := ["5g"]) (by decide +kernel) ht hv hwf
    exact ⟨d, _, e, .ax5 (h1.of fun c => (mem_channels5 c).1) (h2 (by simp)) (h3 (by simp))⟩
  · obtain ⟨d, e, h1, h2, h3⟩ := altAt_sound (ps := ["802.11ac"]) (cs := channels5ghz) (ws := [20, 40, 80, 160]) (hw := ["11a"]) (bd := ["5g"]) (by decide +kernel) ht hv hwf
    exact ⟨d, _, e, .ac (h1.of fun c => (mem_channels5 c).1) (h2 (by simp)) (h3 (by simp))⟩
  · obtain ⟨d, e, h1, h2, h3⟩ := altAt_sound (ps := ["802.11n"]) (cs := channels5ghz) (ws := [20, 40]) (hw := ["11a"]) (bd := ["5g"]) (by decide +kernel) ht hv hwf
    exact ⟨d, _, e, .an (h1.of fun c => (mem_channels5 c).1) (h2 (by simp)) (h3 (by simp))⟩
  · obtain ⟨d, e, h1, _, _⟩ := altAt_sound (ps := ["802.11a"]) (cs := channels5ghz) (ws := [20]) (hw := []) (bd := []) (by decide +kernel) ht hv hwf
    exact ⟨d, _, e, .a (h1.of fun c => (mem_channels5 c).1)⟩
  · obtain ⟨d, e, h1, _, h3⟩ := altAt_sound (ps := ["802.11ax"]) (cs := channels6ghz) (ws := [20, 40, 80, 160]) (hw := []) (bd := ["6g"]) (by decide +kernel) ht hv hwf
    exact ⟨d, _, e, .ax6 (h1.of fun c => (mem_channels6 c).1) (h3 (by simp))⟩
  · obtain ⟨d, e, h1, _, h3⟩ := altAt_sound (ps := ["802.11ad"]) (cs := [1, 2, 3, 4, 5, 6, 9, 10, 11, 12, 13, 17, 18, 19, 20, 25, 26, 27]) (ws := [20, 40, 80, 160]) (hw := [])
      (bd := ["60g"]) (by decide +kernel) ht hv hwf
    exact ⟨d, _, e, .ad (h1.of fun c => (mem_channels60 c).1) (h3 (by simp))⟩

/-- **C46** for configurations that the schema accepts: every radio of such a configuration is converted, whatever the syntax. -/
theorem C46_schema {ip6 : Ip6} {config : VDict} (h : OwValid ip6 config) (hw : (Val.dict config).WF) (env : Env) (dsa : Bool) {l : List Val}
    (hl : Dict.get? config "radios" = some (.list l)) {x : Val} (hx : x ∈ l) : ∃ d f b, x = .dict d ∧ ValidRadio d f ∧ radioBlock env dsa d = .ok b := by
  obtain ⟨d, f, e, hv⟩ := radio_valid h hw hl hx
  obtain ⟨b, hb⟩ := C46_total env dsa d f hv
  exact ⟨d, f, b, e, hv, hb⟩

end NJ
