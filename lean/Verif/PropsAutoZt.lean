import Verif.PropsAutoWg
import Verif.ZeroTier
import Verif.Same

/-!
# C93: what OpenWrt's `zerotier_auto_client` returns is valid
-/

namespace NJ

/-- **Specification.** The options of networks: truth values -/
def FlagsOk (d : VDict) : Prop := ∀ k ∈ ["allow_managed", "allow_global", "allow_default", "allow_dns"], ∀ v, Dict.get? d k = some v → ∃ b, v = .bool b

/-- **Specification.** A network: an identifier of 16 characters, an interface name of 1 to 10, and options -/
structure NetworkOk (d : VDict) : Prop where
  id : ∃ s : String, Dict.get? d "id" = some (.str s) ∧ s.length = 16
  ifname : ∃ s : String, Dict.get? d "ifname" = some (.str s) ∧ 1 ≤ s.length ∧ s.length ≤ 10
  flags : FlagsOk d

/-- **Specification.** Arguments that the schema allows; networks are distinct, and the options of the client do not name another network -/
structure ZtArgsOk (a : ZtArgs) : Prop where
  name : ∀ v, a.name = some v → ∃ s : String, v = .str s ∧ 1 ≤ s.length
  networks : ∀ l, a.networks = some l → (∀ d ∈ l, NetworkOk d) ∧ (l.map fun d => Dict.get? d "id").Nodup
  secret : ∀ v, a.secret = some v → ∃ s, v = .str s
  configPath : ∀ v, a.configPath = some v → ∃ s, v = .str s
  disabled : ∀ v, a.disabled = some v → ∃ b, v = .bool b
  options : ∀ d, a.clientOptions = some d → (Dict.keys d).Nodup ∧ FlagsOk d ∧ Dict.get? d "id" = none ∧ Dict.get? d "ifname" = none

/-- equal objects have equal texts -/
theorem jsEq_text : ∀ {d e : VDict} {k s : String}, Val.jsEqD d e = true → Dict.get? d k = some (.str s) → Dict.get? e k = some (.str s)
  | [], _, _, _, _, hk => by cases hk
  | (k', v) :: r, e, k, s, h, hk => by
    rw [Val.jsEqD, Bool.and_eq_true] at h
    rw [Dict.get?_cons] at hk
    split at hk
    · next e' =>
      subst e'
      cases hk
      have h := h.1
      cases hw : Dict.get? e k' with
      | none => rw [hw] at h; cases h
      | some w =>
        rw [hw] at h
        cases w <;> simp [Val.jsEq] at h
        rw [h]
    · exact jsEq_text h.2 hk

theorem unique_of_text {l : List VDict} {k : String} (h : ∀ d ∈ l, ∃ s : String, Dict.get? d k = some (.str s)) (hn : (l.map fun d => Dict.get? d k).Nodup) :
    uniqueOk (l.map .dict) = true := by
  induction l with
  | nil => rfl
  | cons d l ih =>
    obtain ⟨hx, hn⟩ := List.nodup_cons.1 hn
    rw [List.map_cons, uniqueOk, ih (fun e he => h e (List.mem_cons_of_mem _ he)) hn, Bool.and_true, Bool.not_eq_true', Bool.eq_false_iff]
    intro ha
    obtain ⟨g, hg, he⟩ := List.any_eq_true.1 ha
    obtain ⟨e, he', rfl⟩ := List.mem_map.1 hg
    rw [Val.jsEq, Bool.and_eq_true] at he
    obtain ⟨s, hs⟩ := h d (List.mem_cons_self ..)
    refine hx (List.mem_map.2 ⟨e, he', ?_⟩)
    exact (jsEq_text he.2 hs).trans hs.symm

section
variable {ip6 : Ip6} {root : VDict} {n : Nat}

def autoZtItem : VDict := match owSchema_pro_zerotier with
  | .dict d => match Dict.get? d "items" with
    | some (.dict i) => i
    | _ => []
  | _ => []
def ztNetsSchema : Val := (Dict.get? (propsOf (.dict autoZtItem)) "networks").getD .none
def autoZtNetItem : VDict := match ztNetsSchema with
  | .dict d => match Dict.get? d "items" with
    | some (.dict i) => i
    | _ => []
  | _ => []

theorem ztNetwork_ok {d : VDict} (h : NetworkOk d) : valid ip6 root (n + 2) (.dict autoZtNetItem) (.dict d) = true := by
  have e : autoZtNetItem = [("type", .str "object"), ("allOf", .list [.dict [("required", .list (["id", "ifname"].map .str))]]), ("properties", .dict
    [("id", .dict [("type", .str "string"), ("maxLength", .int 16), ("minLength", .int 16)]),
     ("ifname", .dict [("type", .str "string"), ("minLength", .int 1), ("maxLength", .int 10)]), ("allow_managed", .dict [("type", .str "boolean")]),
     ("allow_global", .dict [("type", .str "boolean")]), ("allow_default", .dict [("type", .str "boolean")]), ("allow_dns", .dict [("type", .str "boolean")])])] := rfl
  obtain ⟨i, hi, li⟩ := h.id
  obtain ⟨f, hf, l1, l2⟩ := h.ifname
  rw [e, valid_plain rfl]
  simp only [List.all_cons, List.all_nil, Bool.and_true, Bool.and_eq_true]
  refine ⟨rfl, ?_, props_iff.2 ?_⟩
  · change (valid ip6 root (n + 1) _ _ && true) = true
    rw [Bool.and_true, valid_plain rfl]
    simp only [List.all_cons, List.all_nil, Bool.and_true]
    refine required_iff.2 ?_
    intro k hk
    simp only [List.mem_cons, List.not_mem_nil, or_false] at hk
    rcases hk with rfl | rfl
    · rw [Dict.has_eq, hi]; rfl
    · rw [Dict.has_eq, hf]; rfl
  · intro p hp x hx
    simp only [List.mem_cons, List.not_mem_nil, or_false] at hp
    rcases hp with rfl | rfl | rfl | rfl | rfl | rfl
    · rw [hi] at hx
      cases hx
      rw [valid_plain rfl]
      change (true && (decide ((i.length : Int) ≤ 16) && (decide ((16 : Int) ≤ i.length) && true))) = true
      rw [li]
      rfl
    · rw [hf] at hx
      cases hx
      rw [valid_plain rfl]
      change (true && (decide ((1 : Int) ≤ f.length) && (decide ((f.length : Int) ≤ 10) && true))) = true
      simp
      omega
    all_goals
      obtain ⟨b, rfl⟩ := h.flags _ (by simp) x hx
      rfl

theorem autoZtNets_ok {l : List VDict} (h : ∀ d ∈ l, NetworkOk d) (hn : (l.map fun d => Dict.get? d "id").Nodup) :
    valid ip6 root (n + 3) ztNetsSchema (.list (l.map .dict)) = true := by
  have e : ztNetsSchema = .dict [("type", .str "array"), ("uniqueItems", .bool true), ("items", .dict autoZtNetItem)] := rfl
  rw [e, valid_plain rfl]
  change (true && (uniqueOk (l.map .dict) && ((l.map .dict).all (valid ip6 root (n + 2) (.dict autoZtNetItem)) && true))) = true
  rw [unique_of_text (fun d hd => (h d hd).id.imp fun _ h => h.1) hn, Bool.true_and, Bool.true_and, Bool.and_true, List.all_eq_true]
  intro v hv
  obtain ⟨d, hd, rfl⟩ := List.mem_map.1 hv
  exact ztNetwork_ok (h d hd)

/-- the network with the options of the client -/
theorem network_update {d o : VDict} (h : NetworkOk d) (ho : (Dict.keys o).Nodup ∧ FlagsOk o ∧ Dict.get? o "id" = none ∧ Dict.get? o "ifname" = none) :
    NetworkOk (Dict.update d o) ∧ Dict.get? (Dict.update d o) "id" = Dict.get? d "id" := by
  have hu : ∀ k, Dict.get? o k = none → Dict.get? (Dict.update d o) k = Dict.get? d k := fun k hk => by
    rw [get?_update_nodup d o ho.1, hk]
  refine ⟨⟨?_, ?_, ?_⟩, hu _ ho.2.2.1⟩
  · rw [hu _ ho.2.2.1]; exact h.id
  · rw [hu _ ho.2.2.2]; exact h.ifname
  · intro k hk v hv
    rw [get?_update_nodup d o ho.1] at hv
    cases e : Dict.get? o k with
    | none => rw [e] at hv; exact h.flags k hk v hv
    | some w => rw [e] at hv; cases hv; exact ho.2.1 k hk _ e

/-- what is made -/
def autoZt (name networks secret path disabled : Val) : VDict :=
  [("name", name), ("networks", networks), ("secret", secret), ("config_path", path), ("disabled", disabled)]

theorem autoZt_ok {name secret path disabled : Val} {l : List VDict} (h1 : ∃ s : String, name = .str s ∧ 1 ≤ s.length) (h2 : ∀ d ∈ l, NetworkOk d)
    (h3 : (l.map fun d => Dict.get? d "id").Nodup) (h4 : ∃ s, secret = .str s) (h5 : ∃ s, path = .str s) (h6 : ∃ b, disabled = .bool b) :
    valid ip6 root (n + 5) owSchema_pro_zerotier (.list [.dict (autoZt name (.list (l.map .dict)) secret path disabled)]) = true := by
  obtain ⟨name, rfl, hl⟩ := h1
  obtain ⟨secret, rfl⟩ := h4
  obtain ⟨path, rfl⟩ := h5
  obtain ⟨disabled, rfl⟩ := h6
  have e : owSchema_pro_zerotier = .dict [("type", .str "array"), ("uniqueItems", .bool true), ("items", .dict autoZtItem)] := rfl
  rw [e, valid_plain rfl]
  change (true && (true && ((valid ip6 root (n + 4) (.dict autoZtItem) _ && true) && true))) = true
  have e : autoZtItem = [("type", .str "object"), ("required", .list (["name", "networks"].map .str)), ("properties", .dict
    [("disabled", .dict [("type", .str "boolean")]), ("name", .dict [("type", .str "string"), ("minLength", .int 1)]), ("networks", ztNetsSchema),
     ("secret", .dict [("type", .str "string")]), ("config_path", .dict [("type", .str "string")]),
     ("copy_config_path", .dict [("type", .str "string"), ("enum", .list [.str "0", .str "1"])]),
     ("port", .dict [("type", .str "integer"), ("minimum", .int 1), ("maximum", .int 65535)]), ("local_conf_path", .dict [("type", .str "string")])])] := rfl
  have : valid ip6 root (n + 4) (.dict autoZtItem) (.dict (autoZt (.str name) (.list (l.map .dict)) (.str secret) (.str path) (.bool disabled))) = true := by
    rw [e, valid_plain rfl]
    simp only [List.all_cons, List.all_nil, Bool.and_true, Bool.and_eq_true]
    refine ⟨rfl, required_iff.2 ?_, props_iff.2 ?_⟩
    · intro k hk
      simp only [List.mem_cons, List.not_mem_nil, or_false] at hk
      rcases hk with rfl | rfl <;> rfl
    · intro p hp x hx
      simp only [List.mem_cons, List.not_mem_nil, or_false] at hp
      rcases hp with rfl | rfl | rfl | rfl | rfl | rfl | rfl | rfl
      · cases hx; rfl
      · cases hx; exact text_min (a := 1) hl
      · cases hx; exact autoZtNets_ok h2 h3
      · cases hx; rfl
      · cases hx; rfl
      all_goals cases hx
  rw [this]
  rfl

/-- OpenWrt accepts a list of ZeroTier clients -/
theorem ow_accepts_zt {v : Val} {env : Env} {sh : Val → Bool} {loads : Chars → Option Val} {dsa : Bool}
    (hp : valid env.ip6 owSchema 23 owSchema_pro_zerotier v = true) :
    validate (openwrtClass env (owValidate env.ip6) sh loads dsa) [("zerotier", v)] = .ok () := by
  have hsch : owValidate env.ip6 [("zerotier", v)] = .ok () := by
    unfold owValidate
    refine if_pos ?_
    change valid env.ip6 owSchema 24 (.dict owSchema) (.dict _) = true
    have er' : owSchema = [("type", .str "object"), ("definitions", .dict owSchema_definitions), ("properties", .dict owSchema_properties)] := rfl
    rw [valid_plain rfl]
    conv => lhs; arg 1; rw [er']
    simp only [List.all_cons, List.all_nil, Bool.and_true, Bool.and_eq_true]
    refine ⟨rfl, rfl, props_iff.2 fun p hp' x hx => ?_⟩
    rw [Dict.get?_cons] at hx
    have hpro : ∀ p ∈ owSchema_properties, p.1 = "zerotier" → p.2 = owSchema_pro_zerotier := by
      unfold owSchema_properties
      simp
    split at hx
    · next e =>
      cases hx
      rw [hpro p hp' e.symm]
      exact hp
    · cases hx
  unfold validate
  change (Except.ok () >>= fun _ => owValidate env.ip6 _ >>= fun _ => Except.ok () >>= fun _ => validatePvid _) = Except.ok ()
  rw [hsch]
  rfl

end

/-- **C93**, ZeroTier: for all arguments that the schema allows, OpenWrt accepts what its `zerotier_auto_client` returns. -/
theorem C93_zerotier (env : Env) (sh : Val → Bool) (loads : Chars → Option Val) (dsa : Bool) (a : ZtArgs) (ha : ZtArgsOk a) :
    validate (openwrtClass env (owValidate env.ip6) sh loads dsa) (ztAutoClient a) = .ok () := by
  have ho : (Dict.keys (a.clientOptions.getD [])).Nodup ∧ FlagsOk (a.clientOptions.getD []) ∧ Dict.get? (a.clientOptions.getD []) "id" = none ∧
      Dict.get? (a.clientOptions.getD []) "ifname" = none := by
    cases e : a.clientOptions with
    | none => exact ⟨List.nodup_nil, fun _ _ _ h => (by cases h), rfl, rfl⟩
    | some d => exact ha.options d e
  have hn : (∀ d ∈ a.networks.getD [], NetworkOk d) ∧ ((a.networks.getD []).map fun d => Dict.get? d "id").Nodup := by
    cases e : a.networks with
    | none => exact ⟨fun _ h => (by cases h), List.nodup_nil⟩
    | some l => exact ha.networks l e
  have h := autoZt_ok (ip6 := env.ip6) (root := owSchema) (n := 18) (name := a.name.getD (.str "global"))
    (l := (a.networks.getD []).map fun d => Dict.update d (a.clientOptions.getD []))
    (secret := a.secret.getD (.str "{{secret}}")) (path := a.configPath.getD ztPath) (disabled := a.disabled.getD (.bool false)) ?_ ?_ ?_ ?_ ?_ ?_
  · rw [List.map_map] at h
    exact ow_accepts_zt h
  · cases e : a.name with
    | none => exact ⟨_, rfl, by decide⟩
    | some v => exact ha.name v e
  · intro d hd
    obtain ⟨g, hg, rfl⟩ := List.mem_map.1 hd
    exact (network_update (hn.1 g hg) ho).1
  · rw [List.map_map]
    have e : (a.networks.getD []).map ((fun d => Dict.get? d "id") ∘ fun d => Dict.update d (a.clientOptions.getD [])) =
        (a.networks.getD []).map fun d => Dict.get? d "id" :=
      List.map_congr_left fun d hd => (network_update (hn.1 d hd) ho).2
    rw [e]
    exact hn.2
  · cases e : a.secret with
    | none => exact ⟨_, rfl⟩
    | some v => exact ha.secret v e
  · cases e : a.configPath with
    | none => exact ⟨_, rfl⟩
    | some v => exact ha.configPath v e
  · cases e : a.disabled with
    | none => exact ⟨_, rfl⟩
    | some v => exact ha.disabled v e

/-! ## Samples -/

def autoZtArgs : ZtArgs := ⟨none, some [[("id", .str "9536600adf654321"), ("ifname", .str "zt0")], [("id", .str "9536600adf654322"), ("ifname", .str "zt1"), ("allow_dns", .bool true)]],
  none, none, some (.bool true), some [("allow_dns", .bool false)]⟩

theorem autoZtArgs_ok : ZtArgsOk autoZtArgs where
  name := fun v h => by cases h
  networks := fun l h => by
    cases h
    refine ⟨?_, by decide⟩
    intro d hd
    simp only [List.mem_cons, List.not_mem_nil, or_false] at hd
    rcases hd with rfl | rfl
    · refine ⟨⟨_, rfl, by decide⟩, ⟨_, rfl, by decide, by decide⟩, ?_⟩
      intro k hk v hv
      simp only [List.mem_cons, List.not_mem_nil, or_false] at hk
      rcases hk with rfl | rfl | rfl | rfl <;> cases hv
    · refine ⟨⟨_, rfl, by decide⟩, ⟨_, rfl, by decide, by decide⟩, ?_⟩
      intro k hk v hv
      simp only [List.mem_cons, List.not_mem_nil, or_false] at hk
      rcases hk with rfl | rfl | rfl | rfl <;> cases hv
      exact ⟨_, rfl⟩
  secret := fun v h => by cases h
  configPath := fun v h => by cases h
  disabled := fun v h => by cases h; exact ⟨_, rfl⟩
  options := fun d h => by
    cases h
    refine ⟨by decide, ?_, rfl, rfl⟩
    intro k hk v hv
    simp only [List.mem_cons, List.not_mem_nil, or_false] at hk
    rcases hk with rfl | rfl | rfl | rfl <;> cases hv
    exact ⟨_, rfl⟩

/-- two networks with options -/
theorem C93_sample_zerotier (env : Env) : validate (openwrtClass env (owValidate env.ip6) (fun _ => false) (fun _ => none) true) (ztAutoClient autoZtArgs) = .ok () :=
  C93_zerotier env _ _ _ _ autoZtArgs_ok

/-- options that name the network twice are refused: two networks become one -/
theorem C93_needs_options (env : Env) : validate (openwrtClass env (owValidate env.ip6) (fun _ => false) (fun _ => none) true)
    (ztAutoClient ⟨none, some [[("id", .str "9536600adf654321"), ("ifname", .str "zt0")], [("id", .str "9536600adf654322"), ("ifname", .str "zt1")]], none, none, none,
      some [("id", .str "9536600adf654321"), ("ifname", .str "zt0")]⟩) = .error .validation := by
  rfl

end NJ
