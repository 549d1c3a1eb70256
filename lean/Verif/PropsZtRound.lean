import Verif.PropsZeroTier
import Verif.PropsWifiRound

/-!
# C64: ZeroTier through UCI text and back
-/

namespace NJ

/-! ## Specification -/

/-- the options of a network that are booleans -/
def ztNetProps : Dict String JType :=
  [("allow_global", .boolean), ("allow_default", .boolean), ("allow_dns", .boolean), ("allow_managed", .boolean)]

/-- A network whose settings survive: the identifier is a text, the name of the interface is a word, the other options survive. -/
structure ZtNetOK (n : VDict) : Prop where
  options : OptionsOK ztNetProps ["ifname"] n
  id : ∃ s : String, Dict.get? n "id" = some (.str s)
  ifname : ∃ s : String, Dict.get? n "ifname" = some (.str s) ∧ IsWord s.toList

/-- An entry whose settings survive: its name is a word, `disabled` a boolean if present, the networks survive, the options named like
those UCI has for the networks and for `disabled` are not used, the other options survive. -/
structure ZtOK (name : String) (vpn : VDict) (ns : List VDict) : Prop where
  options : OptionsOK ztProps ["name", "networks", "disabled", "client_options"] vpn
  name : Dict.get? vpn "name" = some (.str name) ∧ IsWord name.toList
  networks : Dict.get? vpn "networks" = some (.list (ns.map .dict))
  each : ∀ n ∈ ns, ZtNetOK n
  disabled : Dict.get? vpn "disabled" = none ∨ ∃ b, Dict.get? vpn "disabled" = some (.bool b)
  clash : Dict.get? vpn "join" = none ∧ Dict.get? vpn "enabled" = none

/-- the name given on the way back: `owzt` and the last six characters of the identifier -/
def owzt (id : String) : Val := txt ("owzt".toList ++ id.toList.drop (id.toList.length - 6))

/-- a network as it comes back: the same options, but the name of the interface is made from the identifier -/
def NetReturned (n : VDict) (v : Val) : Prop :=
  ∃ (r : VDict) (s : String), v = .dict r ∧ Dict.get? n "id" = some (.str s) ∧
    ∀ k, Dict.get? r k = if k = "ifname" then some (owzt s) else Dict.get? n k

/-- what is left of a network in the list of identifiers -/
def JoinReturned (n : VDict) (v : Val) : Prop := ∃ s : String, Dict.get? n "id" = some (.str s) ∧ v = .dict [("id", .str s), ("ifname", owzt s)]

/-- an entry as it comes back, apart from the networks -/
def ztReturned (name : String) (vpn : VDict) (k : String) : Option Val :=
  if k = "name" then some (txt (uciName name.toList))
  else if k = "disabled" then some (.bool (ztDisabled vpn))
  else if k = "config_path" then some ((Dict.get? vpn "config_path").getD (.str "/etc/openwisp/zerotier"))
  else if k = "copy_config_path" then some ((Dict.get? vpn "copy_config_path").getD (.str "1"))
  else if k = "local_conf_path" then (Dict.get? vpn "local_conf").or (Dict.get? vpn "local_conf_path")
  else if k = "local_conf" ∨ k = "client_options" then none
  else Dict.get? vpn k

/-! ## Proofs -/

theorem typeCast_fun (props : Dict String JType) (item : VDict) (want : String → Option Val) (hn : (Dict.keys item).Nodup)
    (he : ∀ k, (Dict.get? item k = none ∧ want k = none) ∨
      ∃ r v, Dict.get? item k = some r ∧ want k = some v ∧ castValue (Dict.get? props k) r = .ok v) :
    ∃ out, typeCast props item = .ok out ∧ ∀ k, Dict.get? out k = want k := by
  have hcast : ∀ p ∈ item, castValue (Dict.get? props p.1) p.2 = .ok ((want p.1).getD .none) := by
    intro p hp
    have hg := Dict.get?_of_mem hn (k := p.1) (v := p.2) hp
    rcases he p.1 with ⟨h1, _⟩ | ⟨r, v, h1, h2, h3⟩
    · rw [h1] at hg; cases hg
    · rw [h1] at hg; cases hg
      rw [h3, h2]; rfl
  refine ⟨_, typeCast_ok props _ item hcast, ?_⟩
  intro k
  rw [Dict.get?_map_val]
  rcases he k with ⟨h1, h2⟩ | ⟨r, v, h1, h2, h3⟩
  · rw [h1, h2]; rfl
  · rw [h1, h2]; simp [h2]

theorem ztNet_plain {n b : VDict} {s : String} (h : ZtNetOK n) (hi : Dict.get? n "ifname" = some (.str s)) (hn : (Dict.keys b).Nodup)
    (hb : ∀ k, Dict.get? b k = ztNetItem s.toList n k) : PlainBlock b := by
  obtain ⟨s', hi', hw⟩ := h.ifname
  rw [hi] at hi'
  cases hi'
  refine ⟨hn, ⟨"network", by rw [hb]; rfl, by decide, by decide, by decide⟩, ⟨_, by rw [hb]; rfl, ?_⟩, ?_⟩
  · rw [String.toList_ofList]; exact uciName_word hw
  · intro k v hk h1 h2
    rw [hb] at hk
    unfold ztNetItem at hk
    rw [if_neg h2, if_neg h1] at hk
    by_cases e : k = "ifname"
    · rw [if_pos e] at hk; cases hk
    · rw [if_neg e] at hk
      obtain ⟨o1, o2, o3⟩ := h.options.options k v hk (by simpa using e)
      exact ⟨o1, o2, survives_plain o3⟩

theorem ztNet_back (reprC : Val → String) {n b : VDict} {s : String} (h : ZtNetOK n) (hi : Dict.get? n "ifname" = some (.str s))
    (hn : (Dict.keys b).Nodup) (hb : ∀ k, Dict.get? b k = ztNetItem s.toList n k) :
    ∃ r, ztNetworkBack (blockBack reprC b) = .ok r ∧ NetReturned n (.dict r) := by
  have hp := ztNet_plain h hi hn hb
  obtain ⟨id, hid⟩ := h.id
  have hdot : ∀ k, k.toList.head? = some '.' → Dict.get? n k = none := by
    intro k hk
    cases hg : Dict.get? n k with
    | none => rfl
    | some v => exact absurd hk (h.options.options k v hg (by intro e; simp at e; subst e; revert hk; decide)).2.1
  have hid2 : id ≠ "" := (h.options.options "id" _ hid (by decide)).2.2.1
  generalize hx : blockBack reprC b = x
  have hget : ∀ k, Dict.get? x k = if k = ".type" ∨ k = ".name" then ztNetItem s.toList n k else (ztNetItem s.toList n k).bind readVal := by
    intro k; rw [← hx, get?_blockBack _ hp, hb]
  have g1 : Dict.get? x ".name" = some (txt (uciName s.toList)) := by rw [hget]; rfl
  have g2 : Dict.get? (Dict.erase x ".name") ".type" = some (.str "network") := by rw [Dict.get?_erase', if_neg (by decide), hget]; rfl
  have g3 : Dict.get? (Dict.erase (Dict.erase x ".name") ".type") "id" = some (.str id) := by
    rw [Dict.get?_erase', if_neg (by decide), Dict.get?_erase', if_neg (by decide), hget, if_neg (by decide)]
    simp [ztNetItem, hid, readVal, hid2]
  refine ⟨["allow_global", "allow_default", "allow_dns", "allow_managed"].foldl castBool
    (Dict.set (Dict.erase (Dict.erase x ".name") ".type") "ifname" (owzt id)), ?_, _, id, rfl, hid, ?_⟩
  · unfold ztNetworkBack
    rw [popKey_ok g1]
    simp only [bind, Except.bind]
    rw [popKey_ok g2]
    simp only
    rw [getKey_ok g3]
    rfl
  · intro k
    rw [castBools_get _ (by decide)]
    simp only [Dict.get?_set', Dict.get?_erase']
    by_cases e : k = "ifname"
    · subst e; simp
    simp only [e, if_false]
    by_cases e1 : k = ".type"
    · subst e1; simp [hdot ".type" (by decide)]
    by_cases e2 : k = ".name"
    · subst e2; simp [hdot ".name" (by decide)]
    simp only [e1, e2, if_false, hget, or_self, ztNetItem, e]
    cases hv : Dict.get? n k with
    | none => split <;> rfl
    | some v =>
      obtain ⟨_, _, o3⟩ := h.options.options k v hv (by simpa using e)
      by_cases hm : k ∈ ["allow_global", "allow_default", "allow_dns", "allow_managed"]
      · rw [if_pos hm]
        have ht : Dict.get? ztNetProps k = some .boolean := by
          have q : ∀ k ∈ ["allow_global", "allow_default", "allow_dns", "allow_managed"], Dict.get? ztNetProps k = some .boolean := by decide +kernel
          exact q k hm
        rw [ht] at o3
        cases v with
        | bool b => cases b <;> rfl
        | str t => exact absurd rfl o3.2.2.2
        | list t => exact absurd rfl o3.2.2.2
        | int t => cases o3
        | none => exact absurd o3 (by simp [Survives])
        | dict d => exact absurd o3 (by simp [Survives])
      · rw [if_neg hm]
        have ht : Dict.get? ztNetProps k = none := by
          simp only [List.mem_cons, List.not_mem_nil, or_false, not_or] at hm
          simp [ztNetProps, Dict.get?_cons, Ne.symm hm.1, Ne.symm hm.2.1, Ne.symm hm.2.2.1, Ne.symm hm.2.2.2]
        rw [ht] at o3
        cases v with
        | bool b => cases o3
        | str t => simp [readVal, o3.1]
        | list t => cases t with
          | nil => exact absurd rfl o3.1
          | cons a as => rfl
        | int t => cases o3
        | none => exact absurd o3 (by simp [Survives])
        | dict d => exact absurd o3 (by simp [Survives])

theorem survives_truthy {t : Option JType} (ht : t = none ∨ t = some .other) {v : Val} (h : Survives t v) : v.truthy = true := by
  cases v with
  | str s => simpa [Val.truthy] using h.1
  | int i => rcases ht with rfl | rfl <;> cases h
  | bool b => rcases ht with rfl | rfl <;> cases h
  | list l => cases l with
    | nil => exact absurd rfl h.1
    | cons x xs => rfl
  | none => exact absurd h (by simp [Survives])
  | dict d => exact absurd h (by simp [Survives])

theorem zt_confTruthy {name : String} {vpn : VDict} {ns : List VDict} (h : ZtOK name vpn ns) :
    ((Dict.get? vpn "local_conf").getD .none).truthy = (Dict.get? vpn "local_conf").isSome ∧
    ((Dict.get? vpn "local_conf_path").getD .none).truthy = (Dict.get? vpn "local_conf_path").isSome := by
  constructor
  · cases hg : Dict.get? vpn "local_conf" with
    | none => rfl
    | some v => exact survives_truthy (.inl rfl) (h.options.options _ v hg (by decide)).2.2
  · cases hg : Dict.get? vpn "local_conf_path" with
    | none => rfl
    | some v => exact survives_truthy (.inr rfl) (h.options.options _ v hg (by decide)).2.2

/-- the section of the entry, shorter -/
theorem ztItem_conf {name : String} {vpn : VDict} {ns : List VDict} (h : ZtOK name vpn ns) :
    ztItem name.toList vpn ns "local_conf_path" = (Dict.get? vpn "local_conf").or (Dict.get? vpn "local_conf_path") ∧
    ztItem name.toList vpn ns "local_conf" = (Dict.get? vpn "local_conf").or (Dict.get? vpn "local_conf_path") := by
  obtain ⟨t1, t2⟩ := zt_confTruthy h
  unfold ztItem
  simp only [t1, t2]
  cases h1 : Dict.get? vpn "local_conf" <;> cases h2 : Dict.get? vpn "local_conf_path" <;> simp

theorem ztItem_other {name : String} {vpn : VDict} {ns : List VDict} {k : String}
    (hk : k ∉ [".name", ".type", "join", "enabled", "config_path", "copy_config_path", "local_conf", "local_conf_path", "name", "networks", "disabled", "client_options"]) :
    ztItem name.toList vpn ns k = Dict.get? vpn k := by
  simp only [List.mem_cons, List.not_mem_nil, or_false, not_or] at hk
  simp [ztItem, hk]

theorem zt_ids {name : String} {vpn : VDict} {ns : List VDict} (h : ZtOK name vpn ns) :
    ∃ ids : List String, ns.map (fun n => (Dict.get? n "id").getD (.str "")) = ids.map Val.str ∧
      (∀ s ∈ ids, PlainText s.toList) ∧ List.Forall₂ (fun n s => Dict.get? n "id" = some (.str s)) ns ids := by
  have key : ∀ n ∈ ns, ZtNetOK n := h.each
  clear h
  induction ns with
  | nil => exact ⟨[], rfl, by simp, .nil⟩
  | cons n ns ih =>
    obtain ⟨ids, i1, i2, i3⟩ := ih (fun m hm => key m (by simp [hm]))
    obtain ⟨s, hs⟩ := (key n (by simp)).id
    refine ⟨s :: ids, ?_, ?_, .cons hs i3⟩
    · rw [List.map_cons, i1, hs]; rfl
    · intro t ht
      rcases List.mem_cons.1 ht with rfl | ht
      · exact ((key n (by simp)).options.options "id" _ hs (by decide)).2.2.2.1
      · exact i2 t ht

theorem zt_conf_survives {name : String} {vpn : VDict} {ns : List VDict} (h : ZtOK name vpn ns) {v : Val}
    (hv : (Dict.get? vpn "local_conf").or (Dict.get? vpn "local_conf_path") = some v) : Survives none v := by
  have hs : ∀ v, Survives (some .other) v → Survives none v := by
    intro v hv
    cases v with
    | str s => exact ⟨hv.1, hv.2.1, by decide, by decide⟩
    | list s => exact ⟨hv.1, hv.2.1, by decide, by decide⟩
    | bool s => cases hv
    | int s => cases hv
    | none => exact absurd hv (by simp [Survives])
    | dict d => exact absurd hv (by simp [Survives])
  cases h1 : Dict.get? vpn "local_conf" with
  | some w => rw [h1] at hv; cases hv; exact (h.options.options _ _ h1 (by decide)).2.2
  | none =>
    rw [h1] at hv
    exact hs v (h.options.options "local_conf_path" v (by simpa using hv) (by decide)).2.2

theorem zt_plain {name : String} {vpn : VDict} {ns : List VDict} {b : VDict} (h : ZtOK name vpn ns) (hn : (Dict.keys b).Nodup)
    (hb : ∀ k, Dict.get? b k = ztItem name.toList vpn ns k) : PlainBlock b := by
  refine ⟨hn, ⟨"zerotier", by rw [hb]; rfl, by decide, by decide, by decide⟩, ⟨_, by rw [hb]; rfl, ?_⟩, ?_⟩
  · rw [String.toList_ofList]; exact uciName_word h.name.2
  · intro k v hk h1 h2
    rw [hb] at hk
    have two : ∀ (k d : String), k ∉ ["name", "networks", "disabled", "client_options"] → PlainText d.toList → PlainVal ((Dict.get? vpn k).getD (.str d)) := by
      intro k d hk hd
      cases hg : Dict.get? vpn k with
      | none => exact hd
      | some v => exact survives_plain (h.options.options k v hg hk).2.2
    by_cases e1 : k = "join"
    · subst e1
      obtain ⟨ids, i1, i2, _⟩ := zt_ids h
      have : v = .list (ids.map .str) := by
        have hk' : some (Val.list (ns.map (fun n => (Dict.get? n "id").getD (.str "")))) = some v := hk
        rw [i1] at hk'
        exact (Option.some.inj hk').symm
      subst this
      refine ⟨by decide, by decide, ?_⟩
      intro w hw
      obtain ⟨s, hs, rfl⟩ := List.mem_map.1 hw
      exact ⟨s, rfl, i2 s hs⟩
    by_cases e2 : k = "enabled"
    · subst e2; cases hk; exact ⟨by decide, by decide, trivial⟩
    by_cases e3 : k = "config_path"
    · subst e3; cases hk; exact ⟨by decide, by decide, two _ _ (by decide) (by decide +kernel)⟩
    by_cases e4 : k = "copy_config_path"
    · subst e4; cases hk; exact ⟨by decide, by decide, two _ _ (by decide) (by decide +kernel)⟩
    by_cases e5 : k = "local_conf_path"
    · subst e5
      rw [(ztItem_conf h).1] at hk
      exact ⟨by decide, by decide, survives_plain (zt_conf_survives h hk)⟩
    by_cases e6 : k = "local_conf"
    · subst e6
      rw [(ztItem_conf h).2] at hk
      exact ⟨by decide, by decide, survives_plain (zt_conf_survives h hk)⟩
    by_cases e7 : k = "name" ∨ k = "networks" ∨ k = "disabled" ∨ k = "client_options"
    · exfalso
      rcases e7 with rfl | rfl | rfl | rfl <;> simp [ztItem] at hk
    · simp only [not_or] at e7
      rw [ztItem_other (by simp [h1, h2, e1, e2, e3, e4, e5, e6, e7])] at hk
      obtain ⟨o1, o2, o3⟩ := h.options.options k v hk (by simp [e7])
      exact ⟨o1, o2, survives_plain o3⟩

theorem zt_join {ns : List VDict} {ids : List String} (h : List.Forall₂ (fun n s => Dict.get? n "id" = some (.str s)) ns ids) :
    ∃ js, (ids.map Val.str).mapM ztJoin = .ok js ∧ List.Forall₂ JoinReturned ns js := by
  induction h with
  | nil => exact ⟨[], rfl, .nil⟩
  | cons h1 _ ih =>
    obtain ⟨js, i1, i2⟩ := ih
    exact ⟨_, (mapM_ok_cons _ _ _ _).2 ⟨_, js, rfl, i1, rfl⟩, .cons ⟨_, h1, rfl⟩ i2⟩

/-- the configuration after the renaming, before the types -/
def ztConfBack (d : VDict) : VDict :=
  match Dict.get? d "local_conf" with
  | some v => Dict.set (Dict.erase d "local_conf") "local_conf_path" v
  | none => d

theorem zt_back (reprC : Val → String) {name : String} {vpn : VDict} {ns : List VDict} {b : VDict} (h : ZtOK name vpn ns) (hn : (Dict.keys b).Nodup)
    (hb : ∀ k, Dict.get? b k = ztItem name.toList vpn ns k) :
    ∃ r js, ztVpnBack (blockBack reprC b) = .ok r ∧ List.Forall₂ JoinReturned ns js ∧
      ∀ k, Dict.get? r k = if k = "networks" then some (.list js) else ztReturned name vpn k := by
  have hp := zt_plain h hn hb
  have hdot : ∀ k, k.toList.head? = some '.' → Dict.get? vpn k = none := by
    intro k hk
    cases hg : Dict.get? vpn k with
    | none => rfl
    | some v =>
      refine absurd hk (h.options.options k v hg ?_).2.1
      intro e
      simp only [List.mem_cons, List.not_mem_nil, or_false] at e
      rcases e with rfl | rfl | rfl | rfl <;> revert hk <;> decide
  obtain ⟨ids, i1, i2, i3⟩ := zt_ids h
  obtain ⟨js, j1, j2⟩ := zt_join i3
  generalize hx : blockBack reprC b = x
  have hget : ∀ k, Dict.get? x k = if k = ".type" ∨ k = ".name" then ztItem name.toList vpn ns k else (ztItem name.toList vpn ns k).bind readVal := by
    intro k; rw [← hx, get?_blockBack _ hp, hb]
  have hxn : (Dict.keys x).Nodup := by rw [← hx]; exact blockBack_nodup _ hp
  clear hx
  have g1 : Dict.get? x ".name" = some (txt (uciName name.toList)) := by rw [hget]; rfl
  have g2 : Dict.get? x ".type" = some (.str "zerotier") := by rw [hget]; rfl
  have g3 : Dict.get? x "enabled" = some (.str (if ztDisabled vpn then "0" else "1")) := by
    rw [hget, if_neg (by decide)]
    show readVal (.bool (!ztDisabled vpn)) = _
    cases ztDisabled vpn <;> rfl
  have g4 : iterate ((Dict.get? x "join").getD (.list [])) = .ok (ids.map .str) := by
    rw [hget, if_neg (by decide)]
    have e : ztItem name.toList vpn ns "join" = some (.list (ids.map .str)) := by rw [← i1]; rfl
    rw [e]
    cases ids <;> rfl
  have g5 : (ztItem name.toList vpn ns "local_conf").bind readVal = ztItem name.toList vpn ns "local_conf" := by
    rw [(ztItem_conf h).2]
    cases hv : (Dict.get? vpn "local_conf").or (Dict.get? vpn "local_conf_path") with
    | none => rfl
    | some v =>
      have := zt_conf_survives h hv
      cases v with
      | str t => simp [readVal, this.1]
      | list t => cases t with
        | nil => exact absurd rfl this.1
        | cons a as => rfl
      | bool t => cases this
      | int t => cases this
      | none => exact absurd this (by simp [Survives])
      | dict d => exact absurd this (by simp [Survives])
  -- the data before the renaming of `local_conf`
  generalize hd : Dict.set (Dict.erase (Dict.erase (Dict.set (Dict.erase (Dict.set (Dict.erase x ".name") "name" (txt (uciName name.toList))) "enabled")
    "disabled" (.bool (ztDisabled vpn))) ".type") "join") "networks" (.list js) = d
  have hdn : (Dict.keys d).Nodup := by
    rw [← hd]
    exact Dict.nodup_set (Dict.nodup_erase (Dict.nodup_erase (Dict.nodup_set (Dict.nodup_erase (Dict.nodup_set (Dict.nodup_erase hxn _) _ _) _) _ _) _) _) _ _
  have hdg : ∀ k, Dict.get? d k = if k = "networks" then some (.list js) else if k = "join" then none else if k = ".type" then none
      else if k = "disabled" then some (.bool (ztDisabled vpn)) else if k = "enabled" then none else if k = "name" then some (txt (uciName name.toList))
      else if k = ".name" then none else Dict.get? x k := by
    intro k
    rw [← hd]
    simp only [Dict.get?_set', Dict.get?_erase']
  have hlc : Dict.get? d "local_conf" = (Dict.get? vpn "local_conf").or (Dict.get? vpn "local_conf_path") := by
    rw [hdg]
    simp only [show ("local_conf" = "networks") = False by simp, show ("local_conf" = "join") = False by simp, show ("local_conf" = ".type") = False by simp,
      show ("local_conf" = "disabled") = False by simp, show ("local_conf" = "enabled") = False by simp, show ("local_conf" = "name") = False by simp,
      show ("local_conf" = ".name") = False by simp, if_false]
    rw [hget, if_neg (by decide), g5, (ztItem_conf h).2]
  have hcn : (Dict.keys (ztConfBack d)).Nodup := by
    unfold ztConfBack
    split
    · exact Dict.nodup_set (Dict.nodup_erase hdn _) _ _
    · exact hdn
  have hcg : ∀ k, Dict.get? (ztConfBack d) k = if k = "local_conf" then none else
      if k = "local_conf_path" then (Dict.get? vpn "local_conf").or (Dict.get? vpn "local_conf_path") else Dict.get? d k := by
    intro k
    unfold ztConfBack
    rw [hlc]
    cases hv : (Dict.get? vpn "local_conf").or (Dict.get? vpn "local_conf_path") with
    | none =>
      simp only
      by_cases e1 : k = "local_conf"
      · rw [if_pos e1, e1, hlc, hv]
      rw [if_neg e1]
      by_cases e2 : k = "local_conf_path"
      · rw [if_pos e2, e2, hdg]
        simp [hget, (ztItem_conf h).1, hv]
      · rw [if_neg e2]
    | some v =>
      simp only [Dict.get?_set', Dict.get?_erase']
      by_cases e1 : k = "local_conf"
      · subst e1; simp
      · simp only [e1, if_false]
  obtain ⟨out, o1, o2⟩ := typeCast_fun ztProps (ztConfBack d) (fun k => if k = "networks" then some (.list js) else ztReturned name vpn k) hcn (by
    intro k
    rw [hcg, hdg]
    by_cases e1 : k = "networks"
    · subst e1; exact .inr ⟨.list js, .list js, by simp, by simp, rfl⟩
    by_cases e2 : k = "local_conf"
    · subst e2; exact .inl ⟨by simp, by simp [ztReturned]⟩
    rw [if_neg e1, if_neg e2, if_neg e1]
    by_cases e3 : k = "local_conf_path"
    · subst e3
      rw [if_pos rfl]
      unfold ztReturned
      simp only [show ("local_conf_path" = "name") = False by simp, show ("local_conf_path" = "disabled") = False by simp,
        show ("local_conf_path" = "config_path") = False by simp, show ("local_conf_path" = "copy_config_path") = False by simp, if_false, if_true]
      cases hv : (Dict.get? vpn "local_conf").or (Dict.get? vpn "local_conf_path") with
      | none => exact .inl ⟨rfl, rfl⟩
      | some v => exact .inr ⟨v, v, rfl, rfl, rfl⟩
    rw [if_neg e3]
    by_cases e4 : k = "join"
    · subst e4; exact .inl ⟨rfl, by simp [ztReturned, h.clash.1]⟩
    by_cases e5 : k = ".type"
    · subst e5; exact .inl ⟨rfl, by simp [ztReturned, hdot ".type" (by decide)]⟩
    by_cases e6 : k = "disabled"
    · subst e6; exact .inr ⟨_, _, rfl, rfl, rfl⟩
    by_cases e7 : k = "enabled"
    · subst e7; exact .inl ⟨rfl, by simp [ztReturned, h.clash.2]⟩
    by_cases e8 : k = "name"
    · subst e8; exact .inr ⟨_, _, rfl, rfl, rfl⟩
    by_cases e9 : k = ".name"
    · subst e9; exact .inl ⟨rfl, by simp [ztReturned, hdot ".name" (by decide)]⟩
    rw [if_neg e4, if_neg e5, if_neg e6, if_neg e7, if_neg e8, if_neg e9, hget, if_neg (by simp [e5, e9])]
    have two : ∀ (k d : String), k ∉ ["name", "networks", "disabled", "client_options"] → Survives (Dict.get? ztProps k) (.str d) →
        Survives (Dict.get? ztProps k) ((Dict.get? vpn k).getD (.str d)) := by
      intro k d hk hd
      cases hg : Dict.get? vpn k with
      | none => exact hd
      | some v => exact (h.options.options k v hg hk).2.2
    by_cases e10 : k = "config_path"
    · subst e10
      obtain ⟨r, s1, s2⟩ := survives_spec (two "config_path" "/etc/openwisp/zerotier" (by decide) (survivesB_sound (by decide +kernel)))
      exact .inr ⟨r, _, s1, rfl, s2⟩
    by_cases e11 : k = "copy_config_path"
    · subst e11
      obtain ⟨r, s1, s2⟩ := survives_spec (two "copy_config_path" "1" (by decide) (survivesB_sound (by decide +kernel)))
      exact .inr ⟨r, _, s1, rfl, s2⟩
    by_cases e12 : k = "client_options"
    · subst e12; exact .inl ⟨by simp [ztItem], by simp [ztReturned]⟩
    rw [ztItem_other (by simp [*])]
    have e : ztReturned name vpn k = Dict.get? vpn k := by unfold ztReturned; simp [*]
    rw [e]
    cases hv : Dict.get? vpn k with
    | none => exact .inl ⟨rfl, rfl⟩
    | some v =>
      obtain ⟨r, s1, s2⟩ := survives_spec (h.options.options k v hv (by simp [*])).2.2
      exact .inr ⟨r, v, by simp [s1], rfl, s2⟩)
  refine ⟨out, js, ?_, j2, o2⟩
  rw [← o1]
  unfold ztVpnBack
  rw [popKey_ok g1]
  have f1 : popOr (Dict.set (Dict.erase x ".name") "name" (txt (uciName name.toList))) "enabled" (.str "0") =
      (.str (if ztDisabled vpn then "0" else "1"), Dict.erase (Dict.set (Dict.erase x ".name") "name" (txt (uciName name.toList))) "enabled") := by
    rw [popOr_pair, Dict.get?_set', if_neg (by decide), Dict.get?_erase', if_neg (by decide), g3]; rfl
  have f2 : decide (Val.str (if ztDisabled vpn then "0" else "1") = .str "0") = ztDisabled vpn := by cases ztDisabled vpn <;> rfl
  have f3 : popKey (Dict.set (Dict.erase (Dict.set (Dict.erase x ".name") "name" (txt (uciName name.toList))) "enabled")
      "disabled" (.bool (ztDisabled vpn))) ".type" = .ok (.str "zerotier", Dict.erase (Dict.set (Dict.erase (Dict.set (Dict.erase x ".name") "name" (txt (uciName name.toList))) "enabled")
      "disabled" (.bool (ztDisabled vpn))) ".type") := popKey_ok (by simp [Dict.get?_set', Dict.get?_erase', g2])
  simp only [bind, Except.bind, f1, f2, f3]
  rw [popOr_pair]
  have f4 : Dict.get? (Dict.erase (Dict.set (Dict.erase (Dict.set (Dict.erase x ".name") "name" (txt (uciName name.toList))) "enabled")
      "disabled" (.bool (ztDisabled vpn))) ".type") "join" = Dict.get? x "join" := by simp [Dict.get?_set', Dict.get?_erase']
  simp only [f4, g4, j1, hd]
  rfl

/-- what the loop over the `network` sections does to the entry -/
theorem zt_nets (reprC : Val → String) (ns : List VDict) (bs : List Val) (h : ∀ n ∈ ns, ZtNetOK n) (hb : List.Forall₂ NetSection ns bs) :
    ∃ (cs : List VDict) (rs : List Val), bs = cs.map .dict ∧ (∀ c ∈ cs, PlainBlock c ∧ skipBlock (some ["zerotier", "network"]) (blockBack reprC c) = false) ∧
      List.Forall₂ NetReturned ns rs ∧
      ∀ (i : Nat) (r : VDict) (l : List Val), Dict.get? r "networks" = some (.list l) → ∃ r', backFold (some ["zerotier", "network"])
        (fun i b (acc : Unit × VDict) => do let r ← ztBack i b acc.2; pure ((), r)) i (cs.map (blockBack reprC)) ((), [("zerotier", .list [.dict r])]) =
          .ok ((), [("zerotier", .list [.dict r'])]) ∧ (∀ k, Dict.get? r' k = if k = "networks" then some (.list (l ++ rs)) else Dict.get? r k) := by
  induction hb with
  | nil =>
    refine ⟨[], [], rfl, by simp, .nil, fun i r l hl => ⟨r, rfl, fun k => ?_⟩⟩
    by_cases e : k = "networks"
    · rw [if_pos e, e, hl, List.append_nil]
    · rw [if_neg e]
  | @cons n v ns bs hd _ ih =>
    obtain ⟨cs, rs, rfl, i2, i3, i4⟩ := ih (fun m hm => h m (by simp [hm]))
    obtain ⟨b, s, rfl, b2, b3, b4⟩ := hd
    obtain ⟨x, x1, x2⟩ := ztNet_back reprC (h n (by simp)) b2 b3 b4
    have hp := ztNet_plain (h n (by simp)) b2 b3 b4
    have ht : Dict.get? (blockBack reprC b) ".type" = some (.str "network") := by rw [get?_blockBack _ hp, b4]; rfl
    have hsk : skipBlock (some ["zerotier", "network"]) (blockBack reprC b) = false := skip_of_type ht (by simp)
    refine ⟨b :: cs, .dict x :: rs, rfl, ?_, .cons x2 i3, ?_⟩
    · intro c hc
      rcases List.mem_cons.1 hc with rfl | hc
      · exact ⟨hp, hsk⟩
      · exact i2 c hc
    · intro i r l hl
      obtain ⟨r', e1, e2⟩ := i4 (i + 1) (Dict.set r "networks" (.list (l ++ [.dict x]))) (l ++ [.dict x]) (Dict.get?_set_self ..)
      refine ⟨r', ?_, ?_⟩
      · rw [List.map_cons, backFold, if_neg (by rw [hsk]; simp)]
        have hb : ztBack i (blockBack reprC b) [("zerotier", .list [.dict r])] =
            .ok [("zerotier", .list [.dict (Dict.set r "networks" (.list (l ++ [.dict x])))])] := by
          unfold ztBack
          rw [ht, if_neg (by simp), x1]
          simp only [bind, Except.bind]
          unfold addNetwork
          rw [getKey_ok (v := .list [.dict r]) (by simp)]
          simp only [bind, Except.bind]
          rw [getKey_ok hl]
          rfl
        simp only [hb, bind, Except.bind, pure, Except.pure]
        exact e1
      · intro k
        rw [e2, Dict.get?_set', List.append_assoc]
        by_cases e : k = "networks" <;> simp [e]

/-- **C64.** A ZeroTier entry converted to UCI text and back: every option of the entry comes back (the name with dots and dashes
replaced, the defaults explicit, the local configuration under one name), and the list of networks holds each network twice: once from the
list of identifiers, once from its own section with all its options; the names of the interfaces are made from the identifiers. -/
theorem C64_back (env : Env) (config config' inter : VDict) (name : String) (vpn : VDict) (ns : List VDict) (h : ZtOK name vpn ns)
    (hl : Dict.get? config "zerotier" = some (.list [.dict vpn])) (hr : ztRun env config [] = (config', .ok inter)) :
    ∃ (r : VDict) (joined nets : List Val), viaText env.reprC (ztConv env) ztBConv config = .ok [("zerotier", .list [.dict r])] ∧
      Dict.get? r "networks" = some (.list (joined ++ nets)) ∧ List.Forall₂ JoinReturned ns joined ∧ List.Forall₂ NetReturned ns nets ∧
      ∀ k, k ≠ "networks" → Dict.get? r k = ztReturned name vpn k := by
  obtain ⟨gs, g1, g2⟩ := C64_sections env config [] config' inter [vpn] (by
    intro v hv
    rw [List.mem_singleton] at hv
    subst hv
    refine ⟨h.options.nodup, fun ns' hns => ?_⟩
    rw [h.networks] at hns
    have e : ns = ns' := List.map_injective_iff.2 (fun a b h => by cases h; rfl) (Val.list.inj (Option.some.inj hns))
    subst e
    exact fun n hn => (h.each n hn).options.nodup) hl hr
  cases g1 with
  | cons he hnil =>
    cases hnil
    rename_i vs
    rw [if_neg (by simp)] at g2
    obtain ⟨b, s, ns', bs, rfl, b2, b3, b4, b5, b6⟩ := he
    have e1 : s = name := by rw [h.name.1] at b2; cases b2; rfl
    subst e1
    have e2 : ns = ns' := by
      rw [h.networks] at b3
      exact List.map_injective_iff.2 (fun a b h => by cases h; rfl) (Val.list.inj (Option.some.inj b3))
    subst e2
    obtain ⟨cs, rs, rfl, c2, c3, c4⟩ := zt_nets env.reprC ns bs h.each b6
    obtain ⟨o, js, o1, o2, o3⟩ := zt_back env.reprC h b4 b5
    have hp := zt_plain h b4 b5
    have ht : Dict.get? (blockBack env.reprC b) ".type" = some (.str "zerotier") := by rw [get?_blockBack _ hp, b5]; rfl
    have hsk : skipBlock (some ["zerotier", "network"]) (blockBack env.reprC b) = false := skip_of_type ht (by simp)
    obtain ⟨r', r1, r2⟩ := c4 2 o js (by rw [o3, if_pos rfl])
    obtain ⟨t, t1, t2⟩ := text_back env.reprC [("zerotier", b :: cs)] (by simp) (by simp; decide) (by
      intro p hp' c hc
      rw [List.mem_singleton] at hp'
      subst hp'
      rcases List.mem_cons.1 hc with rfl | hc
      · exact hp
      · exact (c2 c hc).1)
    refine ⟨r', js, rs, ?_, ?_, o2, c3, ?_⟩
    · refine viaText_eq (inter := interOf [("zerotier", b :: cs)]) (text := t) ?_ ?_ t1 t2 ?_ ?_
      · show Dict.has config "zerotier" = true
        rw [Dict.has, hl]; rfl
      · show (ztRun env config []).2 = _
        rw [hr, g2]; simp [interOf]
      · rfl
      · have hbf : backFold (some ["zerotier", "network"]) (fun i b (acc : Unit × VDict) => do let r ← ztBack i b acc.2; pure ((), r)) 1
            (blockBack env.reprC b :: cs.map (blockBack env.reprC)) ((), []) = .ok ((), [("zerotier", .list [.dict r'])]) := by
          rw [backFold, if_neg (by rw [hsk]; simp)]
          have hb : ztBack 1 (blockBack env.reprC b) [] = .ok [("zerotier", .list [.dict o])] := by
            unfold ztBack
            rw [ht, if_pos rfl, o1]
            rfl
          simp only [hb, bind, Except.bind, pure, Except.pure]
          exact r1
        unfold ztBConv bwdSimple
        exact congrArg Prod.snd (bwd_split "zerotier" (some ["zerotier", "network"]) () _ [] _ (interOf [("zerotier", (b :: cs).map (blockBack env.reprC))]) ((b :: cs).map (blockBack env.reprC)) [] _
          (by simp [interOf]) (by
            intro c hc
            obtain ⟨c', h1, rfl⟩ := List.mem_map.1 hc
            rcases List.mem_cons.1 h1 with rfl | h1
            · exact hsk
            · exact (c2 c' h1).2) (by simp) hbf)
    · rw [r2, if_pos rfl]
    · intro k hk
      rw [r2, if_neg hk, o3, if_neg hk]

/-! ## Samples -/

def sampleNetwork (id ifname : String) : VDict := [("id", .str id), ("ifname", .str ifname), ("allow_managed", .bool true), ("allow_dns", .bool false)]

def sampleZt : VDict := [("name", .str "zt-global"), ("networks", .list ([sampleNetwork "9536600adf654321" "ztlan", sampleNetwork "9536600adf654322" "zt.wan"].map .dict)),
  ("secret", .str "0:1:2"), ("port", .int 9994), ("local_conf_path", .str "/etc/local.conf"), ("client_options", .dict [])]

def sampleZtFiles : List Val := [.dict [("path", .str "/etc/motd"), ("mode", .str "0600"), ("contents", .str "hello")],
  .dict [("path", .str "/etc/openwisp/zerotier/devicemap"), ("mode", .str "0600"), ("contents", .str "aaaa=mine")]]

def sampleZtConfig : VDict := [("zerotier", .list [.dict sampleZt]), ("files", .list sampleZtFiles)]

theorem sampleZt_ok : ZtOK "zt-global" sampleZt [sampleNetwork "9536600adf654321" "ztlan", sampleNetwork "9536600adf654322" "zt.wan"] := by
  refine ⟨optionsB_sound (by decide +kernel), ⟨rfl, by decide +kernel⟩, by decide +kernel, ?_, .inl (by decide +kernel), by decide +kernel⟩
  intro n hn
  simp only [List.mem_cons, List.not_mem_nil, or_false] at hn
  rcases hn with rfl | rfl
  · exact ⟨optionsB_sound (by decide +kernel), ⟨_, rfl⟩, _, rfl, by decide +kernel⟩
  · exact ⟨optionsB_sound (by decide +kernel), ⟨_, rfl⟩, _, rfl, by decide +kernel⟩

/-- the hypotheses of `C64_networks_listed`, `C64_sections` and `C64_back` hold of this configuration -/
theorem sampleZt_runs : (ztRun sampleEnv sampleZtConfig []).2.isOk = true := by decide +kernel

example : ∃ (r : VDict) (joined nets : List Val), viaText sampleEnv.reprC (ztConv sampleEnv) ztBConv sampleZtConfig = .ok [("zerotier", .list [.dict r])] ∧
    Dict.get? r "networks" = some (.list (joined ++ nets)) ∧ joined.length = 2 ∧ nets.length = 2 := by
  cases hr : ztRun sampleEnv sampleZtConfig [] with
  | mk c e => cases e with
    | error e =>
      have := sampleZt_runs
      rw [hr] at this
      cases this
    | ok inter =>
      obtain ⟨r, js, ns, h1, h2, h3, h4, _⟩ := C64_back sampleEnv sampleZtConfig c inter "zt-global" sampleZt _ sampleZt_ok rfl hr
      exact ⟨r, js, ns, h1, h2, h3.length_eq.symm, h4.length_eq.symm⟩

/-- the files of this configuration afterwards -/
example : ((ztRun sampleEnv sampleZtConfig []).1.lookup "files") = some (.list [.dict [("path", .str "/etc/motd"), ("mode", .str "0600"), ("contents", .str "hello")],
    .dict [("path", .str "/etc/openwisp/zerotier/devicemap"), ("mode", .str "0644"),
      ("contents", .str "# network_id=interface_name\n9536600adf654321=ztlan\n9536600adf654322=zt.wan\n\naaaa=mine")]]) := by decide +kernel

/-! ## What does not hold -/

/-- what comes back of these entries: the name of each and the identifiers of its networks -/
def ztOut (l : List VDict) : Option (List (Option Val × Option (List (Option Val)))) :=
  match viaText sampleEnv.reprC (ztConv sampleEnv) ztBConv [("zerotier", .list (l.map .dict))] with
  | .ok out => match Dict.get? out "zerotier" with
    | some (.list vs) => some (vs.map (fun v => match v with
      | .dict d => (Dict.get? d "name", match Dict.get? d "networks" with
        | some (.list ns) => some (ns.map (fun n => match n with | .dict n => Dict.get? n "id" | _ => none))
        | _ => none)
      | _ => (none, none)))
    | _ => none
  | .error _ => none

/-- each network comes back twice -/
theorem C64_twice : ztOut [[("name", .str "a"), ("networks", .list [.dict (sampleNetwork "9536600adf654321" "zt0")])]] =
    some [(some (.str "a"), some [some (.str "9536600adf654321"), some (.str "9536600adf654321")])] := by decide +kernel

/-- **C64** needs one entry: with two, the networks of the second come back as networks of the first. -/
theorem C64_needs_one_entry : ztOut [[("name", .str "a"), ("networks", .list [.dict (sampleNetwork "9536600adf654321" "zt0")])],
      [("name", .str "b"), ("networks", .list [.dict (sampleNetwork "aaaaaaaaaaaaaaaa" "zt1")])]] =
    some [(some (.str "a"), some [some (.str "9536600adf654321"), some (.str "9536600adf654321"), some (.str "aaaaaaaaaaaaaaaa")]),
      (some (.str "b"), some [some (.str "aaaaaaaaaaaaaaaa")])] := by decide +kernel

/-- a `network` section that comes before the `zerotier` section is a `KeyError` -/
theorem C64_network_first : (ztBack 1 [(".name", .str "zt0"), (".type", .str "network"), ("id", .str "9536600adf654321")] []) = .error .keyError := by decide +kernel

/-- an entry without networks is a `KeyError` -/
theorem C64_networks_required (vpn : VDict) (s : String) (hn : (Dict.keys vpn).Nodup) (h1 : Dict.get? vpn "name" = some (.str s))
    (h2 : Dict.get? vpn "networks" = none) : ztBlocks vpn = .error .keyError := by
  obtain ⟨d, d1, d2, d3⟩ := ztBlock_spec vpn s [] hn h1 (by unfold ztNetworks; rw [h2]; rfl)
  unfold ztBlocks
  rw [d1]
  simp only [bind, Except.bind]
  have : Dict.get? d "networks" = none := by rw [d3, if_pos rfl, h2]
  unfold popKey
  rw [this]

/-- the path of the map is not validated: with a final slash in the directory it is one that validation refuses -/
theorem C64_path_not_validated : (ztRun sampleEnv [("zerotier", .list [.dict [("name", .str "a"), ("networks", .list []), ("config_path", .str "/etc/zt/")]])] []).1 =
      [("zerotier", .list [.dict [("name", .str "a"), ("networks", .list []), ("config_path", .str "/etc/zt/")]]),
       ("files", .list [.dict [("path", .str "/etc/zt//devicemap"), ("mode", .str "0644"), ("contents", .str "# network_id=interface_name\n")]])] ∧
    validateFilePaths [("files", .list [.dict [("path", .str "/etc/zt//devicemap"), ("mode", .str "0644"), ("contents", .str "# network_id=interface_name\n")]])] =
      .error .validation := by decide +kernel

/-! ## Automatic clients -/

/-- **C64.** The automatic client: one entry with the given data, or the defaults, whose networks are the given ones in order with the
client options added to each of them. -/
theorem C64_auto_client (a : ZtArgs) (hn : (Dict.keys (a.clientOptions.getD [])).Nodup) :
    ∃ (d : VDict) (ns : List VDict), ztAutoClient a = [("zerotier", .list [.dict d])] ∧ Dict.get? d "networks" = some (.list (ns.map .dict)) ∧
      Dict.get? d "name" = some (a.name.getD (.str "global")) ∧ Dict.get? d "secret" = some (a.secret.getD (.str "{{secret}}")) ∧
      Dict.get? d "config_path" = some (a.configPath.getD (.str "/etc/openwisp/zerotier")) ∧ Dict.get? d "disabled" = some (a.disabled.getD (.bool false)) ∧
      List.Forall₂ (fun (n m : VDict) => ∀ k, Dict.get? m k = (Dict.get? (a.clientOptions.getD []) k).or (Dict.get? n k)) (a.networks.getD []) ns := by
  refine ⟨_, (a.networks.getD []).map (fun n => Dict.update n (a.clientOptions.getD [])), rfl, by simp [Dict.get?_cons, Function.comp_def],
    by simp [Dict.get?_cons], by simp [Dict.get?_cons], by simp [Dict.get?_cons, ztPath], by simp [Dict.get?_cons], ?_⟩
  rw [List.forall₂_map_right_iff]
  apply List.forall₂_same.2
  intro n _ k
  rw [Dict.get?_update _ _ hn]

end NJ
