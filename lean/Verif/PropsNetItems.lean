import Verif.PropsWifiItems

/-!
# C100: the network package says what routes, rules, switches, peers and interfaces say
-/

namespace NJ

/-! ## Specification -/

/-- **Specification.** The name that is given under a key, if it counts as true, or else the automatic one. -/
def givenName (d : VDict) (k : String) (auto : Val) : Val :=
  if ((Dict.get? d k).getD .none).truthy then (Dict.get? d k).getD .none else auto

/-- **Specification.** The section `b` says what the route `d`, number `i` from 1, says. -/
def RouteSays (env : Env) (i : Nat) (d b : VDict) : Prop :=
  ∃ s net, Dict.get? d "destination" = some (.str s) ∧ ipInterface env.ip6 s.toList = some net ∧
    Dict.get? d "device" ≠ none ∧ Dict.get? d "next" ≠ none ∧ Dict.get? d "cost" ≠ none ∧ (Dict.keys b).Nodup ∧ ∀ k, Dict.get? b k =
      if k = "netmask" ∧ net.v6 = false then some (txt (showIp4 (mask4 net.plen)))
      else if k = "metric" then Dict.get? d "cost"
      else if k = "gateway" then Dict.get? d "next"
      else if k = "target" then some (txt (if net.v6 then ({ net with addr := net.network } : IpIf).text env.ip6 else showIp4 net.addr))
      else if k = "interface" then Dict.get? d "device"
      else if k = ".name" then some (givenName d "name" (txt ("route".toList ++ showNat i)))
      else if k = ".type" then some (.str (if net.v6 then "route6" else "route"))
      else if k ∈ ["destination", "device", "next", "cost", "name"] then none
      else Dict.get? d k

/-- **Specification.** The section `b` says what the policy rule `d`, number `i` from 1, says: all its options, the type being that of the
family of its destination, or else of its source. -/
def RuleSays (env : Env) (i : Nat) (d b : VDict) : Prop :=
  (Dict.keys b).Nodup ∧ ∀ k, Dict.get? b k =
    if k = ".name" then some (givenName d "name" (txt ("rule".toList ++ showNat i)))
    else if k = ".type" then some (.str (ruleType env d))
    else if k = "name" then none
    else Dict.get? d k

/-- **Specification.** The section `b` says what the peer `d`, number `i` from 1, says. -/
def PeerSays (i : Nat) (d b : VDict) : Prop :=
  ∃ s, Dict.get? d "interface" = some (.str s) ∧ (Dict.keys b).Nodup ∧ ∀ k, Dict.get? b k = peerItem i s.toList d k

/-- **Specification.** The section `b` says what the VLAN `d`, number `i` from 1, of the switch called `n` says. -/
def VlanSays (env : Env) (n : Val) (i : Nat) (d b : VDict) : Prop :=
  (Dict.keys b).Nodup ∧ ∀ k, Dict.get? b k =
    if k = ".name" then some (givenName d "id" (txt ((pyStr env.reprC n).toList ++ "_vlan".toList ++ showNat i)))
    else if k = ".type" then some (.str "switch_vlan")
    else if k = "id" then none
    else if k = "vid" then (Dict.get? d "vid").or (Dict.get? d "vlan")
    else Dict.get? d k

/-- **Specification.** The sections `bs` say what the switch `d` says: one for the switch, and one for each of its VLANs in their order. -/
def SwitchSays (env : Env) (d : VDict) (bs : List VDict) : Prop :=
  ∃ n vl b vs, Dict.get? d "name" = some n ∧ Dict.get? d "vlan" = some (.list (vl.map .dict)) ∧ bs = b :: vs ∧
    ((Dict.keys b).Nodup ∧ ∀ k, Dict.get? b k =
      if k = ".name" then some (givenName d "id" n)
      else if k = ".type" then some (.str "switch")
      else if k ∈ ["id", "vlan"] then none
      else Dict.get? d k) ∧
    Forall2Idx (VlanSays env n) 1 vl vs

/-- **Specification.** The section for the ULA prefix of the general settings, if they have one. -/
def GlobalsSays (config : VDict) (gs : List VDict) : Prop :=
  match Dict.get? config "general" with
  | some (.dict d) => match Dict.get? d "ula_prefix" with
    | none => gs = []
    | some u => ∃ b, gs = [b] ∧ (Dict.keys b).Nodup ∧ ∀ k, Dict.get? b k =
        if k = ".type" then some (.str "globals")
        else if k = ".name" then some ((Dict.get? d "globals_id").getD (.str "globals"))
        else if k = "ula_prefix" then some u else none
  | _ => gs = []

/-! ## The sections -/

theorem popOrElse_given {d : VDict} {k : String} {auto : Val} {x : Val × VDict} (h : popOrElse d k (fun _ => .ok auto) = .ok x) :
    x = (givenName d k auto, Dict.erase d k) := by
  unfold popOrElse at h
  unfold givenName
  cases hg : Dict.get? d k with
  | none =>
    rw [hg] at h
    cases h
    rfl
  | some v =>
    rw [hg] at h
    simp only [Option.getD_some]
    cases ht : v.truthy with
    | true => simp only [ht, if_true] at h; cases h; rfl
    | false => simp only [ht, Bool.false_eq_true, if_false] at h; cases h; rfl

theorem popKey_is {d : VDict} {k : String} {x : Val × VDict} (h : popKey d k = .ok x) : Dict.get? d k = some x.1 ∧ x.2 = Dict.erase d k := by
  unfold popKey at h
  cases hg : Dict.get? d k with
  | none => rw [hg] at h; cases h
  | some v => rw [hg] at h; cases h; exact ⟨rfl, rfl⟩

theorem route_says {env : Env} {i : Nat} {d b : VDict} (hn : (Dict.keys d).Nodup) (h : routeBlock env i d = .ok b) : RouteSays env i d b := by
  unfold routeBlock at h
  obtain ⟨⟨dest, r1⟩, e1, h1⟩ := bind_ok_iff.1 h
  obtain ⟨net, e2, h2⟩ := bind_ok_iff.1 h1
  obtain ⟨⟨name, r2⟩, e3, h3⟩ := bind_ok_iff.1 h2
  obtain ⟨⟨dev, r3⟩, e4, h4⟩ := bind_ok_iff.1 h3
  obtain ⟨⟨next, r4⟩, e5, h5⟩ := bind_ok_iff.1 h4
  obtain ⟨⟨cost, r5⟩, e6, h6⟩ := bind_ok_iff.1 h5
  clear h h1 h2 h3 h4 h5
  rename' h6 => h
  obtain ⟨a1, rfl⟩ := popKey_is e1
  have a3 := popOrElse_given e3
  rw [Prod.mk.injEq] at a3
  obtain ⟨rfl, rfl⟩ := a3
  obtain ⟨a4, rfl⟩ := popKey_is e4
  obtain ⟨a5, rfl⟩ := popKey_is e5
  obtain ⟨a6, rfl⟩ := popKey_is e6
  simp only [Dict.get?_erase', String.reduceEq, if_false] at a1 a4 a5 a6
  have hname : ∀ auto, givenName (Dict.erase d "destination") "name" auto = givenName d "name" auto := by
    intro auto
    unfold givenName
    simp only [Dict.get?_erase', String.reduceEq, if_false]
  rw [hname] at h
  unfold ipInterfaceV at e2
  cases dest with
  | str s =>
    dsimp only at e2
    cases hi : ipInterface env.ip6 s.toList with
    | none => rw [hi] at e2; cases e2
    | some net' =>
      rw [hi] at e2
      cases e2
      have he : (Dict.keys (Dict.erase (Dict.erase (Dict.erase (Dict.erase (Dict.erase d "destination") "name") "device") "next") "cost")).Nodup :=
        Dict.nodup_erase (Dict.nodup_erase (Dict.nodup_erase (Dict.nodup_erase (Dict.nodup_erase hn _) _) _) _) _
      have h := pure_ok_iff.1 h
      refine ⟨s, net, a1, hi, by simp [a4], by simp [a5], by simp [a6], ?_, ?_⟩
      · rw [← h]
        apply sortedDict_nodup
        split
        · exact Dict.nodup_update he _
        · exact Dict.nodup_set (Dict.nodup_update he _) _ _
      · intro k
        rw [← h, get?_sortedDict (by
          split
          · exact Dict.nodup_update he _
          · exact Dict.nodup_set (Dict.nodup_update he _) _ _)]
        by_cases hk : k ∈ ["destination", "device", "next", "cost", "name"]
        · simp only [List.mem_cons, List.not_mem_nil, or_false] at hk
          rcases hk with rfl | rfl | rfl | rfl | rfl <;> cases net.v6 <;>
            simp [Dict.update_cons, Dict.update_nil, Dict.get?_set', Dict.get?_erase']
        · rw [if_neg hk, a4, a5, a6]
          simp only [List.mem_cons, List.not_mem_nil, or_false, not_or] at hk
          obtain ⟨k1, k2, k3, k4, k5⟩ := hk
          cases net.v6 <;>
            simp [Dict.update_cons, Dict.update_nil, Dict.get?_set', Dict.get?_erase', k1, k2, k3, k4, k5, autoName]
  | _ => cases e2

theorem rule_says {env : Env} {i : Nat} {d b : VDict} (hn : (Dict.keys d).Nodup) (h : ruleBlock env i d = .ok b) : RuleSays env i d b := by
  have net : ∀ k o, ruleNet env d k = .ok o → NetOK env d k := by
    intro k o ho v hv
    unfold ruleNet at ho
    rw [hv] at ho
    cases v with
    | str s =>
      cases hs : ipNetwork env.ip6 s.toList with
      | none => simp [hs] at ho
      | some net => exact ⟨s, net, rfl, hs⟩
    | _ => cases ho
  have h0 := h
  unfold ruleBlock at h
  obtain ⟨o1, e1, h⟩ := bind_ok_iff.1 h
  obtain ⟨o2, e2, h⟩ := bind_ok_iff.1 h
  obtain ⟨⟨name, r⟩, e3, _⟩ := bind_ok_iff.1 h
  rw [ruleBlock_eq (net _ _ e1) (net _ _ e2) e3] at h0
  cases h0
  have a3 := popOrElse_given e3
  rw [Prod.mk.injEq] at a3
  obtain ⟨rfl, rfl⟩ := a3
  have hnd := Dict.nodup_update (Dict.nodup_erase hn "name") [(".type", .str (ruleType env d)), (".name", givenName d "name" (autoName "rule".toList i))]
  refine ⟨sortedDict_nodup hnd, fun k => ?_⟩
  rw [get?_sortedDict hnd]
  simp only [Dict.update_cons, Dict.update_nil, Dict.get?_set', Dict.get?_erase', autoName]

theorem peer_says {i : Nat} {d b : VDict} (hn : (Dict.keys d).Nodup) (h : peerBlock i d = .ok b) : PeerSays i d b := by
  have h0 := h
  unfold peerBlock at h
  obtain ⟨⟨v, r⟩, e1, h⟩ := bind_ok_iff.1 h
  obtain ⟨t, e2, _⟩ := bind_ok_iff.1 h
  obtain ⟨a1, _⟩ := popKey_is e1
  cases v with
  | str s =>
    obtain ⟨b', p1, p2, p3⟩ := peer_block i d s hn a1
    rw [h0] at p1
    cases p1
    exact ⟨s, a1, p2, p3⟩
  | _ => cases e2

theorem vlan_says {env : Env} {n : Val} {i : Nat} {d b : VDict} (hn : (Dict.keys d).Nodup) (h : vlanBlock env n i d = .ok b) : VlanSays env n i d b := by
  unfold vlanBlock at h
  obtain ⟨⟨name, r⟩, e1, h⟩ := bind_ok_iff.1 h
  have a1 := popOrElse_given e1
  rw [Prod.mk.injEq] at a1
  obtain ⟨rfl, rfl⟩ := a1
  dsimp only at h
  have hnd := Dict.nodup_update (Dict.nodup_erase hn "id") [(".type", .str "switch_vlan"), (".name", givenName d "id" (vlanAutoName env n i))]
  generalize hv : Dict.update (Dict.erase d "id") [(".type", .str "switch_vlan"), (".name", givenName d "id" (vlanAutoName env n i))] = v at h hnd
  have hg : ∀ k, Dict.get? v k = if k = ".name" then some (givenName d "id" (vlanAutoName env n i)) else if k = ".type" then some (.str "switch_vlan")
      else if k = "id" then none else Dict.get? d k := by
    intro k
    rw [← hv]
    simp only [Dict.update_cons, Dict.update_nil, Dict.get?_set', Dict.get?_erase']
  have hvid : Dict.get? v "vid" = Dict.get? d "vid" := by rw [hg]; simp
  have hvl : Dict.get? v "vlan" = Dict.get? d "vlan" := by rw [hg]; simp
  cases hh : Dict.has v "vid" with
  | true =>
    rw [hh, if_pos rfl] at h
    cases pure_ok_iff.1 h
    refine ⟨sortedDict_nodup hnd, fun k => ?_⟩
    rw [get?_sortedDict hnd, hg]
    by_cases hk : k = "vid"
    · subst hk
      rw [Dict.has_eq, hvid] at hh
      cases e : Dict.get? d "vid" with
      | none => rw [e] at hh; cases hh
      | some x => simp
    · rw [if_neg hk]
      rfl
  | false =>
    rw [hh, if_neg (by decide)] at h
    obtain ⟨x, e2, h⟩ := bind_ok_iff.1 h
    cases pure_ok_iff.1 h
    have hnd2 := Dict.nodup_set hnd "vid" x
    refine ⟨sortedDict_nodup hnd2, fun k => ?_⟩
    rw [get?_sortedDict hnd2, Dict.get?_set', hg]
    unfold getKey at e2
    by_cases hk : k = "vid"
    · subst hk
      rw [Dict.has_eq, hvid] at hh
      rw [hvl] at e2
      cases e : Dict.get? d "vid" with
      | some y => rw [e] at hh; cases hh
      | none =>
        cases e' : Dict.get? d "vlan" with
        | none => rw [e'] at e2; cases e2
        | some y => rw [e'] at e2; cases e2; simp
    · rw [if_neg hk, if_neg hk]
      rfl

theorem vlans_say {env : Env} {n : Val} : ∀ (l : List Val) (i : Nat) (bs : List Val), (∀ d, Val.dict d ∈ l → (Dict.keys d).Nodup) → vlanBlocks env n i l = .ok bs →
    ∃ vl vs : List VDict, l = vl.map .dict ∧ bs = vs.map .dict ∧ Forall2Idx (VlanSays env n) i vl vs
  | [], i, bs, _, h => by
    cases h
    exact ⟨[], [], rfl, rfl, trivial⟩
  | x :: xs, i, bs, hn, h => by
    rw [vlanBlocks] at h
    obtain ⟨d, e1, h⟩ := bind_ok_iff.1 h
    obtain ⟨b, e2, h⟩ := bind_ok_iff.1 h
    obtain ⟨bs', e3, h⟩ := bind_ok_iff.1 h
    cases pure_ok_iff.1 h
    obtain ⟨vl, vs, rfl, rfl, c⟩ := vlans_say xs (i + 1) bs' (fun d hd => hn d (List.mem_cons_of_mem _ hd)) e3
    cases x with
    | dict d' =>
      cases e1
      exact ⟨d :: vl, b :: vs, rfl, rfl, vlan_says (hn d List.mem_cons_self) e2, c⟩
    | _ => cases e1

theorem switch_says {env : Env} {d : VDict} {bs : List Val} (hw : (Val.dict d).WF) (h : switchBlocks env d = .ok bs) :
    ∃ ss : List VDict, bs = ss.map .dict ∧ SwitchSays env d ss := by
  have hn := wf_nodup hw
  unfold switchBlocks at h
  obtain ⟨⟨name, r⟩, e1, h⟩ := bind_ok_iff.1 h
  dsimp only at h
  obtain ⟨vlans, e2, h⟩ := bind_ok_iff.1 h
  obtain ⟨sw, e3, h⟩ := bind_ok_iff.1 h
  have hid : ∃ n, Dict.get? d "name" = some n ∧ name = givenName d "id" n ∧ r = Dict.erase d "id" := by
    have hsw : Dict.get? d "name" = some sw := by
      have hr : r = Dict.erase d "id" := by
        unfold popOrElse at e1
        cases hg : Dict.get? d "id" with
        | none =>
          rw [hg] at e1
          obtain ⟨_, _, e⟩ := bind_ok_iff.1 e1
          cases e; rfl
        | some v =>
          rw [hg] at e1
          dsimp only at e1
          split at e1
          · cases e1; rfl
          · obtain ⟨_, _, e⟩ := bind_ok_iff.1 e1
            cases e; rfl
      subst hr
      unfold getKey at e3
      simp only [Dict.update_cons, Dict.update_nil, Dict.get?_set', Dict.get?_erase', String.reduceEq, if_false] at e3
      cases hg : Dict.get? d "name" with
      | none => rw [hg] at e3; cases e3
      | some x => rw [hg] at e3; cases e3; rfl
    have hk : getKey (Dict.erase d "id") "name" = .ok sw := by
      unfold getKey
      rw [Dict.get?_erase', if_neg (by decide), hsw]
    have e1' : popOrElse d "id" (fun _ => .ok sw) = .ok (name, r) := by
      rw [← e1]
      unfold popOrElse
      cases Dict.get? d "id" with
      | none => simp only [hk]
      | some v => simp only [hk]
    have := popOrElse_given e1'
    rw [Prod.mk.injEq] at this
    exact ⟨sw, hsw, this.1, this.2⟩
  obtain ⟨n, hn', rfl, rfl⟩ := hid
  unfold getKey at e2 e3
  simp only [Dict.update_cons, Dict.update_nil, Dict.get?_set', Dict.get?_erase', String.reduceEq, if_false, hn'] at e2 e3
  cases e3
  cases hv : Dict.get? d "vlan" with
  | none => rw [hv] at e2; cases e2
  | some v =>
    rw [hv] at e2
    cases e2
    cases vlans with
    | list l =>
      dsimp only at h
      obtain ⟨vs, e4, h⟩ := bind_ok_iff.1 h
      cases pure_ok_iff.1 h
      obtain ⟨vl, ws, rfl, rfl, c⟩ := vlans_say l 1 vs (fun x hx => wf_nodup (wf_each hw hv hx)) e4
      have hnd := Dict.nodup_erase (Dict.nodup_update (Dict.nodup_erase hn "id") [(".type", .str "switch"), (".name", givenName d "id" sw)]) "vlan"
      refine ⟨_ :: ws, rfl, sw, vl, _, ws, hn', hv, rfl, ⟨sortedDict_nodup hnd, fun k => ?_⟩, c⟩
      rw [get?_sortedDict hnd]
      simp only [Dict.update_cons, Dict.update_nil, Dict.get?_set', Dict.get?_erase', List.mem_cons, List.not_mem_nil, or_false]
      by_cases k1 : k = "vlan"
      · subst k1; simp
      · by_cases k2 : k = "id"
        · subst k2; simp
        · simp [k1, k2]
    | _ => cases h

/-! ## The loop -/

theorem distinct_right {a b : List VDict} (h : DistinctNames (a ++ b)) : DistinctNames b :=
  ⟨fun x hx => h.1 x (by simp [hx]), by have := h.2; rw [List.map_append, List.nodup_append] at this; exact this.2.1⟩

/-- the package gets the sections `bs` more, if all names differ -/
def Grows (pkg : String) (i i1 : VDict) (bs : List VDict) : Prop :=
  ∀ ss, Dict.get? i pkg = stored ss → DistinctNames (ss ++ bs) → Dict.get? i1 pkg = stored (ss ++ bs)

theorem grows_same {pkg : String} {i i1 : VDict} (h : Dict.get? i1 pkg = Dict.get? i pkg) : Grows pkg i i1 [] := by
  intro ss hs _
  rw [h, hs, List.append_nil]

theorem grows_trans {pkg : String} {i i1 i2 : VDict} {bs cs : List VDict} (h1 : Grows pkg i i1 bs) (h2 : Grows pkg i1 i2 cs) : Grows pkg i i2 (bs ++ cs) := by
  intro ss hs hd
  rw [← List.append_assoc] at hd ⊢
  exact h2 _ (h1 ss hs (distinct_left hd)) hd

theorem grows_merge {sh : Val → Bool} {pkg : String} {i i1 v : VDict} {bs : List VDict} (h : mergeConfig sh [".name"] i v = .ok i1)
    (hv : DistinctNames bs → Dict.get? v pkg = stored bs ∧ (Dict.keys v).Nodup) : Grows pkg i i1 bs := by
  intro ss hi hd
  obtain ⟨hv, hn⟩ := hv (distinct_right hd)
  unfold stored at hv
  by_cases hb : bs = []
  · subst hb
    rw [if_pos rfl] at hv
    rw [mergeKvs_get?_not_mem h ((Dict.get?_eq_none_iff _ _).1 hv), hi, List.append_nil]
  · rw [if_neg hb] at hv
    obtain ⟨x, h1, h2⟩ := mergeKvs_get?_mem hn h hv
    rw [h2]
    unfold stored at hi ⊢
    rw [if_neg (by simp [hb])]
    by_cases hs : ss = []
    · subst hs
      rw [if_pos rfl] at hi
      rw [hi, mergeVal_none] at h1
      cases h1
      rfl
    · rw [if_neg hs] at hi
      rw [hi, mergeVal, merge_blocks sh [] ss bs hd.1 hd.2] at h1
      cases h1
      rfl

theorem netOf_get (bs : List VDict) : Dict.get? (netOf bs) "network" = stored bs ∧ (Dict.keys (netOf bs)).Nodup := by
  unfold netOf stored
  by_cases h : bs = []
  · rw [if_pos h, if_pos h]
    exact ⟨rfl, by simp [Dict.keys]⟩
  · rw [if_neg h, if_neg h]
    exact ⟨by simp [Dict.get?], by simp [Dict.keys]⟩

theorem pure_step {cls : Class} {key : String} {run : VDict → VDict → Except PyErr VDict} {cs : List Conv} {c i : VDict} {st : BState}
    (h : convLoop cls (pureConv key run :: cs) c i = (st, .ok ())) :
    (Dict.get? c key = none ∧ convLoop cls cs c i = (st, .ok ())) ∨
      ∃ v i1, Dict.get? c key ≠ none ∧ run c i = .ok v ∧ mergeConfig cls.sh [".name"] i v = .ok i1 ∧ convLoop cls cs c i1 = (st, .ok ()) := by
  rcases loop_step h with ⟨hs, h⟩ | ⟨hs, v, i1, e1, e2, h⟩
  · have hs : Dict.has c key = false := hs
    rw [Dict.has_eq] at hs
    exact .inl ⟨by cases e : Dict.get? c key with | none => rfl | some x => (rw [e] at hs; cases hs), h⟩
  · have hs : Dict.has c key = true := hs
    rw [Dict.has_eq] at hs
    exact .inr ⟨v, i1, (by intro e; rw [e] at hs; cases hs), e1, e2, h⟩

/-- a converter that does not write the package -/
theorem other_step {cls : Class} {key pkg : String} {run : VDict → VDict → Except PyErr VDict} {cs : List Conv} {R Ri W : List String} (hr : ReadsOnly (pureConv key run) R Ri W)
    (hd : pkg ∉ W) {c i : VDict} {st : BState} (h : convLoop cls (pureConv key run :: cs) c i = (st, .ok ())) :
    ∃ i1, Grows pkg i i1 [] ∧ convLoop cls cs c i1 = (st, .ok ()) := by
  rcases pure_step h with ⟨_, h⟩ | ⟨v, i1, _, e1, e2, h⟩
  · exact ⟨i, grows_same rfl, h⟩
  · refine ⟨i1, grows_same (merge_outside e2 (hr.writes (c := c) (i := i) e1) (P := [pkg]) ?_ pkg (by simp)), h⟩
    intro w hw hp
    rw [List.mem_singleton] at hp
    subst hp
    exact hd hw

theorem mapIdxM_idx {α β : Type} {f : Nat → α → Except PyErr β} : ∀ {i : Nat} {l : List α} {bs : List β}, mapIdxM f i l = .ok bs →
    Forall2Idx (fun j x y => x ∈ l ∧ f j x = .ok y) i l bs := by
  have key : ∀ (m : List α) (l : List α) (i : Nat) (bs : List β), (∀ x ∈ l, x ∈ m) → mapIdxM f i l = .ok bs → Forall2Idx (fun j x y => x ∈ m ∧ f j x = .ok y) i l bs := by
    intro m l
    induction l with
    | nil => intro i bs _ h; cases h; trivial
    | cons x xs ih =>
      intro i bs hm h
      rw [mapIdxM] at h
      obtain ⟨b, h1, h2⟩ := bind_ok_iff.1 h
      obtain ⟨bs', h3, h4⟩ := bind_ok_iff.1 h2
      cases pure_ok_iff.1 h4
      exact ⟨⟨hm x List.mem_cons_self, h1⟩, ih (i + 1) bs' (fun y hy => hm y (List.mem_cons_of_mem _ hy)) h3⟩
  intro i l bs h
  exact key l l i bs (fun _ h => h) h

theorem forall2Idx_imp {α β : Type} {p q : Nat → α → β → Prop} (hpq : ∀ i x y, p i x y → q i x y) : ∀ {i : Nat} {l : List α} {bs : List β}, Forall2Idx p i l bs → Forall2Idx q i l bs
  | _, [], [], _ => trivial
  | _, _ :: _, _ :: _, h => ⟨hpq _ _ _ h.1, forall2Idx_imp hpq h.2⟩
  | _, [], _ :: _, h => h.elim
  | _, _ :: _, [], h => h.elim

theorem list_step {cls : Class} {key : String} {loop : Option Nat → Val → VDict → Except PyErr VDict} {blk : Nat → VDict → Except PyErr VDict} {P : Nat → VDict → VDict → Prop}
    (hl : ∀ i d r, loop (some i) (.dict d) r = do let b ← blk i d; pure (appendTo r "network" [.dict b])) {cs : List Conv} {c i : VDict} {st : BState} {l : List VDict}
    (hk : (Dict.get? c key = none ∧ l = []) ∨ Dict.get? c key = some (.list (l.map .dict))) (hP : ∀ i d b, d ∈ l → blk i d = .ok b → P i d b)
    (h : convLoop cls (pureConv key (fun config _ => fwd key loop config) :: cs) c i = (st, .ok ())) :
    ∃ bs i1, Forall2Idx P 1 l bs ∧ Grows "network" i i1 bs ∧ convLoop cls cs c i1 = (st, .ok ()) := by
  rcases pure_step h with ⟨e, h⟩ | ⟨v, i1, e, e1, e2, h⟩
  · rcases hk with ⟨_, rfl⟩ | hk
    · exact ⟨[], i, trivial, grows_same rfl, h⟩
    · rw [hk] at e; cases e
  · rcases hk with ⟨hk, _⟩ | hk
    · exact absurd hk e
    · rw [fwd_eq key loop "network" blk hl c l hk] at e1
      obtain ⟨bs, h1, h2⟩ := bind_ok_iff.1 e1
      have hv : v = netOf bs := by
        rw [← pure_ok_iff.1 h2]
        unfold netOf
        cases bs <;> rfl
      subst hv
      exact ⟨bs, i1, forall2Idx_imp (fun j x y hh => hP j x y hh.1 hh.2) (mapIdxM_idx h1), grows_merge e2 (fun _ => netOf_get bs), h⟩

theorem netOf_appends (l bs : List VDict) (h : bs ≠ []) : appendTo (netOf l) "network" (bs.map .dict) = netOf (l ++ bs) := by
  unfold netOf
  by_cases hl : l = []
  · simp [hl, h, appendTo_nil]
  · simp [hl, appendTo_one]

theorem switch_loop (env : Env) (l : List VDict) : ∀ (i : Nat) (r r' : VDict) (done : List VDict), (∀ d ∈ l, (Val.dict d).WF) → r = netOf done →
    fwdList (switchFwd env) i r (l.map .dict) = .ok r' → ∃ bss : List (List VDict), List.Forall₂ (SwitchSays env) l bss ∧ r' = netOf (done ++ bss.flatten) := by
  induction l with
  | nil =>
    intro i r r' done _ hr h
    cases h
    exact ⟨[], .nil, by simpa using hr⟩
  | cons d ds ih =>
    intro i r r' done hw hr h
    rw [List.map_cons, fwdList] at h
    obtain ⟨r1, h1, h2⟩ := bind_ok_iff.1 h
    unfold switchFwd at h1
    obtain ⟨d', a1, h1⟩ := bind_ok_iff.1 h1
    cases a1
    obtain ⟨bs, a2, h1⟩ := bind_ok_iff.1 h1
    have h1 := pure_ok_iff.1 h1
    obtain ⟨ss, rfl, hs⟩ := switch_says (hw d List.mem_cons_self) a2
    have hne : ss ≠ [] := by
      obtain ⟨_, _, b, vs, _, _, rfl, _⟩ := hs
      simp
    rw [hr, netOf_appends done ss hne] at h1
    obtain ⟨bss, b1, b2⟩ := ih (i + 1) r1 r' (done ++ ss) (fun x hx => hw x (List.mem_cons_of_mem _ hx)) h1.symm h2
    exact ⟨ss :: bss, .cons hs b1, by rw [b2]; simp⟩

theorem general_step {env : Env} {cls : Class} {cs : List Conv} {c i : VDict} {st : BState} (ho : ∀ v, Dict.get? c "general" = some v → ∃ d, v = .dict d)
    (h : convLoop cls (generalConv env :: cs) c i = (st, .ok ())) : ∃ gs i1, GlobalsSays c gs ∧ Grows "network" i i1 gs ∧ convLoop cls cs c i1 = (st, .ok ()) := by
  rcases pure_step h with ⟨e, h⟩ | ⟨v, i1, e, e1, e2, h⟩
  · refine ⟨[], i, ?_, grows_same rfl, h⟩
    unfold GlobalsSays
    rw [e]
  · cases hg : Dict.get? c "general" with
    | none => exact absurd hg e
    | some x =>
      obtain ⟨d, rfl⟩ := ho x hg
      have e1 : fwd "general" (generalFwd env) c = .ok v := e1
      unfold fwd at e1
      rw [hg, Option.getD_some] at e1
      dsimp only at e1
      unfold generalFwd at e1
      obtain ⟨d', a1, e1⟩ := bind_ok_iff.1 e1
      cases a1
      obtain ⟨⟨ula, g⟩, a2, e1⟩ := bind_ok_iff.1 e1
      obtain ⟨sys, a3, e1⟩ := bind_ok_iff.1 e1
      have e9 := pure_ok_iff.1 e1
      have hsys : Dict.get? (match sys with | some s => Dict.set [] "system" (.list [.dict s]) | none => ([] : VDict)) "network" = none ∧
          (Dict.keys (match sys with | some s => Dict.set [] "system" (.list [.dict s]) | none => ([] : VDict))).Nodup := by
        cases sys <;> simp [Dict.set, Dict.get?, Dict.keys]
      obtain ⟨s1, s2⟩ := hsys
      unfold ulaBlock at a2
      unfold GlobalsSays
      rw [hg]
      dsimp only
      cases hu : Dict.get? d "ula_prefix" with
      | none =>
        have hh : Dict.has d "ula_prefix" = false := by rw [Dict.has_eq, hu]; rfl
        rw [hh, if_neg (by decide)] at a2
        cases a2
        refine ⟨[], i1, rfl, grows_merge e2 fun _ => ?_, h⟩
        rw [← e9]
        exact ⟨s1, s2⟩
      | some u =>
        have hh : Dict.has d "ula_prefix" = true := by rw [Dict.has_eq, hu]; rfl
        rw [hh, if_pos rfl] at a2
        simp only [popOr] at a2
        obtain ⟨⟨x, g'⟩, a4, a2⟩ := bind_ok_iff.1 a2
        obtain ⟨a5, _⟩ := popKey_is a4
        rw [Dict.get?_erase', if_neg (by decide), hu] at a5
        cases a5
        cases pure_ok_iff.1 a2
        have hnd : (Dict.keys [(".type", Val.str "globals"), (".name", (Dict.get? d "globals_id").getD (.str "globals")), ("ula_prefix", x)]).Nodup := by simp [Dict.keys]
        refine ⟨_, i1, ⟨_, rfl, sortedDict_nodup hnd, fun k => ?_⟩, grows_merge e2 fun _ => ?_, h⟩
        · rw [get?_sortedDict hnd]
          simp only [Dict.get?, eq_comm]
        · rw [← e9]
          refine ⟨?_, Dict.nodup_set s2 _ _⟩
          change Dict.get? (Dict.set _ "network" _) "network" = _
          rw [Dict.get?_set', if_pos rfl]
          rfl

/-- the package before the last converter, which adds the packages the configuration lists itself -/
theorem network_before (env : Env) (ip6 : Ip6) (sh : Val → Bool) (loads : Chars → Option Val) (dsa : Bool) (config : VDict) (hw : (Val.dict config).WF)
    (hok : ∀ b ∈ objectsAt config "interfaces", AddressesOK (addressList b) ∧ MembersOK b)
    {st : BState} (h : toIntermediate (openwrtClass env (owValidate ip6) sh loads dsa) ⟨config, none⟩ = (st, .ok ())) :
    ∃ (gs : List VDict) (outs : List (List VDict × List VDict)) (rts rls : List VDict) (sws : List (List VDict)) (prs : List VDict),
      GlobalsSays config gs ∧ AllWritten env dsa config [] (objectsAt config "interfaces") outs ∧
      Forall2Idx (RouteSays env) 1 (objectsAt config "routes") rts ∧ Forall2Idx (RuleSays env) 1 (objectsAt config "ip_rules") rls ∧
      List.Forall₂ (SwitchSays env) (objectsAt config "switch") sws ∧ Forall2Idx PeerSays 1 (objectsAt config "wireguard_peers") prs ∧
      ∃ c i, (∀ k, k ≠ "files" → Dict.get? c k = Dict.get? config k) ∧ (Dict.keys c).Nodup ∧
        Grows "network" [] i (gs ++ outs.flatMap (fun o => o.1 ++ o.2) ++ rts ++ rls ++ sws.flatten ++ prs) ∧
        convLoop (openwrtClass env (owValidate ip6) sh loads dsa) [defaultConv env knownKeys] c i = (st, .ok ()) := by
  have hn := wf_nodup hw
  unfold toIntermediate at h
  split at h
  · cases h
  rename_i hval
  have hval : (validateRadios config >>= fun _ => owValidate ip6 config >>= fun _ => validateFilePaths config >>= fun _ => validatePvid config) = .ok () := hval
  obtain ⟨_, hr, hval⟩ := bind_ok_iff.1 hval
  obtain ⟨_, hv, _⟩ := bind_ok_iff.1 hval
  have hv : OwValid ip6 config := by
    unfold owValidate at hv
    split at hv
    · rename_i e; exact e
    · cases hv
  have facts := OwFacts.of_valid hv
  have wfs : ∀ {k : String}, ((Dict.get? config k = none ∧ objectsAt config k = []) ∨ Dict.get? config k = some (.list ((objectsAt config k).map .dict))) →
      ∀ d ∈ objectsAt config k, (Val.dict d).WF := by
    intro k hk d hd
    rcases hk with ⟨_, e⟩ | e
    · rw [e] at hd; cases hd
    · exact wf_each hw e (List.mem_map_of_mem hd)
  have his := objectsAt_of (holds_objects facts.iface)
  have hrt := objectsAt_of (holds_objects facts.routes)
  have hrl := objectsAt_of (holds_objects facts.rules)
  have hsw := objectsAt_of (holds_objects facts.switch)
  have hpr := objectsAt_of (holds_objects facts.peers)
  have H : convLoop (openwrtClass env (owValidate ip6) sh loads dsa)
      (generalConv env :: ntpConv :: ledConv env :: ifacesConv sh env dsa :: routesConv env :: rulesConv env :: switchConv env ::
        radiosConv env dsa :: wirelessConv env dsa :: uciVpnConv env :: peersConv :: ztConv env :: [defaultConv env knownKeys]) config [] = (st, .ok ()) := h
  obtain ⟨gs, i1, g1, g2, H⟩ := general_step (fun v hv => by
    obtain ⟨d, rfl, _⟩ := holds_obj (holds_at facts.general v hv)
    exact ⟨d, rfl⟩) H
  obtain ⟨i2, g3, H⟩ := other_step (pkg := "network") (readers_reads (env := env) (sh := sh) (dsa := dsa) (ntpConv, ["ntp"], [], ["system"]) (by simp [readers])) (by simp) H
  obtain ⟨i3, g4, H⟩ := other_step (pkg := "network") (readers_reads (env := env) (sh := sh) (dsa := dsa) (ledConv env, ["led"], [], ["system"]) (by simp [readers])) (by simp) H
  have I : ∃ outs i4, AllWritten env dsa config [] (objectsAt config "interfaces") outs ∧ Grows "network" i3 i4 (outs.flatMap fun o => o.1 ++ o.2) ∧
      convLoop (openwrtClass env (owValidate ip6) sh loads dsa) (routesConv env :: rulesConv env :: switchConv env ::
        radiosConv env dsa :: wirelessConv env dsa :: uciVpnConv env :: peersConv :: ztConv env :: [defaultConv env knownKeys]) config i4 = (st, .ok ()) := by
    rcases pure_step H with ⟨e, H⟩ | ⟨v, i4, e, e1, e2, H⟩
    · rcases his with ⟨_, e'⟩ | e'
      · exact ⟨[], i3, by rw [e']; exact .nil _, grows_same rfl, H⟩
      · rw [e'] at e; cases e
    · rcases his with ⟨e', _⟩ | e'
      · exact absurd e' e
      · obtain ⟨outs, o1, o2, _⟩ := C78_options e' (fun b hb => ⟨wf_nodup (wf_each hw e' (List.mem_map_of_mem hb)), hok b hb⟩) e1
        exact ⟨outs, i4, o1, grows_merge e2 fun hd => by rw [o2 hd]; exact netOf_get _, H⟩
  obtain ⟨outs, i4, o1, g5, H⟩ := I
  obtain ⟨rts, i5, t1, g6, H⟩ := list_step (loop := routeFwd env) (blk := routeBlock env) (P := RouteSays env) (fun _ _ _ => rfl) hrt
    (fun i d b hd hb => route_says (wf_nodup (wfs hrt d hd)) hb) H
  obtain ⟨rls, i6, t2, g7, H⟩ := list_step (loop := ruleFwd env) (blk := ruleBlock env) (P := RuleSays env) (fun _ _ _ => rfl) hrl
    (fun i d b hd hb => rule_says (wf_nodup (wfs hrl d hd)) hb) H
  have S : ∃ sws i7, List.Forall₂ (SwitchSays env) (objectsAt config "switch") sws ∧ Grows "network" i6 i7 sws.flatten ∧
      convLoop (openwrtClass env (owValidate ip6) sh loads dsa)
        (radiosConv env dsa :: wirelessConv env dsa :: uciVpnConv env :: peersConv :: ztConv env :: [defaultConv env knownKeys]) config i7 = (st, .ok ()) := by
    rcases pure_step H with ⟨e, H⟩ | ⟨v, i7, e, e1, e2, H⟩
    · rcases hsw with ⟨_, e'⟩ | e'
      · exact ⟨[], i6, by rw [e']; exact .nil, grows_same rfl, H⟩
      · rw [e'] at e; cases e
    · rcases hsw with ⟨e', _⟩ | e'
      · exact absurd e' e
      · have e1 : fwd "switch" (switchFwd env) config = .ok v := e1
        unfold fwd at e1
        rw [e'] at e1
        obtain ⟨sws, b1, b2⟩ := switch_loop env _ 1 [] v [] (wfs (.inr e')) rfl e1
        subst b2
        exact ⟨sws, i7, b1, grows_merge e2 fun _ => netOf_get _, H⟩
  obtain ⟨sws, i7, t3, g8, H⟩ := S
  obtain ⟨i8, g9, H⟩ := other_step (pkg := "network") (readers_reads (env := env) (sh := sh) (dsa := dsa) (radiosConv env dsa, ["radios"], [], ["wireless"]) (by simp [readers])) (by simp) H
  obtain ⟨i9, g10, H⟩ := other_step (pkg := "network") (reads_wireless (env := env) (dsa := dsa)) (by decide) H
  obtain ⟨c4, i10, b1, b2, b3, H⟩ := skip_one (P := ["network"]) reads_vpn (.inr (by simp)) hn H
  obtain ⟨prs, i11, t4, g11, H⟩ := list_step (loop := peerFwd) (blk := peerBlock) (P := PeerSays) (fun _ _ _ => rfl) (c := c4) (by rw [b1 _ (by decide)]; exact hpr)
    (fun i d b hd hb => peer_says (wf_nodup (wfs hpr d hd)) hb) H
  obtain ⟨c5, i12, d1, d2, d3, H⟩ := skip_one (P := ["network"]) reads_zt (.inr (by simp)) b2 H
  refine ⟨gs, outs, rts, rls, sws, prs, g1, o1, t1, t2, t3, t4, c5, i12, fun k hk => by rw [d1 k hk, b1 k hk], d2, ?_, H⟩
  have all := grows_trans (grows_trans (grows_trans (grows_trans (grows_trans (grows_trans (grows_trans (grows_trans (grows_trans (grows_trans (grows_trans
    g2 g3) g4) g5) g6) g7) g8) g9) g10) (grows_same (b3 "network" (by simp)))) g11) (grows_same (d3 "network" (by simp)))
  simpa using all

/-- **C100.** What the network package of a configuration without such a package of its own contains: the section for the ULA prefix, then those of the
interfaces, routes, policy rules, switches and peers, each list in its order and one section (for a switch: one and one for each VLAN) for each object, each with
exactly the options it should have. -/
theorem C100_network (env : Env) (ip6 : Ip6) (sh : Val → Bool) (loads : Chars → Option Val) (dsa : Bool) (config : VDict) (hw : (Val.dict config).WF)
    (hpk : Dict.get? config "network" = none) (hok : ∀ b ∈ objectsAt config "interfaces", AddressesOK (addressList b) ∧ MembersOK b)
    {st : BState} (h : toIntermediate (openwrtClass env (owValidate ip6) sh loads dsa) ⟨config, none⟩ = (st, .ok ())) {j : VDict} (hj : st.inter = some j) :
    ∃ (gs : List VDict) (outs : List (List VDict × List VDict)) (rts rls : List VDict) (sws : List (List VDict)) (prs : List VDict),
      GlobalsSays config gs ∧ AllWritten env dsa config [] (objectsAt config "interfaces") outs ∧
      Forall2Idx (RouteSays env) 1 (objectsAt config "routes") rts ∧ Forall2Idx (RuleSays env) 1 (objectsAt config "ip_rules") rls ∧
      List.Forall₂ (SwitchSays env) (objectsAt config "switch") sws ∧ Forall2Idx PeerSays 1 (objectsAt config "wireguard_peers") prs ∧
      (DistinctNames (gs ++ outs.flatMap (fun o => o.1 ++ o.2) ++ rts ++ rls ++ sws.flatten ++ prs) →
        Dict.get? j "network" = stored (gs ++ outs.flatMap (fun o => o.1 ++ o.2) ++ rts ++ rls ++ sws.flatten ++ prs)) := by
  obtain ⟨gs, outs, rts, rls, sws, prs, g1, o1, t1, t2, t3, t4, c, i, a1, a2, g2, H⟩ := network_before env ip6 sh loads dsa config hw hok h
  refine ⟨gs, outs, rts, rls, sws, prs, g1, o1, t1, t2, t3, t4, fun hd => ?_⟩
  have hlast : Dict.get? j "network" = Dict.get? i "network" := by
    rcases loop_step H with ⟨s, _⟩ | ⟨_, v, i13, e1, e2, H⟩
    · cases s
    · rw [convLoop] at H
      cases H
      cases hj
      have hv0 := ((default_at a2 e1).2 "network").2 (by rw [a1 _ (by decide), hpk])
      rw [mergeKvs_get?_not_mem e2 ((Dict.get?_eq_none_iff _ _).1 hv0)]
  rw [hlast, g2 [] rfl (by simpa using hd)]
  simp

end NJ
