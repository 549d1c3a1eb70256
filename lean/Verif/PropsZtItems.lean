import Verif.PropsVpnItems

/-!
# C103: the ZeroTier package says what the VPNs and their networks say
-/

namespace NJ

/-! ## Specification -/

/-- **Specification.** The section of the ZeroTier VPN `d` with the networks `ns`: the identifiers of the networks to join, each of the two paths of the
local settings when only the other is given, and defaults for the paths. -/
def ZtSays (d : VDict) (ns : List VDict) (b : VDict) : Prop :=
  ∃ n : String, Dict.get? d "name" = some (.str n) ∧ (Dict.keys b).Nodup ∧ ∀ k, Dict.get? b k =
    if k = "client_options" ∨ k = "networks" ∨ k = "name" ∨ k = "disabled" then none
    else if k = ".name" then some (txt (uciName n.toList))
    else if k = ".type" then some (.str "zerotier")
    else if k = "config_path" then some ((Dict.get? d k).getD (.str "/etc/openwisp/zerotier"))
    else if k = "copy_config_path" then some ((Dict.get? d k).getD (.str "1"))
    else if k = "join" then some (.list (ns.map fun x => (Dict.get? x "id").getD (.str "")))
    else if k = "enabled" then some (.bool (!((Dict.get? d "disabled").getD (.bool false)).truthy))
    else if k = "local_conf_path" then (if ((Dict.get? d "local_conf").getD .none).truthy then Dict.get? d "local_conf" else Dict.get? d k)
    else if k = "local_conf" then (if ((Dict.get? d "local_conf").getD .none).truthy then Dict.get? d k
      else if ((Dict.get? d "local_conf_path").getD .none).truthy then Dict.get? d "local_conf_path" else Dict.get? d k)
    else Dict.get? d k

/-- **Specification.** The section of the network `d`. -/
def ZtNetSays (d b : VDict) : Prop :=
  ∃ n : String, Dict.get? d "ifname" = some (.str n) ∧ (Dict.keys b).Nodup ∧ ∀ k, Dict.get? b k =
    if k = ".type" then some (.str "network")
    else if k = ".name" then some (txt (uciName n.toList))
    else if k = "ifname" then none
    else Dict.get? d k

/-- **Specification.** The sections of a VPN: its own, then one for each of its networks. -/
def ZtGroup (d : VDict) (bs : List VDict) : Prop :=
  ∃ b ms, bs = b :: ms ∧ Dict.get? d "networks" = some (.list ((objectsAt d "networks").map .dict)) ∧ ZtSays d (objectsAt d "networks") b ∧
    List.Forall₂ ZtNetSays (objectsAt d "networks") ms

/-! ## The sections -/

theorem ztNet_says {d : VDict} {v : Val} (hn : (Dict.keys d).Nodup) (h : ztNetwork (.dict d) = .ok v) : ∃ b, v = .dict b ∧ ZtNetSays d b := by
  unfold ztNetwork at h
  obtain ⟨d', a1, h⟩ := bind_ok_iff.1 h
  cases a1
  obtain ⟨⟨ifname, r⟩, e1, h⟩ := bind_ok_iff.1 h
  obtain ⟨a1, a2⟩ := popKey_is e1
  obtain ⟨nm, e2, h⟩ := bind_ok_iff.1 h
  dsimp only at a1 a2 e2 h
  subst a2
  cases ifname with
  | str n =>
    cases e2
    have h := pure_ok_iff.1 h
    have hnd := Dict.nodup_update (Dict.nodup_erase hn "ifname") [(".name", txt (uciName n.toList)), (".type", .str "network")]
    refine ⟨_, h.symm, n, a1, sortedDict_nodup hnd, fun k => ?_⟩
    rw [get?_sortedDict hnd]
    simp only [Dict.update_cons, Dict.update_nil, Dict.get?_set', Dict.get?_erase']
  | _ => cases e2

theorem ids_mapM {l : List VDict} {r : List Val} (h : (l.map Val.dict).mapM ztId = .ok r) : r = l.map fun x => (Dict.get? x "id").getD (.str "") := by
  induction l generalizing r with
  | nil => cases h; rfl
  | cons d l ih =>
    rw [List.map_cons, mapM_ok_cons] at h
    obtain ⟨b, bs, h1, h2, rfl⟩ := h
    unfold ztId at h1
    obtain ⟨d', a1, h1⟩ := bind_ok_iff.1 h1
    cases a1
    cases pure_ok_iff.1 h1
    rw [ih h2, List.map_cons]

theorem nets_mapM {l : List VDict} {r : List Val} (hn : ∀ d ∈ l, (Dict.keys d).Nodup) (h : (l.map Val.dict).mapM ztNetwork = .ok r) :
    ∃ bs : List VDict, r = bs.map .dict ∧ List.Forall₂ ZtNetSays l bs := by
  induction l generalizing r with
  | nil => cases h; exact ⟨[], rfl, .nil⟩
  | cons d l ih =>
    rw [List.map_cons, mapM_ok_cons] at h
    obtain ⟨b, bs, h1, h2, rfl⟩ := h
    obtain ⟨x, rfl, hx⟩ := ztNet_says (hn d List.mem_cons_self) h1
    obtain ⟨xs, rfl, hxs⟩ := ih (fun y hy => hn y (List.mem_cons_of_mem _ hy)) h2
    exact ⟨x :: xs, rfl, .cons hx hxs⟩

theorem zt_says {d : VDict} {ns : List VDict} {b : VDict} (hn : (Dict.keys d).Nodup) (hns : Dict.get? d "networks" = some (.list (ns.map .dict))) (h : ztBlock d = .ok b) :
    (Dict.keys b).Nodup ∧ Dict.get? b "networks" = some (.list (ns.map .dict)) ∧ ZtSays d ns (Dict.erase b "networks") := by
  unfold ztBlock at h
  obtain ⟨l, e0, h⟩ := bind_ok_iff.1 h
  unfold ztNetworks at e0
  rw [hns] at e0
  cases e0
  obtain ⟨⟨name, r⟩, e1, h⟩ := bind_ok_iff.1 h
  obtain ⟨a1, a2⟩ := popKey_is e1
  obtain ⟨nm, e2, h⟩ := bind_ok_iff.1 h
  dsimp only at a1 a2 e2 h
  subst a2
  obtain ⟨ids, e3, h⟩ := bind_ok_iff.1 h
  simp only [popOr] at h
  rw [ids_mapM e3] at h
  cases name with
  | str n =>
    cases e2
    have hnu := Dict.nodup_update (Dict.nodup_erase (Dict.nodup_erase hn "name") "disabled") [(".name", txt (uciName n.toList)), (".type", .str "zerotier"),
      ("config_path", (Dict.get? (Dict.erase d "name") "config_path").getD ztPath), ("copy_config_path", (Dict.get? (Dict.erase d "name") "copy_config_path").getD (.str "1")),
      ("join", .list (ns.map fun x => (Dict.get? x "id").getD (.str ""))), ("enabled", .bool (!((Dict.get? (Dict.erase d "name") "disabled").getD (.bool false)).truthy))]
    generalize hu : Dict.update (Dict.erase (Dict.erase d "name") "disabled") _ = u at h hnu
    have gu : ∀ k, Dict.get? u k = if k = "enabled" then some (.bool (!((Dict.get? d "disabled").getD (.bool false)).truthy))
        else if k = "join" then some (.list (ns.map fun x => (Dict.get? x "id").getD (.str "")))
        else if k = "copy_config_path" then some ((Dict.get? d "copy_config_path").getD (.str "1"))
        else if k = "config_path" then some ((Dict.get? d "config_path").getD (.str "/etc/openwisp/zerotier"))
        else if k = ".type" then some (.str "zerotier")
        else if k = ".name" then some (txt (uciName n.toList))
        else if k = "disabled" then none else if k = "name" then none else Dict.get? d k := by
      intro k
      rw [← hu]
      simp only [Dict.update_cons, Dict.update_nil, Dict.get?_set', Dict.get?_erase', String.reduceEq, if_false, ztPath]
    have hl1 : Dict.get? u "local_conf" = Dict.get? d "local_conf" := by rw [gu]; simp
    have hl2 : Dict.get? u "local_conf_path" = Dict.get? d "local_conf_path" := by rw [gu]; simp
    have hnl : (Dict.keys (ztLocalConf u)).Nodup := by
      unfold ztLocalConf
      dsimp only
      split
      · exact Dict.nodup_set hnu _ _
      · split
        · exact Dict.nodup_set hnu _ _
        · exact hnu
    have gl : ∀ k, Dict.get? (ztLocalConf u) k =
        if k = "local_conf_path" then (if ((Dict.get? d "local_conf").getD .none).truthy then Dict.get? d "local_conf" else Dict.get? d k)
        else if k = "local_conf" then (if ((Dict.get? d "local_conf").getD .none).truthy then Dict.get? d k
          else if ((Dict.get? d "local_conf_path").getD .none).truthy then Dict.get? d "local_conf_path" else Dict.get? d k)
        else Dict.get? u k := by
      intro k
      have some_of : ∀ o : Option Val, (o.getD .none).truthy = true → some (o.getD .none) = o := by
        intro o ho
        cases o with
        | none => cases ho
        | some v => rfl
      unfold ztLocalConf
      rw [hl1, hl2]
      dsimp only
      by_cases k1 : k = "local_conf_path"
      · subst k1
        rw [if_pos rfl]
        split
        · next ht => rw [Dict.get?_set', if_pos rfl, some_of _ ht]
        · split
          · rw [Dict.get?_set', if_neg (by decide), hl2]
          · exact hl2
      · rw [if_neg k1]
        by_cases k2 : k = "local_conf"
        · subst k2
          rw [if_pos rfl]
          split
          · rw [Dict.get?_set', if_neg (by decide), hl1]
          · split
            · next ht => rw [Dict.get?_set', if_pos rfl, some_of _ ht]
            · exact hl1
        · rw [if_neg k2]
          split
          · rw [Dict.get?_set', if_neg k1]
          · split
            · rw [Dict.get?_set', if_neg k2]
            · rfl
    have h := pure_ok_iff.1 h
    have hne := Dict.nodup_erase hnl "client_options"
    have gb : ∀ k, Dict.get? b k = if k = "client_options" then none else Dict.get? (ztLocalConf u) k := by
      intro k
      rw [← h, get?_sortedDict hne, Dict.get?_erase']
    have hnb : (Dict.keys b).Nodup := by rw [← h]; exact sortedDict_nodup hne
    refine ⟨hnb, by rw [gb, gl, gu]; simp [hns], n, a1, Dict.nodup_erase hnb _, fun k => ?_⟩
    rw [Dict.get?_erase', gb, gl, gu]
    by_cases q1 : k = "client_options"
    · simp [q1]
    by_cases q2 : k = "networks"
    · simp [q2]
    by_cases q3 : k = "name"
    · subst q3; simp
    by_cases q4 : k = "disabled"
    · subst q4; simp
    by_cases q5 : k = ".name"
    · subst q5; simp
    by_cases q6 : k = ".type"
    · subst q6; simp
    by_cases q7 : k = "config_path"
    · subst q7; simp
    by_cases q8 : k = "copy_config_path"
    · subst q8; simp
    by_cases q9 : k = "join"
    · subst q9; simp
    by_cases q10 : k = "enabled"
    · subst q10; simp
    simp only [q1, q2, q3, q4, q5, q6, q7, q8, q9, q10, if_false, or_self]
  | _ => cases e2

theorem ztGroup_says {d : VDict} {bs : List Val} (hw : (Val.dict d).WF) (hN : IsLst (IsObj fun _ => True) ((Dict.get? d "networks").getD .none)) (h : ztBlocks d = .ok bs) :
    ∃ ss : List VDict, bs = ss.map .dict ∧ ZtGroup d ss := by
  unfold ztBlocks at h
  obtain ⟨b, e1, h⟩ := bind_ok_iff.1 h
  obtain ⟨⟨ns, r⟩, e2, h⟩ := bind_ok_iff.1 h
  obtain ⟨a1, a2⟩ := popKey_is e2
  dsimp only at a1 a2 h
  subst a2
  have hns : Dict.get? d "networks" = some (.list ((objectsAt d "networks").map .dict)) := by
    rcases objectsAt_of (config := d) (k := "networks") (P := fun _ => True) (by
      intro v hv
      rw [hv] at hN
      exact hN) with ⟨e, _⟩ | e
    · rw [e] at hN
      exact absurd hN (by rintro ⟨l, hl, _⟩; cases hl)
    · exact e
  obtain ⟨b1, b2, b3⟩ := zt_says (wf_nodup hw) hns e1
  rw [b2] at a1
  cases Option.some.inj a1
  dsimp only at h
  obtain ⟨ms, e3, h⟩ := bind_ok_iff.1 h
  obtain ⟨xs, rfl, hx⟩ := nets_mapM (fun y hy => wf_nodup (wf_each hw hns (List.mem_map_of_mem hy))) e3
  exact ⟨_ :: xs, (pure_ok_iff.1 h).symm, _, xs, rfl, hns, b3, hx⟩

theorem ztAll_says {env : Env} (l : List VDict) : ∀ {c : VDict} {bs : List Val}, (∀ d ∈ l, (Val.dict d).WF ∧ IsLst (IsObj fun _ => True) ((Dict.get? d "networks").getD .none)) →
    (ztAll env c (l.map .dict)).2 = .ok bs → ∃ gs : List (List VDict), bs = gs.flatten.map .dict ∧ List.Forall₂ ZtGroup l gs := by
  induction l with
  | nil => intro c bs _ h; cases h; exact ⟨[], rfl, .nil⟩
  | cons d l ih =>
    intro c bs hl h
    rw [List.map_cons, ztAll, show asDict (.dict d) = .ok d from rfl] at h
    dsimp only at h
    split at h
    · cases h
    split at h
    · cases h
    · next b1 hb =>
      dsimp only at h
      obtain ⟨more, e1, h⟩ := bind_ok_iff.1 h
      obtain ⟨ss, rfl, hs⟩ := ztGroup_says (hl d List.mem_cons_self).1 (hl d List.mem_cons_self).2 hb
      obtain ⟨gs, rfl, hg⟩ := ih (fun x hx => hl x (List.mem_cons_of_mem _ hx)) e1
      exact ⟨ss :: gs, by rw [← pure_ok_iff.1 h]; simp, .cons hs hg⟩

/-- **C103.** What the ZeroTier package contains: for each VPN, in their order, its section followed by one for each of its networks, each with
exactly the options it should have. -/
theorem C103_zerotier (env : Env) (ip6 : Ip6) (sh : Val → Bool) (loads : Chars → Option Val) (dsa : Bool) (config : VDict) (hw : (Val.dict config).WF)
    {st : BState} (h : toIntermediate (openwrtClass env (owValidate ip6) sh loads dsa) ⟨config, none⟩ = (st, .ok ())) {j : VDict} (hj : st.inter = some j) :
    ∃ gs : List (List VDict), List.Forall₂ ZtGroup (objectsAt config "zerotier") gs ∧ Dict.get? j "zerotier" = stored gs.flatten := by
  obtain ⟨facts, H⟩ := ow_loop h
  have hn := wf_nodup hw
  have hzt := objectsAt_of (holds_objects facts.zt)
  have hfit := zt_fit hw facts
  have H : convLoop (openwrtClass env (owValidate ip6) sh loads dsa)
      ((((readers env sh dsa).take 11).map Prod.fst) ++ (ztConv env :: [defaultConv env knownKeys])) config [] = (st, .ok ()) := H
  obtain ⟨c1, i1, a1, a2, a3, H⟩ := skip_many (P := ["zerotier"]) _ (fun x hx => ⟨readers_reads x (List.mem_of_mem_take hx), by
    simp only [readers, List.take_succ_cons, List.take_zero, List.mem_cons, List.not_mem_nil, or_false] at hx
    rcases hx with rfl | rfl | rfl | rfl | rfl | rfl | rfl | rfl | rfl | rfl | rfl <;> simp⟩) hn H
  have hi1 : Dict.get? i1 "zerotier" = none := a3 "zerotier" (by simp)
  have ea := a1 "zerotier" (by decide)
  have V : ∃ c2 i2 gs, List.Forall₂ ZtGroup (objectsAt config "zerotier") gs ∧ Dict.get? i2 "zerotier" = stored gs.flatten ∧ (Dict.keys c2).Nodup ∧
      convLoop (openwrtClass env (owValidate ip6) sh loads dsa) [defaultConv env knownKeys] c2 i2 = (st, .ok ()) := by
    rcases loop_step H with ⟨s, H⟩ | ⟨s, v, i2, e1, e2, H⟩
    · have s : Dict.has c1 "zerotier" = false := s
      rcases hzt with ⟨_, e⟩ | e
      · exact ⟨c1, i1, [], by rw [e]; exact .nil, hi1, a2, H⟩
      · rw [Dict.has_eq, ea, e] at s; cases s
    · have s : Dict.has c1 "zerotier" = true := s
      rcases hzt with ⟨e, _⟩ | e
      · rw [Dict.has_eq, ea, e] at s; cases s
      · have e1 : (ztRun env c1 i1).2 = .ok v := e1
        unfold ztRun at e1
        rw [ea, e, Option.getD_some] at e1
        dsimp only at e1
        obtain ⟨bs, e3, e4⟩ := bind_ok_iff.1 e1
        obtain ⟨gs, rfl, hg⟩ := ztAll_says _ (fun d hd => ⟨wf_each hw e (List.mem_map_of_mem hd), by
          obtain ⟨l, hl, hd'⟩ := hfit _ e
          cases hl
          obtain ⟨d', q, hz⟩ := hd' _ (List.mem_map_of_mem hd)
          cases q
          obtain ⟨v, hv, l, rfl, hx⟩ := hz.networks
          rw [hv]
          exact ⟨l, rfl, fun x hm => by obtain ⟨y, rfl, _⟩ := hx x hm; exact ⟨y, rfl, trivial⟩⟩⟩) e3
        refine ⟨_, i2, gs, hg, ?_, (reads_zt (env := env)).config c1 i1 |>.2 a2, H⟩
        have e4 := pure_ok_iff.1 e4
        have hv : Dict.get? v "zerotier" = stored gs.flatten ∧ (Dict.keys v).Nodup := by
          have := stored_get "zerotier" gs.flatten
          rw [← e4]
          simpa using this
        exact stored_first e2 hi1 hv.1 hv.2
  obtain ⟨c2, i2, gs, f1, f2, n2, H⟩ := V
  exact ⟨gs, f1, by rw [known_kept (by decide) n2 H hj, f2]⟩

end NJ
