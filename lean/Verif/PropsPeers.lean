import Verif.PropsRoutes

/-!
# C45: WireGuard peers
-/

namespace NJ

/-- the name of the interface as used in UCI -/
def wgIface (s : Chars) : Chars := s.map (fun c => if c = '-' then '_' else c)

/-- the name of the section of the peer number `i` (from 1) of an interface -/
def wgName (i : Nat) (iface : Chars) : Chars := "wgpeer_".toList ++ wgIface iface ++ (if i > 1 then '_' :: showNat i else [])

/-- the type of the sections of the peers of an interface -/
def wgType (iface : Chars) : Chars := "wireguard_".toList ++ wgIface iface

/-- is the port of the endpoint shown -/
def showsPort (d : VDict) : Bool := ((Dict.get? d "endpoint_host").getD .none).truthy

/-- the section of a peer, item by item -/
def peerItem (i : Nat) (iface : Chars) (d : VDict) (k : String) : Option Val :=
  if k = ".name" then some (txt (wgName i iface))
  else if k = ".type" then some (txt (wgType iface))
  else if k = "interface" then none
  else if k = "endpoint_port" ∧ showsPort d = false then none
  else Dict.get? d k

theorem peer_block (i : Nat) (d : VDict) (s : String) (hn : (Dict.keys d).Nodup) (hs : Dict.get? d "interface" = some (.str s)) :
    ∃ b, peerBlock i d = .ok b ∧ (Dict.keys b).Nodup ∧ ∀ k, Dict.get? b k = peerItem i s.toList d k := by
  generalize hr : Dict.update (Dict.erase d "interface") [(".type", txt (wgType s.toList)), (".name", txt (wgName i s.toList))] = r
  have hrn : (Dict.keys r).Nodup := by rw [← hr]; exact Dict.nodup_update (Dict.nodup_erase hn _) _
  have hrg : ∀ k, Dict.get? r k = if k = ".name" then some (txt (wgName i s.toList)) else
      if k = ".type" then some (txt (wgType s.toList)) else if k = "interface" then none else Dict.get? d k := by
    intro k; rw [← hr]; simp only [Dict.update_cons, Dict.update_nil, Dict.get?_set', Dict.get?_erase']
  have hport : ((Dict.get? r "endpoint_host").getD .none).truthy = showsPort d := by
    rw [hrg, if_neg (by decide), if_neg (by decide), if_neg (by decide)]; rfl
  refine ⟨sortedDict (if !showsPort d then Dict.erase r "endpoint_port" else r), ?_, ?_, ?_⟩
  · unfold peerBlock
    rw [popKey_ok hs]
    show Except.ok (sortedDict (if !((Dict.get? (Dict.update (Dict.erase d "interface") [(".type", txt (wgType s.toList)), (".name", txt (wgName i s.toList))])
      "endpoint_host").getD .none).truthy then Dict.erase (Dict.update (Dict.erase d "interface") [(".type", txt (wgType s.toList)),
      (".name", txt (wgName i s.toList))]) "endpoint_port" else Dict.update (Dict.erase d "interface") [(".type", txt (wgType s.toList)),
      (".name", txt (wgName i s.toList))])) = _
    rw [hr, hport]
  · apply sortedDict_nodup
    split
    · exact Dict.nodup_erase hrn _
    · exact hrn
  · intro k
    rw [get?_sortedDict (by split; exact Dict.nodup_erase hrn _; exact hrn)]
    unfold peerItem
    cases hp : showsPort d with
    | true => simp only [Bool.not_true, Bool.false_eq_true, if_false, hrg, Bool.true_eq_false, and_false]
    | false =>
      simp only [Bool.not_false, if_true, Dict.get?_erase', hrg, and_true]
      by_cases e : k = "endpoint_port"
      · subst e; rfl
      · simp only [e, if_false]

/-- C45: every peer becomes its own section: the sections are one for one those of the peers, in order, each with the type and
name made from the interface and all the options of the peer (the port of the endpoint only when the host is set). -/
theorem C45_sections (config : VDict) (l : List VDict) (hne : l ≠ []) (hn : ∀ d ∈ l, (Dict.keys d).Nodup) (ifs : List String)
    (hi : List.Forall₂ (fun s d => Dict.get? d "interface" = some (.str s)) ifs l)
    (hk : Dict.get? config "wireguard_peers" = some (.list (l.map .dict))) :
    ∃ bs : List VDict, (peersConv.run config []).2 = .ok [("network", .list (bs.map .dict))] ∧ bs.length = l.length ∧
      ∀ i s d b, ifs[i]? = some s → l[i]? = some d → bs[i]? = some b → ∀ k, Dict.get? b k = peerItem (i + 1) s.toList d k := by
  have key : ∀ (l : List VDict) (ifs : List String) (j : Nat), (∀ d ∈ l, (Dict.keys d).Nodup) →
      List.Forall₂ (fun s d => Dict.get? d "interface" = some (.str s)) ifs l →
      ∃ bs : List VDict, mapIdxM peerBlock j l = .ok bs ∧ bs.length = l.length ∧
        ∀ i s d b, ifs[i]? = some s → l[i]? = some d → bs[i]? = some b → ∀ k, Dict.get? b k = peerItem (j + i) s.toList d k := by
    intro l
    induction l with
    | nil => intro ifs j _ _; exact ⟨[], rfl, rfl, by simp⟩
    | cons d ds ih =>
      intro ifs j hn hi
      cases hi with
      | cons hs hrest =>
        rename_i s ss
        obtain ⟨b, h1, h2, h3⟩ := peer_block j d s (hn d (by simp)) hs
        obtain ⟨bs, i1, i2, i3⟩ := ih ss (j + 1) (fun x hx => hn x (by simp [hx])) hrest
        refine ⟨b :: bs, ?_, by simp [i2], ?_⟩
        · rw [mapIdxM, h1, i1]; rfl
        · intro i s' d' b' e1 e2 e3 k
          cases i with
          | zero => simp at e1 e2 e3; subst e1 e2 e3; exact h3 k
          | succ i =>
            have := i3 i s' d' b' (by simpa using e1) (by simpa using e2) (by simpa using e3) k
            rwa [show j + (i + 1) = j + 1 + i by omega]
  obtain ⟨bs, h1, h2, h3⟩ := key l ifs 1 hn hi
  refine ⟨bs, ?_, h2, fun i s d b e1 e2 e3 k => by rw [Nat.add_comm]; exact h3 i s d b e1 e2 e3 k⟩
  exact fwd_blocks "wireguard_peers" peerFwd "network" peerBlock (fun _ _ _ => rfl) config l bs hne hk h1

theorem last_sep {sep : Char} {a b x y : Chars} (hx : sep ∉ x) (hy : sep ∉ y) (h : a ++ sep :: x = b ++ sep :: y) : a = b ∧ x = y := by
  rcases List.append_eq_append_iff.1 h with ⟨c, h1, h2⟩ | ⟨c, h1, h2⟩
  · cases c with
    | nil => simp at h1 h2; exact ⟨h1.symm, h2⟩
    | cons z zs =>
      simp only [List.cons_append, List.cons.injEq] at h2
      exact absurd (by rw [h2.2]; simp) hx
  · cases c with
    | nil => simp at h1 h2; exact ⟨h1, h2.symm⟩
    | cons z zs =>
      simp only [List.cons_append, List.cons.injEq] at h2
      exact absurd (by rw [h2.2]; simp) hy

theorem showNat_inj {i j : Nat} (h : showNat i = showNat j) : i = j := by
  have := congrArg readNat h
  rw [readNat_showNat, readNat_showNat] at this
  exact Option.some.inj this

/-- C45: the names of the sections are all different, unless the first peer is of an interface named like another one followed by
an underscore and the position of that other peer. -/
theorem C45_names_distinct (ifs : List String)
    (h : ∀ s t j, ifs[0]? = some s → ifs[j]? = some t → 0 < j → wgIface s.toList ≠ wgIface t.toList ++ '_' :: showNat (j + 1))
    (i j : Nat) (s t : String) (hi : ifs[i]? = some s) (hj : ifs[j]? = some t) (hij : i ≠ j) :
    wgName (i + 1) s.toList ≠ wgName (j + 1) t.toList := by
  have hz : ∀ (j : Nat) (s t : String), ifs[0]? = some s → ifs[j]? = some t → 0 < j → wgName 1 s.toList ≠ wgName (j + 1) t.toList := by
    intro j s t h0 h1 hj e
    unfold wgName at e
    rw [if_neg (by omega), if_pos (by omega), List.append_nil, List.append_assoc, List.append_cancel_left_eq] at e
    exact h s t j h0 h1 hj e
  intro e
  rcases Nat.eq_zero_or_pos i with rfl | hi0
  · exact hz j s t hi hj (by omega) e
  · rcases Nat.eq_zero_or_pos j with rfl | hj0
    · exact hz i t s hj hi hi0 e.symm
    · unfold wgName at e
      rw [if_pos (by omega), if_pos (by omega)] at e
      have := showNat_inj (last_sep (showNat_noSep _ _ (by decide)) (showNat_noSep _ _ (by decide)) e).2
      omega

/-- C45 needs its condition: the peers of `wg_2` and `wg`, in this order, get the same name. -/
theorem C45_needs_condition : wgName 1 "wg_2".toList = wgName 2 "wg".toList := by decide +kernel

/-! ## Round trip -/

/-- A peer whose settings survive: the name of the interface is a word without dashes and without `wireguard_` inside, the port
is set only with the host, the other options survive. -/
structure PeerOK (d : VDict) : Prop where
  options : OptionsOK peerProps ["interface"] d
  iface : ∃ s : String, Dict.get? d "interface" = some (.str s) ∧ IsWord s.toList ∧ '-' ∉ s.toList ∧ ¬ "wireguard_".toList <:+: s.toList
  port : Dict.get? d "endpoint_host" = none → Dict.get? d "endpoint_port" = none

theorem wgIface_id {s : Chars} (h : '-' ∉ s) : wgIface s = s := by
  unfold wgIface
  conv_rhs => rw [← List.map_id s]
  apply List.map_congr_left
  intro c hc
  have : c ≠ '-' := fun e => h (e ▸ hc)
  simp [this]

theorem isWord_append {a b : Chars} (ha : IsWord a) (hb : ∀ c ∈ b, isSpace c = false ∧ c ≠ '\'' ∧ c ≠ '"') : IsWord (a ++ b) := by
  refine ⟨by simp [ha.1], fun c hc => ?_⟩
  rcases List.mem_append.1 hc with h | h
  · exact ha.2 c h
  · exact hb c h

theorem wgType_ne (s : Chars) : String.ofList (wgType s) ≠ "device" ∧ String.ofList (wgType s) ≠ "bridge-vlan" := by
  have hw : (wgType s).head? = some 'w' := rfl
  constructor <;> intro e <;> have h1 := congrArg String.toList e <;> rw [String.toList_ofList] at h1 <;> rw [h1] at hw <;>
    exact absurd hw (by decide)

theorem peer_item (i : Nat) (reprC : Val → String) (d : VDict) (h : PeerOK d) :
    ItemBack reprC none peerBlock (fun _ b => netjsonPeer b) i d := by
  obtain ⟨s, hs, hw, hdash, hinf⟩ := h.iface
  obtain ⟨b, hblk, hnod, hb⟩ := peer_block i d s h.options.nodup hs
  have hty : IsWord (String.ofList (wgType s.toList)).toList := by
    rw [String.toList_ofList]
    unfold wgType
    rw [wgIface_id hdash]
    exact isWord_append (by decide) hw.2
  have hnm : IsWord (String.ofList (wgName i s.toList)).toList := by
    rw [String.toList_ofList]
    unfold wgName
    rw [wgIface_id hdash]
    refine isWord_append (isWord_append (by decide) hw.2) ?_
    split
    · intro c hc
      rcases List.mem_cons.1 hc with rfl | hc
      · decide
      · exact (autoName_word ['x'] (by decide) i).2 c (by simp [hc])
    · simp
  have hshow : showsPort d = true ∨ Dict.get? d "endpoint_port" = none := by
    cases hh : Dict.get? d "endpoint_host" with
    | none => exact .inr (h.port hh)
    | some v =>
      left
      obtain ⟨_, _, hv⟩ := h.options.options _ v hh (by decide)
      unfold showsPort
      rw [hh]
      cases v with
      | str t => simpa [Val.truthy] using hv.1
      | int i => simp [Survives, peerProps, Dict.get?] at hv
      | bool i => simp [Survives, peerProps, Dict.get?] at hv
      | list l => cases l with
        | nil => exact absurd rfl hv.1
        | cons x xs => rfl
      | none => exact absurd hv (by simp [Survives])
      | dict d => exact absurd hv (by simp [Survives])
  have hitem : ∀ k, k ≠ ".name" → k ≠ ".type" → k ≠ "interface" → peerItem i s.toList d k = Dict.get? d k := by
    intro k h1 h2 h3
    unfold peerItem
    rw [if_neg h1, if_neg h2, if_neg h3]
    split
    · next e =>
      rcases hshow with hsh | hsh
      · rw [hsh] at e; cases e.2
      · rw [e.1, hsh]
    · rfl
  have hplain : PlainBlock b := by
    refine ⟨hnod, ⟨_, by rw [hb]; rfl, hty, wgType_ne _⟩, ⟨_, by rw [hb]; rfl, hnm⟩, ?_⟩
    intro k v hk h1 h2
    rw [hb] at hk
    by_cases h3 : k = "interface"
    · subst h3; simp [peerItem] at hk
    · rw [hitem k h2 h1 h3] at hk
      obtain ⟨o1, o2, o3⟩ := h.options.options k v hk (by simpa using h3)
      exact ⟨o1, o2, survives_plain o3⟩
  generalize hx : blockBack reprC b = x
  have hget : ∀ k, Dict.get? x k = if k = ".type" ∨ k = ".name" then peerItem i s.toList d k else (peerItem i s.toList d k).bind readVal := by
    intro k; rw [← hx, get?_blockBack _ hplain, hb]
  have hxn : (Dict.keys x).Nodup := by rw [← hx]; exact blockBack_nodup _ hplain
  have gname : Dict.get? x ".name" = some (txt (wgName i s.toList)) := by rw [hget]; rfl
  have gtype : Dict.get? x ".type" = some (txt (wgType s.toList)) := by rw [hget]; rfl
  have hrep : replaceAll "wireguard_".toList [] (wgType s.toList) = s.toList := by
    unfold wgType
    rw [wgIface_id hdash, replaceAll_match _ _ (by decide), replaceAll_of_not_infix hinf]; rfl
  obtain ⟨out, ho1, ho2⟩ := typeCast_items peerProps (Dict.set (Dict.erase (Dict.erase x ".name") ".type") "interface" (.str s)) d
    (Dict.nodup_set (Dict.nodup_erase (Dict.nodup_erase hxn _) _) _ _) (by
      intro k
      rw [Dict.get?_set', Dict.get?_erase', Dict.get?_erase']
      by_cases e1 : k = "interface"
      · subst e1
        exact .inr ⟨_, _, if_pos rfl, hs, rfl⟩
      rw [if_neg e1]
      by_cases e2 : k = ".type"
      · subst e2
        exact .inl ⟨if_pos rfl, h.options.dotless (by decide) (by decide)⟩
      rw [if_neg e2]
      by_cases e3 : k = ".name"
      · subst e3
        exact .inl ⟨if_pos rfl, h.options.dotless (by decide) (by decide)⟩
      rw [if_neg e3, hget, if_neg (by simp [e2, e3]), hitem k e3 e2 e1]
      cases hv : Dict.get? d k with
      | none => exact .inl ⟨rfl, rfl⟩
      | some v =>
        obtain ⟨r, s1, s2⟩ := survives_spec (h.options.options k v hv (by simpa using e1)).2.2
        exact .inr ⟨r, v, by simp [s1], rfl, s2⟩)
  refine ⟨b, out, hblk, hplain, ?_, ?_, ho2⟩
  · rw [hx]
    unfold skipBlock
    cases x with
    | nil => simp at gname
    | cons p r => rfl
  · show netjsonPeer (blockBack reprC b) = _
    rw [hx]
    unfold netjsonPeer
    rw [popKey_ok gname]
    simp only [bind, Except.bind]
    rw [popKey_ok (v := txt (wgType s.toList)) (by rw [Dict.get?_erase', if_neg (by decide)]; exact gtype)]
    simp only [txt, asText, String.toList_ofList, hrep, String.ofList_toList]
    exact ho1

/-- C45: the list of peers, converted to UCI text and back, is the same list of the same peers. -/
theorem C45_round_trip (reprC : Val → String) (config : VDict) (l : List VDict) (hne : l ≠ [])
    (hk : Dict.get? config "wireguard_peers" = some (.list (l.map .dict))) (h : ∀ d ∈ l, PeerOK d) :
    ∃ rs, viaText reprC peersConv peersBConv config = .ok [("wireguard_peers", .list (rs.map .dict))] ∧ List.Forall₂ SameItems rs l := by
  refine list_section reprC "wireguard_peers" "network" none peerFwd peerBack peerBlock
    (fun _ b => netjsonPeer b) (by decide) ?_ ?_ config l hne hk ?_
  · intro i d r; rfl
  · intro i b r; rfl
  · exact allIdx_of_getElem (fun i d hd => peer_item _ _ d (h d (List.mem_of_getElem? hd)))

/-! ## The hypotheses are met -/

def samplePeers : List VDict :=
  [[("interface", .str "wg0"), ("public_key", .str "94a+MnZSdzHCzOy5y2K+0+Xe7lQzaa4v7lEiBZ7elVE="), ("allowed_ips", .list [.str "10.0.0.0/24"]),
    ("endpoint_host", .str "vpn.example.com"), ("endpoint_port", .int 51820), ("persistent_keepalive", .int 0)],
   [("interface", .str "wg0"), ("public_key", .str "k"), ("allowed_ips", .list [.str "10.0.1.1/32", .str "10.0.2.0/24"]), ("route_allowed_ips", .bool true)]]

example : ∃ rs, viaText sampleEnv.reprC peersConv peersBConv [("wireguard_peers", .list (samplePeers.map .dict))] =
    .ok [("wireguard_peers", .list (rs.map .dict))] ∧ List.Forall₂ SameItems rs samplePeers := by
  refine C45_round_trip _ _ samplePeers (by decide) rfl ?_
  intro d hd
  simp only [samplePeers, List.mem_cons, List.not_mem_nil, or_false] at hd
  rcases hd with rfl | rfl
  · exact ⟨optionsB_sound (by decide +kernel), ⟨_, rfl, by decide +kernel, by decide +kernel, by decide +kernel⟩, by decide⟩
  · exact ⟨optionsB_sound (by decide +kernel), ⟨_, rfl, by decide +kernel, by decide +kernel, by decide +kernel⟩, by decide⟩

example : wgName 1 "wg0".toList ≠ wgName 2 "wg0".toList :=
  C45_names_distinct ["wg0", "wg0"] (by
    intro s t j h0 h1 hj
    simp at h0; subst h0
    have : j = 1 := by
      by_contra hne
      have : 2 ≤ j := by omega
      simp [List.getElem?_eq_none (show ["wg0", "wg0"].length ≤ j from this)] at h1
    subst this
    simp at h1; subst h1
    decide +kernel) 0 1 "wg0" "wg0" rfl rfl (by decide)

end NJ
