import Verif.WholeBack

/-!
# C71: the theorem
-/

namespace NJ

theorem defaultLoop_known (env : Env) (known : List String) (config : VDict) {k : String} (hk : k ∈ known) :
    Dict.get? (defaultLoop env known config).1 k = Dict.get? config k := by
  induction config with
  | nil => rfl
  | cons p r ih =>
    obtain ⟨a, v⟩ := p
    have other : ∀ x : Val, Dict.get? ((a, x) :: (defaultLoop env known r).1) k = if a = k then some x else Dict.get? r k := by
      intro x
      rw [Dict.get?_cons, ih]
    rw [Dict.get?_cons]
    cases v with
    | list l =>
      simp only [defaultLoop]
      by_cases ha : a ∈ known
      · rw [if_pos ha]
        exact other _
      · have hne : a ≠ k := by rintro rfl; exact ha hk
        rw [if_neg ha, if_neg hne]
        cases hd : defaultBlocks env 1 l with
        | mk l' e =>
          cases e with
          | error e =>
            dsimp only
            rw [Dict.get?_cons, if_neg hne]
          | ok bs =>
            dsimp only
            rw [other, if_neg hne]
    | none => simp only [defaultLoop]; exact other _
    | bool _ => simp only [defaultLoop]; exact other _
    | int _ => simp only [defaultLoop]; exact other _
    | str _ => simp only [defaultLoop]; exact other _
    | dict _ => simp only [defaultLoop]; exact other _

theorem dedup_total (config : VDict) (h : ∀ f ∈ filesOf config, ∃ p, filePath f = .ok p) : ∃ c, deduplicateFiles config = .ok c := by
  obtain ⟨ps, hps⟩ : ∃ ps, (filesOf config).mapM filePath = .ok ps := by
    generalize filesOf config = l at h
    induction l with
    | nil => exact ⟨[], rfl⟩
    | cons f l ih =>
      obtain ⟨p, hp⟩ := h f (by simp)
      obtain ⟨ps, hps⟩ := ih (fun f hf => h f (by simp [hf]))
      exact ⟨p :: ps, by rw [List.mapM_cons, hp, hps]; rfl⟩
  unfold deduplicateFiles
  split
  · exact ⟨_, rfl⟩
  · rw [dedupLoop_eq _ _ hps]
    exact ⟨_, rfl⟩

theorem read_nodup {reprC : Val → String} {l : List VDict} (h : ∀ b ∈ l, Dict.get? (blockRead reprC b) ".name" = Dict.get? b ".name")
    (hn : (l.map (fun b => Dict.get? b ".name")).Nodup) : ((l.map (blockRead reprC)).map Val.dict).Nodup := by
  refine nodup_of_map (f := fun v => match v with
    | .dict b => Dict.get? b ".name"
    | _ => none) ?_
  rw [List.map_map, List.map_map]
  have : l.map ((fun v : Val => match v with
      | .dict b => Dict.get? b ".name"
      | _ => none) ∘ Val.dict ∘ blockRead reprC) = l.map (fun b => Dict.get? b ".name") :=
    List.map_congr_left (fun b hb => h b hb)
  simp only [Function.comp_def] at this ⊢
  rw [this]
  exact hn

theorem forall₂_with_mem {α β : Type} {P : α → β → Prop} {as : List α} {bs : List β} (hf : List.Forall₂ P as bs) :
    List.Forall₂ (fun a b => P a b ∧ b ∈ bs) as bs := by
  induction hf with
  | nil => exact .nil
  | cons h1 _ ih => exact .cons ⟨h1, by simp⟩ (ih.imp (fun a b h => ⟨h.1, by simp [h.2]⟩))

theorem iface_ok_name {env : Env} {dsa : Bool} {i : Iface} (h : i.OK env dsa) : Dict.get? i.options "name" = some (.str i.name) := by
  rcases h with h | ⟨_, h⟩
  · exact h.toIfaceOK.nameOk
  · exact h.toIfaceOK.nameOk

theorem plain_named {b : VDict} (h : PlainData b) : Named b := by
  obtain ⟨n, h1, _⟩ := h.name
  exact ⟨n, h1⟩

theorem plain_read_name {reprC : Val → String} {b : VDict} (h : PlainBlock b) : Dict.get? (blockRead reprC b) ".name" = Dict.get? b ".name" := by
  rw [get?_blockRead reprC h, if_pos (.inr rfl)]

theorem Parts.keys_of (p : Parts) {P : Data} (hP : P ∈ p.all) {k : String} (hk : k ∈ Dict.keys P) :
    k ∈ ["system", "network", "wireless", "openvpn"] ∨ k ∈ Dict.keys p.custom := by
  have hpk : ∀ (pkg : String) (bs : List VDict), pkg ∈ ["system", "network", "wireless", "openvpn"] → k ∈ Dict.keys (pkgData pkg bs) →
      k ∈ ["system", "network", "wireless", "openvpn"] := by
    intro pkg bs hpkg h
    unfold pkgData at h
    split at h
    · cases h
    · simp only [Dict.keys, List.map_cons, List.map_nil, List.mem_singleton] at h
      rw [h]; exact hpkg
  unfold Parts.all Parts.early at hP
  simp only [List.mem_append, List.mem_cons, List.not_mem_nil, or_false] at hP
  rcases hP with (rfl | rfl | rfl | rfl | rfl | rfl | rfl | rfl) | rfl | rfl | rfl | rfl | rfl
  · left
    unfold generalData at hk
    rw [Dict.keys, List.map_append] at hk
    rcases List.mem_append.1 hk with hk | hk
    · exact hpk _ _ (by decide) hk
    · exact hpk _ _ (by decide) hk
  all_goals first
    | exact .inl (hpk _ _ (by decide) hk)
    | exact .inr hk
    | cases hk

/-- The rendered text, and what is read from it. -/
theorem whole_text {env : Env} {dsa : Bool} {config : VDict} {s : Sections} (sh : Val → Bool) (cls : Class) (h : WholeOK env dsa config s)
    (hc : NoClash env sh dsa config) (hids : ∃ ids, cls.ids = "name" :: ids) :
    ∃ M : Data, convLoop cls (openwrtConvs env sh dsa) config [] = (⟨(defaultLoop env knownKeys config).1, some (interOf M)⟩, .ok ()) ∧
      ∃ t inter, uciNative env.reprC (interOf M) = .ok t ∧ parseUci t = .ok inter ∧
        ∃ out left, bconvLoop cls inter (openwrtBConvs env dsa) [] inter = ((out, left), .ok ()) ∧ ComesBack env dsa config s out := by
  obtain ⟨sys, glob, g1, g2, a1, a2, a3, a4, a5, a6, a7, a8⟩ := general_part env dsa config s.general h.general.1 h.general.2
  obtain ⟨ntp, ntpOut, b1, b2, b3, b4, b5⟩ := ntp_part env config s.ntp h.ntp.1 h.ntp.2
  obtain ⟨leds, ledOut, c1, c2, c3, c4⟩ := led_part env config s.leds h.leds.1 h.leds.2
  obtain ⟨alls, hlist, hwired, hwifi⟩ := h.interfaces
  obtain ⟨ifs, ifRs, d1, d2', d3, d4⟩ := ifaces_part sh h.dns (skip := isWifi) hlist (by
    intro d hd hw acc
    have hm : d ∈ s.wifi.map Wifi.options := by
      rw [← hwifi]
      exact List.mem_filter.2 ⟨hd, hw⟩
    obtain ⟨x, hx, rfl⟩ := List.mem_map.1 hm
    exact iface_wifi sh env dsa config (h.wifi x hx) acc) hwired h.wired.1 h.wired.2
  have d2 : ∀ b ∈ ifs, (PlainData b ∧ Dict.get? (blockRead env.reprC b) ".name" = Dict.get? b ".name") := fun b hb => (d2' b hb).1
  obtain ⟨rts, rtOut, e1, e2, e3, e4⟩ := routes_part env config s.routes h.routes.1 h.routes.2
  obtain ⟨rls, rlOut, f1, f2, f3, f4⟩ := rules_part env config s.rules h.rules.1 h.rules.2
  obtain ⟨sws, swOut, i1, i2, i3, i4⟩ := switch_part env config s.switches h.switches.2.1 h.switches.2.2 h.switches.1
  obtain ⟨rds, rdOut, j1, j2, j3, j4⟩ := radios_part env dsa config s.radios h.radios.1 h.radios.2
  obtain ⟨vps, vpOut, v1, v2, v3, v4⟩ := vpns_part env config s.vpns h.vpns.1 h.vpns.2
  obtain ⟨prs, prOut, k1, k2, k3, k4⟩ := peers_part env config s.peers h.peers.1 h.peers.2
  obtain ⟨L, l1, l2, l3', l4⟩ := default_part env knownKeys config h.nodup h.custom
  have l3 : ∀ q ∈ L, PackageBack env config knownKeys q.1 q.2 ∧ q.1 ∉ ["system", "network", "wireless", "openvpn"] := by
    intro q hq
    obtain ⟨h1, h2⟩ := l3' q hq
    refine ⟨h1, fun hm => ?_⟩
    simp only [List.mem_cons, List.not_mem_nil, or_false, not_or] at hm h2
    rcases hm with e | e | e | e
    · exact h2.1 e
    · exact h2.2.1 e
    · exact h2.2.2 e
    · exact h1.unknown (by rw [e]; decide)
  -- the wireless interfaces
  have hpd : ∀ b, PlainBlock b → PlainData b ∧ Dict.get? (blockRead env.reprC b) ".name" = Dict.get? b ".name" :=
    fun b hb => ⟨hb.data, plain_read_name hb⟩
  have hnet0 : ∀ b ∈ (glob.toList ++ (ifs ++ (rts ++ (rls ++ sws)))) ++ prs,
      PlainData b ∧ Dict.get? (blockRead env.reprC b) ".name" = Dict.get? b ".name" := by
    intro b hb
    simp only [List.mem_append] at hb
    rcases hb with (hb | hb | hb | hb | hb) | hb
    · exact hpd b (a3 b hb)
    · exact d2 b hb
    · exact hpd b (e2 b hb).1
    · exact hpd b (f2 b hb).1
    · exact hpd b (i2 b hb).1
    · exact hpd b (k2 b hb).1
  obtain ⟨mF, mB, ps, u1, u2, u3, u4⟩ := wifi_part h.wired.1 h.wifi h.wifiNetworks (glob.toList ++ (ifs ++ (rts ++ (rls ++ sws)))) prs (by
      intro b hb
      obtain ⟨q1, q2⟩ := hnet0 b hb
      obtain ⟨n, hn⟩ := plain_named q1
      exact ⟨⟨n, hn⟩, n, by rw [q2, hn]⟩) (by
      refine h.bridges.imp_right (fun hb => ?_)
      have hno : ∀ {c : Conv} {P : Data} {b : VDict}, NoBridges c config → Makes c config [] P → b ∈ blocksIn P "network" → PlainBlock b →
          NoBridge env.reprC b := fun hc hm hb hp => ⟨noBridges_makes hc hm hb, other_read hp (noBridges_makes hc hm hb)⟩
      refine ⟨fun b hx => ?_, fun b hx => ?_⟩
      · simp only [List.mem_append] at hx
        rcases hx with hx | hx | hx | hx | hx
        · exact .inl (hno (hb _ (by simp)) (a1 []) (by rw [blocksIn_generalData]; simpa using hx) (a3 b hx))
        · exact .inr (d2' b hx).2
        · exact .inl (hno (hb (routesConv env) (by simp)) (e1 []) (by rw [blocksIn_pkgData, if_pos rfl]; exact hx) (e2 b hx).1)
        · exact .inl (hno (hb (rulesConv env) (by simp)) (f1 []) (by rw [blocksIn_pkgData, if_pos rfl]; exact hx) (f2 b hx).1)
        · exact .inl (hno (hb (switchConv env) (by simp)) (i1 []) (by rw [blocksIn_pkgData, if_pos rfl]; exact hx) (i2 b hx).1)
      · exact hno (hb peersConv (by simp)) (k1 []) (by rw [blocksIn_pkgData, if_pos rfl]; exact hx) (k2 b hx).1)
  obtain ⟨ps0, u0⟩ := wifis_made env goodBridges_nil s.wifi h.wifi (fun x _ => .inr rfl)
  let p : Parts := ⟨sys, glob, ntp, leds, ifs, rts, rls, sws, rds, ps.map Prod.fst, vps, prs, L⟩
  have hwf : ∀ b ∈ ps.map Prod.fst, PlainBlock b ∧ skipBlock (some ["wifi-iface"]) (blockRead env.reprC b) = false := by
    intro b hb
    obtain ⟨q, hq, rfl⟩ := List.mem_map.1 hb
    obtain ⟨x, _, hx⟩ := forall₂_mem u3.flip hq
    refine ⟨hx.plain, ?_⟩
    have ht : Dict.get? (blockRead env.reprC q.1) ".type" = some (.str "wifi-iface") := by
      rw [get?_blockRead env.reprC hx.plain, if_pos (.inl rfl), hx.type]
    unfold skipBlock
    rw [ht]
    cases he : blockRead env.reprC q.1 with
    | nil => rw [he] at ht; cases ht
    | cons _ _ => rfl
  have hLk : ∀ k ∈ Dict.keys p.custom, k ∉ ["system", "network", "wireless", "openvpn"] := by
    intro k hk
    obtain ⟨q, hq, rfl⟩ := List.mem_map.1 hk
    exact (l3 q hq).2
  have hplain : ∀ k, ∀ b ∈ p.blocks k, PlainData b ∧ Dict.get? (blockRead env.reprC b) ".name" = Dict.get? b ".name" := by
    have hpb : ∀ b, PlainBlock b → PlainData b ∧ Dict.get? (blockRead env.reprC b) ".name" = Dict.get? b ".name" :=
      fun b hb => ⟨hb.data, plain_read_name hb⟩
    intro k b hb
    unfold Parts.blocks at hb
    split at hb
    · rcases List.mem_append.1 hb with hb | hb
      · exact hpb b (a2 b hb).1
      · rcases List.mem_append.1 hb with hb | hb
        · exact hpb b (b2 b hb).1
        · exact hpb b (c2 b hb).1
    · split at hb
      · rcases List.mem_append.1 hb with hb | hb
        · exact hpb b (a3 b hb)
        · rcases List.mem_append.1 hb with hb | hb
          · exact d2 b hb
          · rcases List.mem_append.1 hb with hb | hb
            · exact hpb b (e2 b hb).1
            · rcases List.mem_append.1 hb with hb | hb
              · exact hpb b (f2 b hb).1
              · rcases List.mem_append.1 hb with hb | hb
                · exact hpb b (i2 b hb).1
                · exact hpb b (k2 b hb).1
      · split at hb
        · rcases List.mem_append.1 hb with hb | hb
          · exact hpb b (j2 b hb).1
          · exact hpb b (hwf b hb).1
        · split at hb
          · exact hpb b (v2 b hb)
          · unfold blocksIn at hb
            cases hg : Dict.get? p.custom k with
            | none => rw [hg] at hb; cases hb
            | some v =>
              rw [hg] at hb
              exact hpb b ((l3 (k, v) (Dict.mem_of_get? hg)).1.plain b hb)
  obtain ⟨hfwd, hnames⟩ := whole_forward (sh := sh) cls p (wifi0 := ps0.map Prod.fst)
    (wifis_makes env dsa hlist hwifi h.wifi (by
      rw [trackBridges_blocks, blocksIn_all _ _ (by
        intro P hP
        exact p.all_nodup l2 P (List.mem_append_left _ hP))]
      have : allIn [] p.early "network" = glob.toList ++ (ifs ++ (rts ++ (rls ++ sws))) := by
        have hnil : ∀ k, blocksIn ([] : Data) k = [] := fun _ => rfl
        unfold allIn Parts.early
        simp [blocksIn_pkgData, blocksIn_generalData, hnil, p]
      rw [this]
      exact u1) u3) (wifis_makes env dsa hlist hwifi h.wifi rfl u0) (wifis_names u0 u3) v1 h.noZt a1 b1 c1 d1 e1 f1 i1 j1 k1 l1 l2 hLk (fun k b hb => plain_named (hplain k b hb).1) hc
  have hMn : (Dict.keys (p.all.foldl joinData [])).Nodup := nodup_all [] p.all (by simp [Dict.keys])
  have hMb : ∀ k, blocksIn (p.all.foldl joinData []) k = p.blocks k := by
    intro k
    rw [blocksIn_all _ _ (p.all_nodup l2), p.blocks_eq hLk]
  generalize hMdef : p.all.foldl joinData [] = M at hfwd hMn hMb
  refine ⟨M, hfwd, ?_⟩
  have hin : ∀ q ∈ M, q.2 = p.blocks q.1 := by
    intro q hq
    rw [← hMb, blocksIn, Dict.get?_of_mem hMn hq]; rfl
  have hword : ∀ q ∈ M, IsWord q.1.toList := by
    intro q hq
    have hk := (keys_all [] p.all q.1).1 (by rw [hMdef]; exact List.mem_map_of_mem (f := Prod.fst) hq)
    rcases hk with hk | ⟨P, hP, hk⟩
    · cases hk
    · rcases p.keys_of hP hk with hk | hk
      · simp only [List.mem_cons, List.not_mem_nil, or_false] at hk
        rcases hk with hk | hk | hk | hk <;> rw [hk] <;> decide +kernel
      · obtain ⟨x, hx, e⟩ := List.mem_map.1 hk
        rw [← e]
        exact (l3 x hx).1.word
  obtain ⟨t, t1, t2⟩ := text_read env.reprC M hMn hword (by
    intro q hq b hb
    rw [hin q hq] at hb
    exact (hplain _ b hb).1)
  refine ⟨t, _, t1, t2, ?_⟩
  have hkeys : Dict.keys (M.map (fun q => (q.1, q.2.map (blockRead env.reprC)))) = Dict.keys M := by simp [Dict.keys, Function.comp_def]
  have hblocks : ∀ k, blocksIn (M.map (fun q => (q.1, q.2.map (blockRead env.reprC)))) k = (p.blocks k).map (blockRead env.reprC) := by
    intro k
    rw [← hMb]
    clear * -
    induction M with
    | nil => rfl
    | cons q r ih =>
      rw [List.map_cons, blocksIn_cons, blocksIn_cons, ih]
      split <;> rfl
  have hnet : ((glob.toList.map (blockRead env.reprC) ++ ifs.map (blockRead env.reprC)).map Val.dict).Nodup := by
    rw [← List.map_append]
    have hsub : List.Sublist (glob.toList ++ ifs) (p.blocks "network") := by
      show List.Sublist _ (glob.toList ++ (ifs ++ (rts ++ (rls ++ (sws ++ prs)))))
      rw [← List.append_assoc]
      exact List.sublist_append_left _ _
    refine read_nodup (fun b hb => (hplain "network" b (hsub.subset hb)).2) ?_
    exact (hnames "network").sublist (hsub.map _)
  obtain ⟨ifOut, o1, o2, o3⟩ := d3 (glob.toList.map (blockRead env.reprC)) g2 a5 hnet
  have hback : PartsBack env dsa config p g1 g2 ntpOut ledOut rtOut rlOut swOut rdOut vpOut prOut ifOut :=
    { sys := a4, ntp := b3, leds := c3, ifaces := o1, routes := e3, rules := f3, switches := i3, radios := j3, vpns := v3, peers := k3
      tNtp := fun b hb => (b2 b hb).2
      tLeds := fun b hb => (c2 b hb).2
      tRoutes := fun b hb => (e2 b hb).2
      tRules := fun b hb => (f2 b hb).2
      tSwitches := fun b hb => (i2 b hb).2
      tWifi := fun b hb => (hwf b hb).2
      tPeers := fun b hb => (k2 b hb).2
      ifNodup := o2
      ifKeys := by
        intro k hk
        rw [o3] at hk
        by_cases x1 : k = "general"
        · simp [x1]
        by_cases x2 : k = "interfaces"
        · simp [x2]
        by_cases x3 : k = "dns_servers"
        · simp [x3]
        by_cases x4 : k = "dns_search"
        · simp [x4]
        simp only [x1, x2, x3, x4, if_false, ne_eq, not_true_eq_false] at hk
      ifGeneral := by rw [o3, if_pos rfl]
      g2Nodup := a6
      apart := by
        intro k hk
        rw [a7] at hk
        rw [a8]
        split
        · rfl
        · unfold ulaItem at hk
          by_cases hu : Dict.has s.general "ula_prefix" = true ∧ (k = "ula_prefix" ∨ k = "globals_id")
          · have hh : k ≠ "hostname" := by rcases hu.2 with e | e <;> rw [e] <;> decide
            rw [get?_withHostname, if_neg hh, get?_baseSettings, if_pos hu]
          · rw [if_neg hu] at hk
            exact absurd rfl hk
      custom := l3
      customNodup := l2 }
  have hifs : Dict.get? ifOut "interfaces" = listItem (ifRs.map .dict) := by rw [o3]; rfl
  have hn1 : ifRs.map (fun b => Dict.get? b "name") = s.interfaces.map (fun i => some (Val.str i.name)) := by
    refine forall₂_map_eq (fun r i hr => ?_) (forall₂_with_mem d4)
    rw [hr.1.options _ (by decide) (by decide)]
    exact iface_ok_name (h.wired.1 i hr.2)
  have hn2 : (ps.map Prod.snd).map (fun b => Dict.get? b "name") = s.wifi.map (fun i => some (Val.str i.name)) := by
    rw [List.map_map]
    refine forall₂_map_eq (fun q x hq => ?_) (forall₂_with_mem u4.flip)
    show Dict.get? q.2 "name" = _
    rw [hq.1.same.1 _ (by decide), if_neg (by decide), if_pos (by decide)]
    exact (h.wifi x hq.2).hname
  have hnn : ((ifRs ++ ps.map Prod.snd).map (fun b => Dict.get? b "name")) =
      (s.interfaces.map Iface.name ++ s.wifi.map Wifi.name).map (fun n => some (Val.str n)) := by
    rw [List.map_append, hn1, hn2, List.map_append, List.map_map, List.map_map]; rfl
  obtain ⟨ids, hids⟩ := hids
  obtain ⟨out, g, left, w1, w2, w3, w4, w5⟩ := whole_back cls hback _ (by rw [hkeys]; exact hMn) hblocks (ps.map Prod.snd)
    (listItem ((ifRs ++ ps.map Prod.snd).map .dict)) (by
      intro e
      have : ps = [] := List.map_eq_nil_iff.1 e
      rw [this]; rfl) (by
      intro c inter hci hi
      refine wifis_run env dsa u4 ?_ ?_ hi
      · rw [trackBridges_blocks, hblocks]
        have : p.blocks "network" = glob.toList ++ (ifs ++ (rts ++ (rls ++ sws))) ++ prs := by
          show glob.toList ++ (ifs ++ (rts ++ (rls ++ (sws ++ prs)))) = _
          simp
        rw [this]
        exact u2
      · intro x hx
        have : interfacesOf c = ifRs.map .dict := by
          unfold interfacesOf
          rw [hci, hifs]
          unfold listItem
          by_cases e : ifRs.map Val.dict = []
          · rw [if_pos e, e]
          · rw [if_neg e]
        rw [this]
        refine findInterface_none (fun r hr e => ?_)
        have hr' : Dict.get? r "name" ∈ s.interfaces.map (fun i => some (Val.str i.name)) := by
          rw [← hn1]
          exact List.mem_map_of_mem (f := fun b => Dict.get? b "name") hr
        obtain ⟨i, hi, e'⟩ := List.mem_map.1 hr'
        rw [e] at e'
        injection e' with e'
        injection e' with e'
        exact (List.nodup_append.1 h.wifiNames).2.2 i.name (List.mem_map_of_mem hi) x.name (List.mem_map_of_mem hx) e') (by
      intro c hci
      rw [hids]
      refine merge_wifi (fun b hb => ?_) ?_ c (hci.trans hifs)
      · have hb' : Dict.get? b "name" ∈ (s.interfaces.map Iface.name ++ s.wifi.map Wifi.name).map (fun n => some (Val.str n)) := by
          rw [← hnn]
          exact List.mem_map_of_mem (f := fun b => Dict.get? b "name") hb
        obtain ⟨n, _, e⟩ := List.mem_map.1 hb'
        exact ⟨n, e.symm⟩
      · rw [hnn]
        exact h.wifiNames.map (fun a b e => by injection e with e; injection e))
  refine ⟨out, left, w1, ?_⟩
  have hr : ∀ k, k ∈ knownKeys → Dict.get? out k = returned g ntpOut ledOut rtOut rlOut swOut rdOut vpOut prOut
    (listItem ((ifRs ++ ps.map Prod.snd).map .dict)) ifOut k := w3
  refine ⟨⟨g, hr _ (by decide), fun k => ?_⟩, ⟨ntpOut, hr _ (by decide), b4⟩, ⟨ledOut, hr _ (by decide), c4⟩, ⟨ifRs, ps.map Prod.snd, hr _ (by decide), d4, ?_⟩, ?_, ?_,
    ⟨rtOut, hr _ (by decide), e4⟩, ⟨rlOut, hr _ (by decide), f4⟩, ⟨swOut, hr _ (by decide), i4⟩, ⟨rdOut, hr _ (by decide), j4⟩,
    ⟨prOut, hr _ (by decide), k4⟩, ⟨vpOut, hr _ (by decide), v4⟩, ?_, ?_⟩
  · rw [w2, a7, a8, generalReturned_items]
  · rw [List.forall₂_map_left_iff]
    exact u4.flip.imp (fun q x hq => hq.same)
  · rw [hr _ (by decide)]
    show Dict.get? ifOut "dns_servers" = _
    rw [o3]; rfl
  · rw [hr _ (by decide)]
    show Dict.get? ifOut "dns_search" = _
    rw [o3]; rfl
  · intro k l hk hl hkl
    have hmem : k ∈ Dict.keys L := by
      rw [l4]
      cases l with
      | nil => exact absurd rfl hl
      | cons x xs => exact ⟨hk, _, _, hkl⟩
    obtain ⟨rs, l', q1, q2, q3⟩ := w5 k hmem
    rw [hkl] at q2
    injection q2 with q2
    injection q2 with q2
    have : l = l' := List.map_injective_iff.2 (fun a b e => by injection e) q2
    rw [this]
    exact ⟨rs, q1, q3⟩
  · rintro k (hk | ⟨hk, hno⟩)
    · simp only [List.mem_cons, List.not_mem_nil, or_false] at hk
      rcases hk with rfl | rfl
      all_goals
        rw [hr _ (by decide)]
        show Dict.get? ifOut _ = _
        rw [o3]; rfl
    · refine w4 k hk (fun hm => ?_)
      obtain ⟨_, x, xs, e⟩ := (l4 k).1 hm
      exact hno x xs e

/-- C71: a configuration whose sections survive, and whose blocks have different names, is rendered; reading the text gives the configuration back, but
for its validation. (The files are not part of the text, or there are none.) -/
theorem C71_round_trip (env : Env) (schema : VDict → Except PyErr Unit) (sh : Val → Bool) (loads : Chars → Option Val) (dsa : Bool)
    (config : VDict) (s : Sections) (h : WholeOK env dsa config s) (hc : NoClash env sh dsa config)
    (hv : validate (openwrtClass env schema sh loads dsa) config = .ok ()) (files : Bool) (hf : files = false ∨ filesOf config = []) :
    ∃ st text, render (openwrtClass env schema sh loads dsa) files ⟨config, none⟩ = (st, .ok text) ∧
      ∃ out inter, ComesBack env dsa config s out ∧
        construct (openwrtClass env schema sh loads dsa) none (some text) .falsy none =
          (do validate (openwrtClass env schema sh loads dsa) out; pure ⟨out, some inter⟩) := by
  obtain ⟨M, h1, t, inter, h2, h3, out, left, h4, h5⟩ := whole_text sh (openwrtClass env schema sh loads dsa) h hc ⟨_, rfl⟩
  have hfiles : filesOf (defaultLoop env knownKeys config).1 = filesOf config := by
    unfold filesOf
    rw [defaultLoop_known env knownKeys config (by decide)]
  obtain ⟨c', hd⟩ := dedup_total (defaultLoop env knownKeys config).1 (by
    rw [hfiles]
    intro f hf
    have hv' : validateFilePaths config = .ok () := by
      obtain ⟨_, _, hv⟩ := bind_ok_iff.1 hv
      obtain ⟨_, _, hv⟩ := bind_ok_iff.1 hv
      obtain ⟨_, hv, _⟩ := bind_ok_iff.1 hv
      exact hv
    obtain ⟨p, hp, _⟩ := validateFilePaths_ok.1 hv' f hf
    exact ⟨p, hp⟩)
  have hi : toIntermediate (openwrtClass env schema sh loads dsa) ⟨config, none⟩ =
      (⟨(defaultLoop env knownKeys config).1, some (interOf M)⟩, .ok ()) := by
    unfold toIntermediate
    rw [hv]
    exact h1
  refine ⟨⟨c', some (interOf M)⟩, t, ?_, out, inter, h5, ?_⟩
  · unfold render
    simp only [hv, ensureIntermediate, hi, renderTail, hd, Option.getD_some]
    have hn : (openwrtClass env schema sh loads dsa).native (interOf M) = .ok t := h2
    rw [hn]
    rcases hf with rfl | hf
    · rfl
    · have hf' : filesOf c' = [] := by
        have hd' := hd
        unfold deduplicateFiles at hd'
        rw [hfiles, hf] at hd'
        have := Except.ok.inj hd'
        rw [← this, hfiles, hf]
      cases files with
      | false => rfl
      | true =>
        simp only [filesSection, renderFiles, hf', bind, Except.bind, if_true, List.mapM_nil, pure, Except.pure, renderFileItems]
        have : replaceAll ['\n', '\n', '\n'] ['\n', '\n'] [] = [] := by rfl
        rw [this, List.append_nil]
  · show parse (openwrtClass env schema sh loads dsa) t = _
    unfold parse
    show (do
      let i ← parseUci t
      match toNetjson (openwrtClass env schema sh loads dsa) i with
      | (_, .error e) => .error e
      | (st, .ok ()) => pure st) = _
    rw [h3]
    simp only [bind, Except.bind]
    have : toNetjson (openwrtClass env schema sh loads dsa) inter = (⟨out, some inter⟩, validate (openwrtClass env schema sh loads dsa) out) := by
      unfold toNetjson
      show (match bconvLoop (openwrtClass env schema sh loads dsa) inter (openwrtBConvs env dsa) [] inter with
        | ((config, inter'), .error e) => (BState.mk config (some inter'), Except.error e)
        | ((config, _), .ok ()) => (⟨config, some inter⟩, validate (openwrtClass env schema sh loads dsa) config)) = _
      rw [h4]
    rw [this]
    cases validate (openwrtClass env schema sh loads dsa) out with
    | error e => rfl
    | ok u => cases u; rfl

end NJ
