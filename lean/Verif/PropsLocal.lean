import Verif.PropsNames
import Verif.SameAll

/-!
# C85: each file of an OpenWrt archive depends on few sections
-/

namespace NJ

set_option linter.unusedVariables false

/-! ## Specification -/

/-- the sections behind the package `network` -/
def networkSections : List String := ["general", "interfaces", "dns_servers", "dns_search", "routes", "ip_rules", "switch", "wireguard_peers", "network"]

/-- the sections of the configuration a package depends on -/
def sectionsOf (package : String) : List String :=
  if package = "system" then ["general", "ntp", "led", "system"]
  else if package = "network" then networkSections
  else if package = "wireless" then ["radios", "wireless"] ++ networkSections
  else [package]

/-- the same values under some keys -/
def AgreeOn (S : List String) (c c' : VDict) : Prop := ∀ k ∈ S, Dict.get? c k = Dict.get? c' k

/-- the file of a package -/
def packageFile (package : String) : Chars := "etc/config/".toList ++ package.toList

/-- the same text, in bytes, with or without a line break at the end -/
def SameButEnd (m m' : Member) : Prop :=
  m.mode = m'.mode ∧ ∃ t t0 t' : Chars, (t = t0 ∨ t = t0 ++ ['\n']) ∧ (t' = t0 ∨ t' = t0 ++ ['\n']) ∧ m.data = (utf8 t).take t.length ∧ m'.data = (utf8 t').take t'.length

/-! ## Proofs -/

/-- what a converter reads and writes -/
structure ReadsOnly (conv : Conv) (R Ri W : List String) : Prop where
  should : ∀ {c c' : VDict}, AgreeOn R c c' → conv.should c = conv.should c'
  result : ∀ {c c' i i' v v' : VDict}, AgreeOn R c c' → AgreeOn Ri i i' → (conv.run c i).2 = .ok v → (conv.run c' i').2 = .ok v' → v = v'
  writes : ∀ {c i v : VDict}, (conv.run c i).2 = .ok v → KeysIn (· ∈ W) v
  config : ∀ (c i : VDict), (∀ k, k ≠ "files" → Dict.get? (conv.run c i).1 k = Dict.get? c k) ∧ ((Dict.keys c).Nodup → (Dict.keys (conv.run c i).1).Nodup)

theorem agree_has {S : List String} {c c' : VDict} (h : AgreeOn S c c') {k : String} (hk : k ∈ S) : Dict.has c k = Dict.has c' k := by
  rw [Dict.has_eq, Dict.has_eq, h k hk]

theorem agree_fwd {S : List String} {c c' : VDict} (h : AgreeOn S c c') {k : String} (hk : k ∈ S) (loop : Option Nat → Val → VDict → Except PyErr VDict) :
    fwd k loop c = fwd k loop c' := by
  unfold fwd
  rw [h k hk]

theorem reads_pure {key : String} {run : VDict → VDict → Except PyErr VDict} {R Ri W : List String} (hk : key ∈ R)
    (hr : ∀ c c' i i', AgreeOn R c c' → AgreeOn Ri i i' → run c i = run c' i') (hw : ∀ c i v, run c i = .ok v → KeysIn (· ∈ W) v) :
    ReadsOnly (pureConv key run) R Ri W where
  should h := agree_has h hk
  result {c c' i i' v v'} h hi h1 h2 := by
    have h1 : run c i = .ok v := h1
    have h2 : run c' i' = .ok v' := h2
    rw [hr c c' i i' h hi, h2] at h1
    exact (Except.ok.inj h1).symm
  writes h := hw _ _ _ h
  config c i := ⟨fun _ _ => rfl, id⟩

theorem reads_fwd {key : String} {loop : Option Nat → Val → VDict → Except PyErr VDict} {W : List String}
    (hw : ∀ i v r r', KeysIn (· ∈ W) r → loop i v r = .ok r' → KeysIn (· ∈ W) r') : ReadsOnly (pureConv key fun config _ => fwd key loop config) [key] [] W :=
  reads_pure List.mem_cons_self (fun _ _ _ _ h _ => agree_fwd h List.mem_cons_self loop) fun _ _ _ h => keysIn_fwd hw h

theorem agree_addSections {sh : Val → Bool} {c c' : VDict} (h : AgreeOn ["interfaces", "dns_servers", "dns_search"] c c') {isdsa : Bool} {uci : Chars} {i : VDict} (n : Nat)
    (r : VDict) (as : List VDict) : addSections sh c isdsa uci i n r as = addSections sh c' isdsa uci i n r as := by
  have hs : ∀ d n a, ifaceSection c isdsa uci d n a = ifaceSection c' isdsa uci d n a := by
    intro d n a
    have j1 : joinedOf c "dns_servers" = joinedOf c' "dns_servers" := by unfold joinedOf; rw [h "dns_servers" (by decide)]
    have j2 : joinedOf c "dns_search" = joinedOf c' "dns_search" := by unfold joinedOf; rw [h "dns_search" (by decide)]
    unfold ifaceSection dnsValue
    rw [j1, j2]
  induction as generalizing n r with
  | nil => rfl
  | cons a as ih =>
    rw [addSections, addSections, hs]
    simp only [ih]

theorem agree_ifaces {sh : Val → Bool} {env : Env} {dsa : Bool} {c c' : VDict} (h : AgreeOn ["interfaces", "dns_servers", "dns_search"] c c') :
    ifacesRun sh env dsa c = ifacesRun sh env dsa c' := by
  have hf : ifaceFwd sh env dsa c = ifaceFwd sh env dsa c' := by
    funext acc v
    unfold ifaceFwd
    simp only [agree_addSections h]
  unfold ifacesRun
  rw [hf, h "interfaces" (by decide)]

theorem reads_wireless {env : Env} {dsa : Bool} : ReadsOnly (wirelessConv env dsa) ["interfaces"] ["network"] ["wireless"] := by
  refine reads_pure List.mem_cons_self (fun c c' i i' h hi => ?_) fun c i v h => ?_
  · unfold wirelessRun trackBridges
    rw [hi "network" List.mem_cons_self]
    simp only [agree_fwd h List.mem_cons_self]
  · unfold wirelessRun at h
    obtain ⟨m, _, h⟩ := bind_ok_iff.1 h
    exact keysIn_fwd (fun _ _ _ _ hr h => wirelessFwd_names List.mem_cons_self hr h) h

theorem set_files {c : VDict} (v : Val) : (∀ k, k ≠ "files" → Dict.get? (Dict.set c "files" v) k = Dict.get? c k) ∧
    ((Dict.keys c).Nodup → (Dict.keys (Dict.set c "files" v)).Nodup) :=
  ⟨fun k hk => by rw [Dict.get?_set, if_neg (Ne.symm hk)], fun h => Dict.nodup_set h _ _⟩

theorem addVpnFile_rest {c : VDict} (f : Option VDict) : (∀ k, k ≠ "files" → Dict.get? (addVpnFile c f) k = Dict.get? c k) ∧
    ((Dict.keys c).Nodup → (Dict.keys (addVpnFile c f)).Nodup) := by
  cases f with
  | none => exact ⟨fun _ _ => rfl, id⟩
  | some d =>
    unfold addVpnFile appendTo
    dsimp only
    split <;> exact set_files _

theorem vpnBlocks_local (conv1 : VDict → Except PyErr (VDict × Option VDict)) (l : List Val) : ∀ c c' : VDict,
    (vpnBlocks conv1 c l).2 = (vpnBlocks conv1 c' l).2 ∧ (∀ k, k ≠ "files" → Dict.get? (vpnBlocks conv1 c l).1 k = Dict.get? c k) ∧
      ((Dict.keys c).Nodup → (Dict.keys (vpnBlocks conv1 c l).1).Nodup) := by
  induction l with
  | nil => exact fun c c' => ⟨rfl, fun _ _ => rfl, id⟩
  | cons v l ih =>
    intro c c'
    rw [vpnBlocks, vpnBlocks]
    generalize asDict v >>= conv1 = x
    cases x with
    | error e => exact ⟨rfl, fun _ _ => rfl, id⟩
    | ok y =>
      obtain ⟨b, f⟩ := y
      obtain ⟨h1, h2, h3⟩ := ih (addVpnFile c f) (addVpnFile c' f)
      dsimp only
      rw [h1]
      exact ⟨rfl, fun k hk => (h2 k hk).trans ((addVpnFile_rest f).1 k hk), fun h => h3 ((addVpnFile_rest f).2 h)⟩

theorem reads_vpn {env : Env} : ReadsOnly (uciVpnConv env) ["openvpn"] [] ["openvpn"] where
  should h := agree_has h List.mem_cons_self
  result {c c' i i' v v'} h hi h1 h2 := by
    have h1 : (vpnRun (uciVpnBlock env) c i).2 = .ok v := h1
    have h2 : (vpnRun (uciVpnBlock env) c' i').2 = .ok v' := h2
    unfold vpnRun at h1 h2
    rw [← h "openvpn" List.mem_cons_self] at h2
    generalize (Dict.get? c "openvpn").getD .none = x at h1 h2
    cases x with
    | list l =>
      dsimp only at h1 h2
      rw [(vpnBlocks_local (uciVpnBlock env) l c c').1, h2] at h1
      exact (Except.ok.inj h1).symm
    | _ => cases h1
  writes {c i v} h := by
    have h : (vpnRun (uciVpnBlock env) c i).2 = .ok v := h
    unfold vpnRun at h
    split at h
    · obtain ⟨bs, _, h⟩ := bind_ok_iff.1 h
      cases h
      split
      · exact keysIn_nil
      · intro p hp; rw [List.mem_singleton.1 hp]; exact List.mem_cons_self
    · cases h
  config c i := by
    show (∀ k, k ≠ "files" → Dict.get? (vpnRun (uciVpnBlock env) c i).1 k = Dict.get? c k) ∧ ((Dict.keys c).Nodup → (Dict.keys (vpnRun (uciVpnBlock env) c i).1).Nodup)
    unfold vpnRun
    split
    · exact (vpnBlocks_local _ _ c c).2
    · exact ⟨fun _ _ => rfl, id⟩

theorem ztConfig_rest {env : Env} {c c1 d : VDict} (h : ztConfig env c d = .ok c1) : (∀ k, k ≠ "files" → Dict.get? c1 k = Dict.get? c k) ∧
    ((Dict.keys c).Nodup → (Dict.keys c1).Nodup) := by
  unfold ztConfig at h
  obtain ⟨_, _, h⟩ := bind_ok_iff.1 h
  obtain ⟨_, _, h⟩ := bind_ok_iff.1 h
  cases h
  exact set_files _

theorem ztAll_rest {env : Env} (l : List Val) : ∀ c : VDict, (∀ k, k ≠ "files" → Dict.get? (ztAll env c l).1 k = Dict.get? c k) ∧
    ((Dict.keys c).Nodup → (Dict.keys (ztAll env c l).1).Nodup) := by
  induction l with
  | nil => exact fun c => ⟨fun _ _ => rfl, id⟩
  | cons v l ih =>
    intro c
    rw [ztAll]
    split
    · exact ⟨fun _ _ => rfl, id⟩
    split
    · exact ⟨fun _ _ => rfl, id⟩
    rename_i c1 hc
    obtain ⟨h1, h2⟩ := ztConfig_rest hc
    split
    · exact ⟨h1, h2⟩
    · exact ⟨fun k hk => ((ih c1).1 k hk).trans (h1 k hk), fun h => (ih c1).2 (h2 h)⟩

theorem ztAll_blocks {env : Env} (l : List Val) : ∀ {c c' : VDict} {bs bs' : List Val}, (ztAll env c l).2 = .ok bs → (ztAll env c' l).2 = .ok bs' → bs = bs' := by
  induction l with
  | nil => intro c c' bs bs' h1 h2; cases h1; cases h2; rfl
  | cons v l ih =>
    intro c c' bs bs' h1 h2
    rw [ztAll] at h1 h2
    cases hv : asDict v with
    | error e => rw [hv] at h1; cases h1
    | ok d =>
      rw [hv] at h1 h2
      dsimp only at h1 h2
      cases e1 : ztConfig env c d with
      | error e => rw [e1] at h1; cases h1
      | ok c1 =>
        cases e2 : ztConfig env c' d with
        | error e => rw [e2] at h2; cases h2
        | ok c2 =>
          rw [e1] at h1
          rw [e2] at h2
          cases e3 : ztBlocks d with
          | error e => rw [e3] at h1; cases h1
          | ok b =>
            rw [e3] at h1 h2
            obtain ⟨m, f1, h1⟩ := bind_ok_iff.1 h1
            obtain ⟨m', f2, h2⟩ := bind_ok_iff.1 h2
            cases h1
            cases h2
            rw [ih f1 f2]

theorem reads_zt {env : Env} : ReadsOnly (ztConv env) ["zerotier"] [] ["zerotier"] where
  should h := agree_has h List.mem_cons_self
  result {c c' i i' v v'} h hi h1 h2 := by
    have h1 : (ztRun env c i).2 = .ok v := h1
    have h2 : (ztRun env c' i').2 = .ok v' := h2
    unfold ztRun at h1 h2
    rw [← h "zerotier" List.mem_cons_self] at h2
    generalize (Dict.get? c "zerotier").getD .none = x at h1 h2
    cases x with
    | list l =>
      dsimp only at h1 h2
      obtain ⟨m, f1, h1⟩ := bind_ok_iff.1 h1
      obtain ⟨m', f2, h2⟩ := bind_ok_iff.1 h2
      cases h1
      cases h2
      rw [ztAll_blocks l f1 f2]
    | _ => cases h1
  writes {c i v} h := by
    have h : (ztRun env c i).2 = .ok v := h
    unfold ztRun at h
    split at h
    · obtain ⟨bs, _, h⟩ := bind_ok_iff.1 h
      cases h
      split
      · exact keysIn_nil
      · intro p hp; rw [List.mem_singleton.1 hp]; exact List.mem_cons_self
    · cases h
  config c i := by
    show (∀ k, k ≠ "files" → Dict.get? (ztRun env c i).1 k = Dict.get? c k) ∧ ((Dict.keys c).Nodup → (Dict.keys (ztRun env c i).1).Nodup)
    unfold ztRun
    split
    · exact ztAll_rest _ c
    · exact ⟨fun _ _ => rfl, id⟩

/-- what each converter of NetJSON sections reads and writes -/
def readers (env : Env) (sh : Val → Bool) (dsa : Bool) : List (Conv × List String × List String × List String) :=
  [(generalConv env, ["general"], [], ["system", "network"]), (ntpConv, ["ntp"], [], ["system"]), (ledConv env, ["led"], [], ["system"]),
    (ifacesConv sh env dsa, ["interfaces", "dns_servers", "dns_search"], [], ["network"]), (routesConv env, ["routes"], [], ["network"]),
    (rulesConv env, ["ip_rules"], [], ["network"]), (switchConv env, ["switch"], [], ["network"]), (radiosConv env dsa, ["radios"], [], ["wireless"]),
    (wirelessConv env dsa, ["interfaces"], ["network"], ["wireless"]), (uciVpnConv env, ["openvpn"], [], ["openvpn"]),
    (peersConv, ["wireguard_peers"], [], ["network"]), (ztConv env, ["zerotier"], [], ["zerotier"])]

theorem readers_reads {env : Env} {sh : Val → Bool} {dsa : Bool} : ∀ x ∈ readers env sh dsa, ReadsOnly x.1 x.2.1 x.2.2.1 x.2.2.2 := by
  intro x hx
  simp only [readers, List.mem_cons, List.not_mem_nil, or_false] at hx
  rcases hx with rfl | rfl | rfl | rfl | rfl | rfl | rfl | rfl | rfl | rfl | rfl | rfl
  · exact reads_fwd fun _ _ _ _ hr h => generalFwd_names List.mem_cons_self (List.mem_cons_of_mem _ List.mem_cons_self) hr h
  · exact reads_fwd fun _ _ _ _ hr h => ntpFwd_names List.mem_cons_self hr h
  · exact reads_fwd fun _ _ _ _ hr h => appendFwd_names (g := fun b => [.dict b]) List.mem_cons_self hr h
  · exact reads_pure List.mem_cons_self (fun _ _ _ _ h _ => agree_ifaces h) fun _ _ _ h => keysIn_ifaces List.mem_cons_self h
  · exact reads_fwd fun _ _ _ _ hr h => appendFwd_names (g := fun b => [.dict b]) List.mem_cons_self hr h
  · exact reads_fwd fun _ _ _ _ hr h => appendFwd_names (g := fun b => [.dict b]) List.mem_cons_self hr h
  · exact reads_fwd fun _ _ _ _ hr h => appendFwd_names (g := fun b => b) List.mem_cons_self hr h
  · exact reads_fwd fun _ _ _ _ hr h => appendFwd_names (g := fun b => [.dict b]) List.mem_cons_self hr h
  · exact reads_wireless
  · exact reads_vpn
  · exact reads_fwd fun _ _ _ _ hr h => appendFwd_names (g := fun b => [.dict b]) List.mem_cons_self hr h
  · exact reads_zt

theorem convs_readers {env : Env} {sh : Val → Bool} {dsa : Bool} : openwrtConvs env sh dsa = (readers env sh dsa).map Prod.fst ++ [defaultConv env knownKeys] := rfl

/-- one converter of a loop that succeeds -/
theorem loop_step {cls : Class} {conv : Conv} {cs : List Conv} {c i : VDict} {st : BState} (h : convLoop cls (conv :: cs) c i = (st, .ok ())) :
    (conv.should c = false ∧ convLoop cls cs c i = (st, .ok ())) ∨
      (conv.should c = true ∧ ∃ v i1, (conv.run c i).2 = .ok v ∧ mergeConfig cls.sh [".name"] i v = .ok i1 ∧ convLoop cls cs (conv.run c i).1 i1 = (st, .ok ())) := by
  rw [convLoop] at h
  cases hs : conv.should c with
  | false => rw [hs, if_pos rfl] at h; exact .inl ⟨rfl, h⟩
  | true =>
    rw [hs, if_neg (by decide)] at h
    right
    refine ⟨rfl, ?_⟩
    generalize conv.run c i = x at h ⊢
    obtain ⟨c1, r⟩ := x
    cases r with
    | error e => cases h
    | ok v =>
      dsimp only at h ⊢
      refine ⟨v, ?_⟩
      cases v with
      | nil => exact ⟨i, rfl, by rw [mergeConfig, mergeKvs], h⟩
      | cons p v =>
        rw [if_neg (show ¬ (p :: v).isEmpty = true from fun q => nomatch q)] at h
        split at h
        · cases h
        · rename_i i1 hi
          exact ⟨i1, rfl, hi, h⟩

theorem merge_outside {sh : Val → Bool} {ids : List String} {i v i1 : VDict} {W P : List String} (h : mergeConfig sh ids i v = .ok i1) (hv : KeysIn (· ∈ W) v)
    (hd : ∀ w ∈ W, w ∉ P) : AgreeOn P i1 i := by
  intro p hp
  refine mergeKvs_get?_not_mem h fun hm => ?_
  obtain ⟨q, hq, rfl⟩ := List.mem_map.1 hm
  exact hd _ (hv q hq) hp

/-- merging the same data -/
theorem merge_agree {sh : Val → Bool} {ids : List String} {P : List String} (v : VDict) : ∀ {i i' i1 i1' : VDict}, AgreeOn P i i' → mergeConfig sh ids i v = .ok i1 →
    mergeConfig sh ids i' v = .ok i1' → AgreeOn P i1 i1' := by
  unfold mergeConfig
  induction v with
  | nil =>
    intro i i' i1 i1' h h1 h2
    rw [mergeKvs] at h1 h2
    cases h1
    cases h2
    exact h
  | cons p v ih =>
    intro i i' i1 i1' h h1 h2
    obtain ⟨k, x⟩ := p
    rw [mergeKvs] at h1 h2
    obtain ⟨y, e1, h1⟩ := bind_ok_iff.1 h1
    obtain ⟨y', e2, h2⟩ := bind_ok_iff.1 h2
    refine ih (fun q hq => ?_) h1 h2
    rw [Dict.get?_set, Dict.get?_set]
    by_cases hk : k = q
    · subst hk
      rw [← h k hq, e1] at e2
      cases e2
      rw [if_pos rfl, if_pos rfl]
    · rw [if_neg hk, if_neg hk, h q hq]

/-- the packages `P` come from the keys `S` -/
def Closed (S P : List String) (x : Conv × List String × List String × List String) : Prop :=
  (∀ w ∈ x.2.2.2, w ∉ P) ∨ ((∀ k ∈ x.2.1, k ∈ S ∧ k ≠ "files") ∧ ∀ k ∈ x.2.2.1, k ∈ P)

/-- the same values under the keys of `S` but that of the files -/
def AgreeNF (S : List String) (c c' : VDict) : Prop := ∀ k ∈ S, k ≠ "files" → Dict.get? c k = Dict.get? c' k

theorem loop_local {cls : Class} {S P : List String} {last : Conv}
    (hlast : ∀ {c c' i i' : VDict} {st st' : BState}, (Dict.keys c).Nodup → (Dict.keys c').Nodup → AgreeNF S c c' → AgreeOn P i i' → convLoop cls [last] c i = (st, .ok ()) →
      convLoop cls [last] c' i' = (st', .ok ()) → ∀ j j', st.inter = some j → st'.inter = some j' → AgreeOn P j j')
    (xs : List (Conv × List String × List String × List String)) (hx : ∀ x ∈ xs, ReadsOnly x.1 x.2.1 x.2.2.1 x.2.2.2 ∧ Closed S P x) :
    ∀ {c c' i i' : VDict} {st st' : BState}, (Dict.keys c).Nodup → (Dict.keys c').Nodup → AgreeNF S c c' → AgreeOn P i i' →
      convLoop cls (xs.map Prod.fst ++ [last]) c i = (st, .ok ()) → convLoop cls (xs.map Prod.fst ++ [last]) c' i' = (st', .ok ()) →
      ∀ j j', st.inter = some j → st'.inter = some j' → AgreeOn P j j' := by
  induction xs with
  | nil => exact hlast
  | cons x xs ih =>
    intro c c' i i' st st' hn hn' hc hi h1 h2
    have ih := @ih fun y hy => hx y (List.mem_cons_of_mem _ hy)
    obtain ⟨hr, hcl⟩ := hx x List.mem_cons_self
    have h1 := loop_step (cs := xs.map Prod.fst ++ [last]) h1
    have h2 := loop_step (cs := xs.map Prod.fst ++ [last]) h2
    rcases hcl with hcl | ⟨hR, hRi⟩
    · have one : ∀ {c i : VDict} {st : BState}, (Dict.keys c).Nodup → (x.1.should c = false ∧ convLoop cls (xs.map Prod.fst ++ [last]) c i = (st, .ok ())) ∨
          (x.1.should c = true ∧ ∃ v i1, (x.1.run c i).2 = .ok v ∧ mergeConfig cls.sh [".name"] i v = .ok i1 ∧
            convLoop cls (xs.map Prod.fst ++ [last]) (x.1.run c i).1 i1 = (st, .ok ())) →
          ∃ c1 i1, (∀ k, k ≠ "files" → Dict.get? c1 k = Dict.get? c k) ∧ (Dict.keys c1).Nodup ∧ AgreeOn P i1 i ∧ convLoop cls (xs.map Prod.fst ++ [last]) c1 i1 = (st, .ok ()) := by
        intro c i st hn h
        rcases h with ⟨_, h⟩ | ⟨_, v, i1, e1, e2, h⟩
        · exact ⟨c, i, fun _ _ => rfl, hn, fun _ _ => rfl, h⟩
        · exact ⟨_, i1, (hr.config c i).1, (hr.config c i).2 hn, merge_outside e2 (hr.writes e1) hcl, h⟩
      obtain ⟨c1, i1, a1, a2, a3, a4⟩ := one hn h1
      obtain ⟨c2, i2, b1, b2, b3, b4⟩ := one hn' h2
      exact ih a2 b2 (fun k hk hf => by rw [a1 k hf, b1 k hf, hc k hk hf]) (fun p hp => by rw [a3 p hp, b3 p hp, hi p hp]) a4 b4
    · have hcR : AgreeOn x.2.1 c c' := fun k hk => hc k (hR k hk).1 (hR k hk).2
      have hs := hr.should hcR
      rcases h1 with ⟨s1, h1⟩ | ⟨s1, v, i1, e1, e2, h1⟩
      · rcases h2 with ⟨s2, h2⟩ | ⟨s2, _⟩
        · exact ih hn hn' hc hi h1 h2
        · rw [s1, s2] at hs; cases hs
      · rcases h2 with ⟨s2, _⟩ | ⟨s2, v', i2, f1, f2, h2⟩
        · rw [s1, s2] at hs; cases hs
        · have := hr.result hcR (fun k hk => hi k (hRi k hk)) e1 f1
          subst this
          exact ih ((hr.config c i).2 hn) ((hr.config c' i').2 hn')
            (fun k hk hf => by rw [(hr.config c i).1 k hf, (hr.config c' i').1 k hf, hc k hk hf]) (merge_agree v hi e2 f2) h1 h2

/-- the result of the default converter under a key -/
theorem default_at {env : Env} {c r i : VDict} (hn : (Dict.keys c).Nodup) (h : ((defaultConv env knownKeys).run c i).2 = .ok r) :
    (Dict.keys r).Nodup ∧ ∀ p, (∀ v, Dict.get? c p = some v → ∃ y, (entryRun env knownKeys (p, v)).2 = .ok y ∧ Dict.get? r p = Dict.get? y p) ∧
      (Dict.get? c p = none → Dict.get? r p = none) := by
  have h : ((defaultLoop env knownKeys c).2 >>= fun r => pure (sortedDict r)) = .ok r := h
  obtain ⟨x, h1, h⟩ := bind_ok_iff.1 h
  cases h
  obtain ⟨_, l, h2, h3⟩ := defaultLoop_parts h1
  subst h3
  have hl := hn.sublist (result_keys h2)
  refine ⟨sortedDict_nodup hl, fun p => ⟨fun v hv => ?_, fun hp => ?_⟩⟩
  · obtain ⟨y, hy⟩ := entries_ok h1 (p, v) (Dict.mem_of_get? hv)
    refine ⟨y, hy, ?_⟩
    rw [get?_sortedDict hl]
    cases hg : Dict.get? y p with
    | some z => exact Dict.get?_of_mem hl ((mem_flatten_mapM h2).2 ⟨_, Dict.mem_of_get? hv, y, hy, Dict.mem_of_get? hg⟩)
    | none =>
      cases hf : Dict.get? l.flatten p with
      | none => rfl
      | some z =>
        obtain ⟨q, hq, y', hy', hz⟩ := (mem_flatten_mapM h2).1 (Dict.mem_of_get? hf)
        have hk := (entry_keys hy').subset (List.mem_map_of_mem (f := Prod.fst) hz)
        have hk : p = q.1 := List.mem_singleton.1 hk
        have : q = (p, v) := by
          have := Dict.get?_of_mem (k := q.1) (v := q.2) hn hq
          rw [← hk, hv] at this
          cases q
          cases hk
          cases this
          rfl
        subst this
        rw [hy] at hy'
        cases hy'
        exact absurd (List.mem_map_of_mem (f := Prod.fst) hz) ((Dict.get?_eq_none_iff _ _).1 hg)
  · rw [get?_sortedDict hl]
    refine (Dict.get?_eq_none_iff _ _).2 fun q => (Dict.get?_eq_none_iff _ _).1 hp ((result_keys h2).subset q)

theorem default_local {cls : Class} {env : Env} {S P : List String} (hS : ∀ p ∈ P, p ∈ S) {c c' i i' : VDict} {st st' : BState} (hn : (Dict.keys c).Nodup)
    (hn' : (Dict.keys c').Nodup) (hc : AgreeNF S c c') (hi : AgreeOn P i i') (h1 : convLoop cls [defaultConv env knownKeys] c i = (st, .ok ()))
    (h2 : convLoop cls [defaultConv env knownKeys] c' i' = (st', .ok ())) : ∀ j j', st.inter = some j → st'.inter = some j' → AgreeOn P j j' := by
  rcases loop_step h1 with ⟨s, _⟩ | ⟨_, v, i1, e1, e2, h1⟩
  · cases s
  rcases loop_step h2 with ⟨s, _⟩ | ⟨_, v', i2, f1, f2, h2⟩
  · cases s
  rw [convLoop] at h1 h2
  cases h1
  cases h2
  intro j j' hj hj'
  cases hj
  cases hj'
  obtain ⟨a1, a2⟩ := default_at hn e1
  obtain ⟨b1, b2⟩ := default_at hn' f1
  intro p hp
  have hv : Dict.get? v p = Dict.get? v' p := by
    by_cases hf : p = "files"
    · subst hf
      have nf : ∀ (r : VDict) (x : Option Val), (∀ v, x = some v → ∃ y, (entryRun env knownKeys ("files", v)).2 = .ok y ∧ Dict.get? r "files" = Dict.get? y "files") ∧
          (x = none → Dict.get? r "files" = none) → Dict.get? r "files" = none := by
        intro r x h
        cases x with
        | none => exact h.2 rfl
        | some w =>
          obtain ⟨y, hy, he⟩ := h.1 w rfl
          rw [he]
          unfold entryRun at hy
          split at hy
          · rw [if_pos (show "files" ∈ knownKeys by decide)] at hy
            cases hy
            rfl
          · cases hy
            rfl
      rw [nf v _ (a2 "files"), nf v' _ (b2 "files")]
    · have ha := a2 p
      have hb := b2 p
      rw [← hc p (hS p hp) hf] at hb
      cases hx : Dict.get? c p with
      | none => rw [ha.2 hx, hb.2 hx]
      | some w =>
        obtain ⟨y, y1, y2⟩ := ha.1 w hx
        obtain ⟨z, z1, z2⟩ := hb.1 w hx
        rw [y1] at z1
        cases z1
        rw [y2, z2]
  cases hg : Dict.get? v p with
  | none =>
    rw [mergeKvs_get?_not_mem e2 ((Dict.get?_eq_none_iff _ _).1 hg), mergeKvs_get?_not_mem f2 ((Dict.get?_eq_none_iff _ _).1 (hv ▸ hg)), hi p hp]
  | some w =>
    obtain ⟨x, x1, x2⟩ := mergeKvs_get?_mem a1 e2 hg
    obtain ⟨y, y1, y2⟩ := mergeKvs_get?_mem b1 f2 (hv ▸ hg)
    rw [hi p hp, y1] at x1
    cases x1
    rw [x2, y2]

/-- the packages to follow together: wireless reads the blocks of the network -/
def followed (p : String) : List String := if p = "wireless" then ["network", "wireless"] else [p]

theorem readers_closed {env : Env} {sh : Val → Bool} {dsa : Bool} (p : String) : ∀ x ∈ readers env sh dsa, Closed (sectionsOf p) (followed p) x := by
  intro x hx
  have closed : ∀ (R Ri W : List String) (conv : Conv), ((∀ w ∈ W, w ∉ followed p) ∨ ((∀ k ∈ R, k ∈ sectionsOf p ∧ k ≠ "files") ∧ ∀ k ∈ Ri, k ∈ followed p)) →
      Closed (sectionsOf p) (followed p) (conv, R, Ri, W) := fun _ _ _ _ h => h
  have out : ∀ (R Ri W : List String) (conv : Conv), (∀ w ∈ W, w ∉ followed p) → Closed (sectionsOf p) (followed p) (conv, R, Ri, W) := fun _ _ _ _ h => .inl h
  simp only [readers, List.mem_cons, List.not_mem_nil, or_false] at hx
  by_cases h1 : p = "system"
  · subst h1
    rcases hx with rfl | rfl | rfl | rfl | rfl | rfl | rfl | rfl | rfl | rfl | rfl | rfl <;> refine closed _ _ _ _ ?_ <;> decide
  by_cases h2 : p = "network"
  · subst h2
    rcases hx with rfl | rfl | rfl | rfl | rfl | rfl | rfl | rfl | rfl | rfl | rfl | rfl <;> refine closed _ _ _ _ ?_ <;> decide
  by_cases h3 : p = "wireless"
  · subst h3
    rcases hx with rfl | rfl | rfl | rfl | rfl | rfl | rfl | rfl | rfl | rfl | rfl | rfl <;> refine closed _ _ _ _ ?_ <;> decide
  by_cases h4 : p = "openvpn"
  · subst h4
    rcases hx with rfl | rfl | rfl | rfl | rfl | rfl | rfl | rfl | rfl | rfl | rfl | rfl <;> refine closed _ _ _ _ ?_ <;> decide
  by_cases h5 : p = "zerotier"
  · subst h5
    rcases hx with rfl | rfl | rfl | rfl | rfl | rfl | rfl | rfl | rfl | rfl | rfl | rfl <;> refine closed _ _ _ _ ?_ <;> decide
  have hf : followed p = [p] := if_neg h3
  have hnot : ∀ w ∈ ["system", "network", "wireless", "openvpn", "zerotier"], w ∉ followed p := by
    intro w hw hm
    rw [hf] at hm
    have := List.mem_singleton.1 hm
    subst this
    simp only [List.mem_cons, List.not_mem_nil, or_false] at hw
    rcases hw with q | q | q | q | q <;> first | exact h1 q | exact h2 q | exact h3 q | exact h4 q | exact h5 q
  rcases hx with rfl | rfl | rfl | rfl | rfl | rfl | rfl | rfl | rfl | rfl | rfl | rfl <;>
    refine out _ _ _ _ fun w hw => hnot w ?_ <;> revert w <;> decide

theorem mem_followed (p : String) : p ∈ followed p := by
  unfold followed
  split
  · rename_i h; rw [h]; decide
  · exact List.mem_cons_self

theorem followed_sections (p : String) : ∀ q ∈ followed p, q ∈ sectionsOf p := by
  unfold followed
  split
  · rename_i h; subst h; decide
  · intro q hq
    rw [List.mem_singleton.1 hq]
    unfold sectionsOf
    split
    · rename_i h; rw [h]; decide
    · split
      · rename_i h; rw [h]; decide
      · exact List.mem_cons_self

/-! ## C85 -/

/-- the intermediate data of a first rendering -/
theorem render_inter {env : Env} {schema : VDict → Except PyErr Unit} {sh : Val → Bool} {loads : Chars → Option Val} {dsa files : Bool} {config : VDict} {st : BState}
    {text : Chars} (h : render (openwrtClass env schema sh loads dsa) files ⟨config, none⟩ = (st, .ok text)) :
    ∃ st1, convLoop (openwrtClass env schema sh loads dsa) (openwrtConvs env sh dsa) config [] = (st1, .ok ()) ∧ st.inter = st1.inter := by
  obtain ⟨_, st1, h1, h2⟩ := render_ok h
  have hi : ensureIntermediate (openwrtClass env schema sh loads dsa) ⟨config, none⟩ = toIntermediate (openwrtClass env schema sh loads dsa) ⟨config, none⟩ := rfl
  rw [hi] at h1
  unfold toIntermediate at h1
  split at h1
  · cases h1
  · refine ⟨st1, h1, ?_⟩
    unfold renderTail at h2
    split at h2
    · cases h2
    · obtain ⟨h3, _⟩ := (Prod.mk.injEq _ _ _ _).mp h2
      rw [← h3]

/-- C85. Two configurations with the same values in the sections of a package, both rendered: the blocks of the package are the same. -/
theorem C85_blocks {env : Env} {schema : VDict → Except PyErr Unit} {sh : Val → Bool} {loads : Chars → Option Val} {dsa files files' : Bool} (p : String) {c c' : VDict}
    (hn : (Dict.keys c).Nodup) (hn' : (Dict.keys c').Nodup) (h : AgreeOn (sectionsOf p) c c') {st st' : BState} {t t' : Chars}
    (h1 : render (openwrtClass env schema sh loads dsa) files ⟨c, none⟩ = (st, .ok t)) (h2 : render (openwrtClass env schema sh loads dsa) files' ⟨c', none⟩ = (st', .ok t'))
    {inter inter' : VDict} (hi : st.inter = some inter) (hi' : st'.inter = some inter') : Dict.get? inter p = Dict.get? inter' p := by
  obtain ⟨s, l1, q1⟩ := render_inter h1
  obtain ⟨s', l2, q2⟩ := render_inter h2
  rw [convs_readers] at l1 l2
  exact loop_local (S := sectionsOf p) (P := followed p) (default_local (followed_sections p)) (readers env sh dsa) (fun x hx => ⟨readers_reads x hx, readers_closed p x hx⟩)
    hn hn' (fun k hk _ => h k hk) (fun _ _ => rfl) l1 l2 inter inter' (q1 ▸ hi) (q2 ▸ hi') p (mem_followed p)

theorem loop_nodup {cls : Class} (cs : List Conv) : ∀ {c i : VDict} {st : BState}, (Dict.keys i).Nodup → convLoop cls cs c i = (st, .ok ()) →
    ∀ j, st.inter = some j → (Dict.keys j).Nodup := by
  induction cs with
  | nil =>
    intro c i st hi h j hj
    rw [convLoop] at h
    cases h
    cases hj
    exact hi
  | cons x cs ih =>
    intro c i st hi h
    rcases loop_step h with ⟨_, h⟩ | ⟨_, v, i1, _, e, h⟩
    · exact ih hi h
    · exact ih (mergeKvs_nodup hi e) h

theorem forall2_right {α β : Type} {R : α → β → Prop} {l : List α} {m : List β} (h : List.Forall₂ R l m) : ∀ y ∈ m, ∃ x ∈ l, R x y := by
  induction h with
  | nil => exact fun _ q => nomatch q
  | cons h _ ih =>
    intro y hy
    rcases List.mem_cons.1 hy with rfl | hy
    · exact ⟨_, List.mem_cons_self, h⟩
    · obtain ⟨x, hx, hr⟩ := ih y hy; exact ⟨x, List.mem_cons_of_mem _ hx, hr⟩

theorem mapM_into {α β : Type} {f : α → Except PyErr β} {l : List α} {r : List β} (h : l.mapM f = .ok r) {x : α} (hx : x ∈ l) : ∃ y ∈ r, f x = .ok y := by
  induction l generalizing r with
  | nil => cases hx
  | cons a l ih =>
    rw [List.mapM_cons] at h
    obtain ⟨b, e1, h⟩ := bind_ok_iff.1 h
    obtain ⟨bs, e2, h⟩ := bind_ok_iff.1 h
    cases h
    rcases List.mem_cons.1 hx with rfl | hx
    · exact ⟨b, List.mem_cons_self, e1⟩
    · obtain ⟨y, hy, e⟩ := ih e2 hx
      exact ⟨y, List.mem_cons_of_mem _ hy, e⟩

/-- C85. Two configurations without line breaks in their texts, that have the same values in the sections of a package: if both give an archive, the file of the
package is in both or in none, with the same text (up to a line break at the end); `ps` and `ps'` are the files of packages, `fs` and `fs'` the additional files. -/
theorem C85_file {env : Env} (hE : Wide NoBreak env) {schema : VDict → Except PyErr Unit} {sh : Val → Bool} {loads : Chars → Option Val} {dsa : Bool} (p : String)
    {c c' : VDict} (hc : CleanConfig NoBreak c) (hc' : CleanConfig NoBreak c') (hb : NoBlankNames c) (hb' : NoBlankNames c') (hn : (Dict.keys c).Nodup)
    (hn' : (Dict.keys c').Nodup) (h : AgreeOn (sectionsOf p) c c') {st st' : BState} {ms ms' : List Member}
    (h1 : generate (openwrtClass env schema sh loads dsa) ⟨c, none⟩ = (st, .ok ms)) (h2 : generate (openwrtClass env schema sh loads dsa) ⟨c', none⟩ = (st', .ok ms')) :
    ∃ ps fs ps' fs', ms = ps ++ fs ∧ ms' = ps' ++ fs' ∧ processFiles st.config = .ok fs ∧ processFiles st'.config = .ok fs' ∧
      (∀ m ∈ ps, m.name = packageFile p → ∃ m' ∈ ps', m'.name = packageFile p ∧ SameButEnd m m') ∧
      ∀ m' ∈ ps', m'.name = packageFile p → ∃ m ∈ ps, m.name = packageFile p ∧ SameButEnd m m' := by
  have rend : ∀ {c : VDict} {st : BState} {ms : List Member}, generate (openwrtClass env schema sh loads dsa) ⟨c, none⟩ = (st, .ok ms) →
      ∃ text, render (openwrtClass env schema sh loads dsa) false ⟨c, none⟩ = (st, .ok text) := by
    intro c st ms h
    unfold generate at h
    split at h
    · cases h
    · rename_i st1 text hr
      obtain ⟨h0, _⟩ := (Prod.mk.injEq _ _ _ _).mp h
      subst h0
      exact ⟨text, hr⟩
  obtain ⟨t, r1⟩ := rend h1
  obtain ⟨t', r2⟩ := rend h2
  obtain ⟨i, d, ps, fs, a1, a2, _, a3, a4, a5⟩ := C82_generate hE hc hb h1
  obtain ⟨i', d', ps', fs', b1, b2, _, b3, b4, b5⟩ := C82_generate hE hc' hb' h2
  have hp : Dict.get? i p = Dict.get? i' p := C85_blocks p hn hn' h r1 r2 a1 b1
  have nod : ∀ {c : VDict} {st : BState} {t : Chars} {i : VDict}, render (openwrtClass env schema sh loads dsa) false ⟨c, none⟩ = (st, .ok t) → st.inter = some i → (Dict.keys i).Nodup := by
    intro c st t i h hi
    obtain ⟨s, l, q⟩ := render_inter h
    exact loop_nodup _ (i := []) List.nodup_nil l i (q ▸ hi)
  have half : ∀ {i i' : VDict} {d d' : List (String × List VDict)} {ps ps' : List Member}, Dict.get? i p = Dict.get? i' p → (Dict.keys i).Nodup → packagesOf i = .ok d →
      packagesOf i' = .ok d' → List.Forall₂ (PackageMember4 env.reprC) d ps → List.Forall₂ (PackageMember4 env.reprC) d' ps' →
      ∀ m ∈ ps, m.name = packageFile p → ∃ m' ∈ ps', m'.name = packageFile p ∧ SameButEnd m m' := by
    intro i i' d d' ps ps' hp hn e1 e2 f1 f2 m hm hname
    obtain ⟨q, hq, g1, g2, u, hu, g3⟩ := forall2_right f1 m hm
    have hqp : q.1 = p := by
      rw [hname] at g1
      exact (String.toList_inj.1 (List.append_cancel_left g1)).symm
    obtain ⟨x, hx, hxq⟩ := mapM_source e1 hq
    obtain ⟨bs, hbs, hxq⟩ := bind_ok_iff.1 hxq
    cases hxq
    dsimp only at hqp hu
    subst hqp
    have hg := Dict.get?_of_mem (k := x.1) (v := x.2) hn hx
    rw [hp] at hg
    obtain ⟨y, hy, hyq⟩ := mapM_into e2 (Dict.mem_of_get? hg)
    dsimp only at hyq
    rw [hbs] at hyq
    cases hyq
    obtain ⟨m', hm', k1, k2, u', hu', k3⟩ := forall2_left f2 hy
    exact ⟨m', hm', k1, g2.trans k2.symm, u, blocksText4 env.reprC (x.1, bs), u', hu, hu', g3, k3⟩
  refine ⟨ps, fs, ps', fs', a3, b3, a5, b5, half hp (nod r1 a1) a2 b2 a4 b4, fun m' hm' hname => ?_⟩
  obtain ⟨m, hm, k1, k2, t, t0, t', g⟩ := half hp.symm (nod r2 b1) b2 a2 b4 a4 m' hm' hname
  exact ⟨m, hm, k1, k2.symm, t', t0, t, g.2.1, g.1, g.2.2.2, g.2.2.1⟩

end NJ
