import Verif.SafeConv
import Verif.Interfaces
import Verif.IpLemmas

/-!
# No internal errors: network interfaces
-/

namespace NJ

/-! ## More about keys -/

theorem opt_set {d : VDict} {k k' : String} {v : Val} {P : Val → Prop} (hv : P v) (h : Opt d k' P) : Opt (Dict.set d k v) k' P := by
  intro w
  rw [Dict.get?_set]
  split
  · intro e; cases e; exact hv
  · exact h w

theorem key_foldErase {ks : List String} {d : VDict} {k : String} {P : Val → Prop} (hk : k ∉ ks) (h : Key d k P) : Key (ks.foldl Dict.erase d) k P := by
  induction ks generalizing d with
  | nil => exact h
  | cons x xs ih =>
    rw [List.mem_cons, not_or] at hk
    exact ih hk.2 (key_erase (Ne.symm hk.1) h)

theorem opt_foldErase {ks : List String} {d : VDict} {k : String} {P : Val → Prop} (h : Opt d k P) : Opt (ks.foldl Dict.erase d) k P := by
  induction ks generalizing d with
  | nil => exact h
  | cons x xs ih => exact ih (opt_erase h)

theorem nodup_foldErase {ks : List String} {d : VDict} (h : (Dict.keys d).Nodup) : (Dict.keys (ks.foldl Dict.erase d)).Nodup := by
  induction ks generalizing d with
  | nil => exact h
  | cons x xs ih => exact ih (Dict.nodup_erase h _)

theorem block_foldErase {ks : List String} {d : VDict} (hk : ".name" ∉ ks) (h : IsBlock d) : IsBlock (ks.foldl Dict.erase d) :=
  ⟨nodup_foldErase h.1, key_foldErase hk h.2⟩

/-- a key not there -/
def Lacks (d : VDict) (k : String) : Prop := Dict.get? d k = none

theorem lacks_erase {d : VDict} {k k' : String} (h : Lacks d k') : Lacks (Dict.erase d k) k' := by
  unfold Lacks
  rw [Dict.get?_erase]
  split
  · rfl
  · exact h

theorem lacks_set {d : VDict} {k k' : String} {v : Val} (hne : k ≠ k') (h : Lacks d k') : Lacks (Dict.set d k v) k' := by
  unfold Lacks
  rw [Dict.get?_set, if_neg hne]
  exact h

theorem lacks_foldErase {ks : List String} {d : VDict} {k : String} (h : Lacks d k) : Lacks (ks.foldl Dict.erase d) k := by
  induction ks generalizing d with
  | nil => exact h
  | cons x xs ih => exact ih (lacks_erase h)

theorem lacks_mem {d : VDict} (hd : (Dict.keys d).Nodup) {k : String} (h : Lacks d k) : ∀ p ∈ d, p.1 ≠ k := by
  rintro ⟨a, v⟩ hp rfl
  have := Dict.get?_of_mem hd hp
  rw [h] at this
  cases this

/-! ## Addresses -/

/-- the text of an IPv4 address and a prefix length is read -/
theorem ipInterface_prefix {ip6 : Ip6} {s : String} {n : Int} (hs : (parseIp4 s.toList).isSome = true) (h0 : 0 ≤ n) (h1 : n ≤ 32) :
    (ipInterface ip6 (s ++ "/" ++ String.ofList (showInt n)).toList).isSome = true := by
  obtain ⟨m, rfl⟩ := Int.eq_ofNat_of_zero_le h0
  have hm : m ≤ 32 := by omega
  have e : (s ++ "/" ++ String.ofList (showInt (m : Int))).toList = s.toList ++ '/' :: showNat m := by
    simp [String.toList_append]
    rfl
  have hslash : '/' ∉ s.toList := by
    intro hmem
    cases hp : parseIp4 s.toList with
    | none => rw [hp] at hs; cases hs
    | some k =>
      unfold parseIp4 at hp
      split at hp
      · rename_i a b c d hsp
        have hj := joinWith_splitOn '.' s.toList
        rw [hsp] at hj
        have hall : ∀ x, (parseOctet x).isSome = true → '/' ∉ x := by
          intro x hx hm
          unfold parseOctet at hx
          split at hx
          · cases hx
          · rename_i hc
            simp only [Bool.or_eq_true, not_or, Bool.not_eq_true', Bool.not_eq_false] at hc
            have := List.all_eq_true.1 hc.1.1.2 _ hm
            exact absurd this (by decide)
        split at hp
        · rename_i h1 h2 h3 h4
          rw [← hj] at hmem
          have ha := hall a (by rw [h1]; rfl)
          have hb := hall b (by rw [h2]; rfl)
          have hc := hall c (by rw [h3]; rfl)
          have hd := hall d (by rw [h4]; rfl)
          simp [joinWith] at hmem
          rcases hmem with h | h | h | h
          · exact ha h
          · exact hb h
          · exact hc h
          · exact hd h
        · cases hp
      · cases hp
  unfold ipInterface
  rw [e, parseIf4_parts _ _ hslash (showNat_noSep _ _ (by decide))]
  cases hp : parseIp4 s.toList with
  | none => rw [hp] at hs; cases hs
  | some k => simp [parsePrefix4_show m hm]

/-- an address of an interface that is not WireGuard: a dynamic one, or an address with a mask, which has to be a mask when it is IPv4 -/
structure AddrFit (a : VDict) : Prop where
  nodup : (Dict.keys a).Nodup
  proto : Key a "proto" fun _ => True
  static : Dict.get? a "proto" = some (.str "dhcp") ∨ (Key a "address" (fun _ => True) ∧ Key a "mask" (fun _ => True) ∧
    (Dict.get? a "family" = some (.str "ipv4") → ∃ s n, Dict.get? a "address" = some (.str s) ∧ (parseIp4 s.toList).isSome = true ∧
      Dict.get? a "mask" = some (.int n) ∧ 0 ≤ n ∧ n ≤ 32))
  noIp : Lacks a "ipaddr"
  noIp6 : Lacks a "ip6addr"
  noName : Lacks a ".name"

/-- what a section takes from an address -/
def AddrOut (a : VDict) : Prop := Key a "proto" (fun _ => True) ∧ ∀ p ∈ a, p.1 ≠ ".name"

/-- what an interface needs, whatever its addresses -/
structure IfaceIn (t : String) (d : VDict) : Prop where
  nodup : (Dict.keys d).Nodup
  type : Dict.get? d "type" = some (.str t)
  network : Opt d "network" IsTxt
  name : Key d "name" fun v => ∃ s, v = .str s ∧ (t = "bridge" → '.' ∉ s.toList)
  members : t = "bridge" → Key d "bridge_members" (IsLst IsTxt)
  vlans : Opt d "vlan_filtering" fun v => t = "bridge" ∧ IsLst (IsObj fun x => Key x "vlan" (fun _ => True) ∧
    Opt x "ports" (IsLst (IsObj fun y => Key y "ifname" fun _ => True))) v
  vid : t = "8021q" ∨ t = "8021ad" → Key d "vid" fun _ => True
  vtep : t = "vxlan" → Key d "vtep" fun _ => True
  vni : t = "vxlan" → Key d "vni" fun _ => True

theorem IfaceIn.set {t : String} {d : VDict} (h : IfaceIn t d) {k : String} {v : Val}
    (hk : k ∉ ["type", "network", "name", "bridge_members", "vlan_filtering", "vid", "vtep", "vni"]) : IfaceIn t (Dict.set d k v) := by
  simp only [List.mem_cons, List.not_mem_nil, not_or, or_false] at hk
  obtain ⟨h1, h2, h3, h4, h5, h6, h7, h8⟩ := hk
  refine ⟨Dict.nodup_set h.nodup _ _, ?_, opt_set_ne h2 h.network, key_set_ne h3 h.name, fun e => key_set_ne h4 (h.members e),
    opt_set_ne h5 h.vlans, fun e => key_set_ne h6 (h.vid e), fun e => key_set_ne h7 (h.vtep e), fun e => key_set_ne h8 (h.vni e)⟩
  rw [Dict.get?_set, if_neg h1]
  exact h.type

theorem IfaceIn.erase {t : String} {d : VDict} (h : IfaceIn t d) {k : String}
    (hk : k ∉ ["type", "name", "bridge_members", "vid", "vtep", "vni"]) : IfaceIn t (Dict.erase d k) := by
  simp only [List.mem_cons, List.not_mem_nil, not_or, or_false] at hk
  obtain ⟨h1, h3, h4, h6, h7, h8⟩ := hk
  refine ⟨Dict.nodup_erase h.nodup _, ?_, opt_erase h.network, key_erase h3 h.name, fun e => key_erase h4 (h.members e),
    opt_erase h.vlans, fun e => key_erase h6 (h.vid e), fun e => key_erase h7 (h.vtep e), fun e => key_erase h8 (h.vni e)⟩
  rw [Dict.get?_erase, if_neg h1]
  exact h.type

/-- a single IPv4 address is read again -/
def Ip4s (env : Env) (v : Val) : Prop := IsLst (fun x => ∃ s, x = .str s ∧ (ipInterface env.ip6 s.toList).isSome = true) v

/-- the static section so far -/
structure StaticOk (env : Env) (s : VDict) : Prop where
  ip4 : Opt s "ipaddr" (Ip4s env)
  ip6 : Opt s "ip6addr" (IsLst fun _ => True)
  proto : s ≠ [] → Key s "proto" fun _ => True
  noName : Lacks s ".name"
  nodup : (Dict.keys s).Nodup

theorem safe_pushTo {d : VDict} {k : String} {v : Val} {P : Val → Prop} (hv : P v) (h : Opt d k (IsLst P)) :
    Safe (fun r => (∀ k', k' ≠ k → Dict.get? r k' = Dict.get? d k') ∧ Key r k (IsLst P) ∧ ((Dict.keys d).Nodup → (Dict.keys r).Nodup)) (pushTo d k v) := by
  unfold pushTo
  split
  · refine ⟨fun k' hk => by rw [Dict.get?_set, if_neg (Ne.symm hk)], key_set_self ⟨[v], rfl, ?_⟩, fun hn => Dict.nodup_set hn _ _⟩
    intro x hx
    rw [List.mem_singleton] at hx
    rw [hx]
    exact hv
  · rename_i l hl
    obtain ⟨l', e, hl'⟩ := h _ hl
    cases e
    refine ⟨fun k' hk => by rw [Dict.get?_set, if_neg (Ne.symm hk)], key_set_self ⟨l ++ [v], rfl, ?_⟩, fun hn => Dict.nodup_set hn _ _⟩
    intro x hx
    rcases List.mem_append.1 hx with hx | hx
    · exact hl' x hx
    · rw [List.mem_singleton] at hx
      rw [hx]
      exact hv
  · rename_i x hne hx
    obtain ⟨l', e, -⟩ := h _ hx
    exact absurd e (hne l')

theorem update_get_lacks {d e : VDict} (he : (Dict.keys e).Nodup) {k : String} (h : Lacks e k) : Dict.get? (Dict.update d e) k = Dict.get? d k := by
  induction e generalizing d with
  | nil => rfl
  | cons p r ih =>
    have hne := lacks_mem he h p List.mem_cons_self
    simp only [Dict.keys, List.map_cons, List.nodup_cons] at he
    have hr : Lacks r k := by
      unfold Lacks at h ⊢
      rw [Dict.get?_cons, if_neg hne] at h
      exact h
    show Dict.get? (Dict.update (Dict.set d p.1 p.2) r) k = _
    rw [ih he.2 hr, Dict.get?_set, if_neg hne]

theorem addressRest_keep {a : VDict} {k : String} (hk : k ∉ ["address", "mask", "family", "gateway"]) {P : Val → Prop} (h : Key a k P) : Key (addressRest a) k P :=
  key_foldErase hk h

theorem addressStep_safe {env : Env} {t : String} {acc : AddrAcc} {v : Val} (hv : IsObj AddrFit v) (hi : IfaceIn t acc.interface)
    (hs : StaticOk env acc.static) (hd : ∀ a ∈ acc.dhcp, AddrOut a) :
    Safe (fun r => IfaceIn t r.interface ∧ StaticOk env r.static ∧ ∀ a ∈ r.dhcp, AddrOut a) (addressStep env acc v) := by
  unfold addressStep
  refine safe_bind (safe_asDict hv) fun a ha => ?_
  obtain ⟨proto, hp, -⟩ := ha.proto
  refine safe_bind (Q := fun x => x = proto) (by unfold getKey; rw [hp]; rfl) fun x hx => ?_
  subst hx
  split
  · refine ⟨hi, hs, fun x hx => ?_⟩
    rcases List.mem_append.1 hx with hx | hx
    · exact hd x hx
    · rw [List.mem_singleton] at hx
      subst hx
      refine ⟨addressRest_keep (by decide) (key_set_self trivial), ?_⟩
      exact lacks_mem (nodup_foldErase (Dict.nodup_set ha.nodup _ _)) (lacks_foldErase (lacks_set (by decide) ha.noName))
  · rename_i hne
    obtain ⟨had, hma, hip⟩ : Key a "address" (fun _ => True) ∧ Key a "mask" (fun _ => True) ∧
        (Dict.get? a "family" = some (.str "ipv4") → ∃ s n, Dict.get? a "address" = some (.str s) ∧ (parseIp4 s.toList).isSome = true ∧
          Dict.get? a "mask" = some (.int n) ∧ 0 ≤ n ∧ n ≤ 32) := by
      rcases ha.static with h | h
      · rw [hp] at h
        exact absurd (Option.some.inj h) hne
      · exact h
    have htext : Safe (fun r => Dict.get? a "family" = some (.str "ipv4") → ∃ s, r = .str s ∧ (ipInterface env.ip6 s.toList).isSome = true) (addressText env a) := by
      unfold addressText
      obtain ⟨ad, h1, -⟩ := had
      obtain ⟨m, h2, -⟩ := hma
      unfold getKey
      rw [h1, h2]
      intro hf
      obtain ⟨s, n, e1, hs, e2, h0, h32⟩ := hip hf
      rw [h1] at e1
      rw [h2] at e2
      cases e1
      cases e2
      exact ⟨_, rfl, ipInterface_prefix hs h0 h32⟩
    refine safe_bind htext fun tx htx => ?_
    have hnd : (Dict.keys (addressRest a)).Nodup := nodup_foldErase ha.nodup
    have h4 : Lacks (addressRest a) "ipaddr" := lacks_foldErase ha.noIp
    have h6 : Lacks (addressRest a) "ip6addr" := lacks_foldErase ha.noIp6
    have hn : Lacks (addressRest a) ".name" := lacks_foldErase ha.noName
    have hpr : Key (addressRest a) "proto" fun _ => True := addressRest_keep (by decide) ⟨_, hp, trivial⟩
    have done : ∀ (v4 : Bool) (s : VDict), Opt s "ipaddr" (Ip4s env) → Opt s "ip6addr" (IsLst fun _ => True) → Lacks s ".name" → (Dict.keys s).Nodup →
        IfaceIn t (gatewayStep v4 a acc.interface) ∧
        StaticOk env (Dict.update s (addressRest a)) ∧ ∀ a ∈ acc.dhcp, AddrOut a := by
      intro v4 s hs4 hs6 hsn hsd
      refine ⟨?_, ⟨?_, ?_, ?_, ?_, Dict.nodup_update hsd _⟩, hd⟩
      · unfold gatewayStep
        split
        · cases v4
          · exact hi.set (by decide)
          · exact hi.set (by decide)
        · exact hi
      · intro v hv; rw [update_get_lacks hnd h4] at hv; exact hs4 v hv
      · intro v hv; rw [update_get_lacks hnd h6] at hv; exact hs6 v hv
      · intro _
        obtain ⟨x, hx, -⟩ := hpr
        exact key_update_new ((Dict.has_iff _ _).1 (by unfold Dict.has; rw [hx]; rfl)) fun _ _ _ => trivial
      · unfold Lacks; rw [update_get_lacks hnd hn]; exact hsn
    by_cases hf : Dict.get? a "family" = some (.str "ipv4")
    · have hv4 : decide (Dict.get? a "family" = some (.str "ipv4")) = true := decide_eq_true hf
      rw [hv4]
      refine safe_bind (safe_pushTo (P := fun x => ∃ s, x = .str s ∧ (ipInterface env.ip6 s.toList).isSome = true) (htx hf) hs.ip4) ?_
      rintro s ⟨hg, hk, hnd'⟩
      refine done true s (opt_of_key hk) ?_ ?_ (hnd' hs.nodup)
      · intro v hv; rw [hg _ (by decide)] at hv; exact hs.ip6 v hv
      · unfold Lacks; rw [hg _ (by decide)]; exact hs.noName
    · have hv4 : decide (Dict.get? a "family" = some (.str "ipv4")) = false := decide_eq_false hf
      rw [hv4]
      refine safe_bind (safe_pushTo (P := fun _ => True) trivial hs.ip6) ?_
      rintro s ⟨hg, hk, hnd'⟩
      refine done false s ?_ (opt_of_key hk) ?_ (hnd' hs.nodup)
      · intro v hv; rw [hg _ (by decide)] at hv; exact hs.ip4 v hv
      · unfold Lacks; rw [hg _ (by decide)]; exact hs.noName

theorem staticSection_safe {env : Env} {s : VDict} (h : StaticOk env s) : Safe (fun r => ∀ a ∈ r, AddrOut a) (staticSection env s) := by
  unfold staticSection
  split
  · exact fun a ha => nomatch ha
  · rename_i hne
    have hne : s ≠ [] := by rintro rfl; exact hne rfl
    refine safe_bind (Q := AddrOut) ?_ fun r hr a ha => by rw [List.mem_singleton] at ha; rw [ha]; exact hr
    unfold staticAddress
    have h1 : Safe (fun u => Opt u "ip6addr" (IsLst fun _ => True) ∧ Key u "proto" (fun _ => True) ∧ (Dict.keys u).Nodup ∧ Lacks u ".name") (singleIpv4 env s) := by
      unfold singleIpv4
      split
      · rename_i v hv
        cases hg : Dict.get? s "ipaddr" with
        | none => rw [hg] at hv; cases hv
        | some w =>
          rw [hg] at hv
          obtain ⟨l, e, hl⟩ := h.ip4 _ hg
          rw [e] at hv
          have hv := Val.list.inj hv
          subst hv
          refine safe_bind (safe_ipInterface (hl v List.mem_cons_self)) fun i _ => ?_
          exact ⟨opt_set_ne (by decide) (opt_set_ne (by decide) h.ip6), key_set_ne (by decide) (key_set_ne (by decide) (h.proto hne)),
            Dict.nodup_set (Dict.nodup_set h.nodup _ _) _ _, lacks_set (by decide) (lacks_set (by decide) h.noName)⟩
      · exact ⟨h.ip6, h.proto hne, h.nodup, h.noName⟩
      · exact ⟨h.ip6, h.proto hne, h.nodup, h.noName⟩
      · rename_i h1 h2 h3
        cases hg : Dict.get? s "ipaddr" with
        | none => exact absurd (by rw [hg]; rfl) (h2 [])
        | some w =>
          obtain ⟨l, e, hl⟩ := h.ip4 _ hg
          exact absurd (by rw [hg, e]; rfl) (h2 l)
    refine safe_bind h1 ?_
    rintro u ⟨h6, hp, hn, hl⟩
    unfold singleIpv6
    split
    · exact ⟨key_set_ne (by decide) hp, lacks_mem (Dict.nodup_set hn _ _) (lacks_set (by decide) hl)⟩
    · exact ⟨hp, lacks_mem hn hl⟩
    · exact ⟨hp, lacks_mem hn hl⟩
    · rename_i h1 h2 h3
      cases hg : Dict.get? u "ip6addr" with
      | none => exact absurd (by rw [hg]; rfl) (h2 [])
      | some w =>
        obtain ⟨l, e, hl⟩ := h6 _ hg
        exact absurd (by rw [hg, e]; rfl) (h2 l)

/-- the addresses of an interface -/
def AddrsFit (t : String) (d : VDict) : Prop :=
  if t = "wireguard" then Key d "addresses" (IsLst (IsObj fun a => Key a "address" fun _ => True))
  else Opt d "addresses" fun v => v.truthy = true → IsLst (IsObj AddrFit) v

theorem wgAddress_safe {env : Env} {v : Val} (h : IsObj (fun a => Key a "address" fun _ => True) v) : Safe (fun _ => True) (wgAddress env v) := by
  unfold wgAddress
  refine safe_bind (safe_asDict h) fun d hd => ?_
  exact safe_bind (safe_getKey hd) fun a _ => trivial

theorem ifaceAddresses_safe {env : Env} {t : String} {d : VDict} (hi : IfaceIn t d) (ha : AddrsFit t d) :
    Safe (fun r => IfaceIn t r.1 ∧ ∀ a ∈ r.2, AddrOut a) (ifaceAddresses env d) := by
  unfold ifaceAddresses
  rw [hi.type]
  by_cases ht : t = "wireguard"
  · unfold AddrsFit at ha
    rw [if_pos ht] at ha
    rw [if_pos (by rw [ht])]
    unfold wgAddresses
    refine safe_bind (safe_popKey ha) ?_
    rintro ⟨v, e⟩ ⟨⟨l, hl, hl'⟩, he⟩
    dsimp only at hl he
    subst hl he
    refine safe_bind (safe_mapM fun v hv => wgAddress_safe (hl' v hv)) fun r _ => ?_
    refine ⟨hi.erase (by decide), fun a ha => ?_⟩
    rw [List.mem_singleton] at ha
    subst ha
    refine ⟨⟨.str "wireguard", by simp [Dict.get?_cons], trivial⟩, ?_⟩
    intro p hp
    simp only [List.mem_cons, List.not_mem_nil, or_false] at hp
    rcases hp with rfl | rfl <;> simp
  · unfold AddrsFit at ha
    rw [if_neg ht] at ha
    rw [if_neg (by intro e; cases e; exact ht rfl)]
    dsimp only
    split
    · rename_i htr
      cases hg : Dict.get? d "addresses" with
      | none => rw [hg] at htr; cases htr
      | some w =>
        rw [hg] at htr
        obtain ⟨l, e, hl⟩ := ha _ hg htr
        subst e
        refine safe_bind (safe_foldlM (P := fun r : AddrAcc => IfaceIn t r.interface ∧ StaticOk env r.static ∧ ∀ a ∈ r.dhcp, AddrOut a) ?_ ?_) ?_
        · exact ⟨hi, ⟨fun v hv => (nomatch hv), fun v hv => (nomatch hv), fun h => absurd rfl h, rfl, List.nodup_nil⟩, fun a ha => nomatch ha⟩
        · rintro acc ⟨h1, h2, h3⟩ b hb
          exact addressStep_safe (hl b hb) h1 h2 h3
        · rintro acc ⟨h1, h2, h3⟩
          refine safe_bind (staticSection_safe h2) fun s hs => ⟨h1, fun a ha => ?_⟩
          rcases List.mem_append.1 ha with ha | ha
          · exact hs a ha
          · exact h3 a ha
    · refine safe_bind (safe_getKey (P := fun _ => True) ⟨_, hi.type, trivial⟩) fun t' _ => ⟨hi, fun a ha => ?_⟩
      split at ha
      · cases ha
      · rw [List.mem_singleton] at ha
        subst ha
        refine ⟨⟨.str "none", by simp [Dict.get?_cons], trivial⟩, ?_⟩
        intro p hp
        rw [List.mem_singleton] at hp
        rw [hp]
        simp

/-! ## The interface -/

/-- VLANs of a bridge -/
def VlansFit (t : String) (v : Val) : Prop :=
  t = "bridge" ∧ IsLst (IsObj fun x => Key x "vlan" (fun _ => True) ∧ Opt x "ports" (IsLst (IsObj fun y => Key y "ifname" fun _ => True))) v

/-- the interface on its way to UCI; `ifn` tells that its own name is still there -/
structure IfaceMid (t : String) (ifn : Prop) (d : VDict) : Prop where
  block : IsBlock d
  type : Dict.get? d "type" = some (.str t)
  network : Opt d "network" IsTxt
  ifname : ifn → Key d "ifname" fun v => ∃ s, v = .str s ∧ (t = "bridge" → '.' ∉ s.toList)
  ifText : Opt d "ifname" IsTxt
  members : t = "bridge" → Key d "bridge_members" (IsLst IsTxt)
  vlans : Opt d "vlan_filtering" (VlansFit t)
  vid : t = "8021q" ∨ t = "8021ad" → Key d "vid" fun _ => True
  vtep : t = "vxlan" → Key d "vtep" fun _ => True
  vni : t = "vxlan" → Key d "vni" fun _ => True

theorem IfaceMid.set {t : String} {ifn : Prop} {d : VDict} (h : IfaceMid t ifn d) {k : String} {v : Val}
    (hk : k ∉ [".name", "type", "network", "ifname", "bridge_members", "vlan_filtering", "vid", "vtep", "vni"]) : IfaceMid t ifn (Dict.set d k v) := by
  simp only [List.mem_cons, List.not_mem_nil, not_or, or_false] at hk
  obtain ⟨h0, h1, h2, h3, h4, h5, h6, h7, h8⟩ := hk
  refine ⟨block_set h.block h0, ?_, opt_set_ne h2 h.network, fun e => key_set_ne h3 (h.ifname e), opt_set_ne h3 h.ifText, fun e => key_set_ne h4 (h.members e),
    opt_set_ne h5 h.vlans, fun e => key_set_ne h6 (h.vid e), fun e => key_set_ne h7 (h.vtep e), fun e => key_set_ne h8 (h.vni e)⟩
  rw [Dict.get?_set, if_neg h1]
  exact h.type

theorem IfaceMid.erase {t : String} {ifn : Prop} {d : VDict} (h : IfaceMid t ifn d) {k : String}
    (hk : k ∉ [".name", "type", "ifname", "bridge_members", "vid", "vtep", "vni"]) : IfaceMid t ifn (Dict.erase d k) := by
  simp only [List.mem_cons, List.not_mem_nil, not_or, or_false] at hk
  obtain ⟨h0, h1, h3, h4, h6, h7, h8⟩ := hk
  refine ⟨block_erase h.block h0, ?_, opt_erase h.network, fun e => key_erase h3 (h.ifname e), opt_erase h.ifText, fun e => key_erase h4 (h.members e),
    opt_erase h.vlans, fun e => key_erase h6 (h.vid e), fun e => key_erase h7 (h.vtep e), fun e => key_erase h8 (h.vni e)⟩
  rw [Dict.get?_erase, if_neg h1]
  exact h.type

theorem macStep_mid {t : String} {ifn : Prop} {d : VDict} (h : IfaceMid t ifn d) : IfaceMid t ifn (macStep d) := by
  unfold macStep
  split
  · refine IfaceMid.erase ?_ (by decide)
    split
    · exact h
    · exact h.set (by decide)
  · exact h

theorem autoStep_mid {t : String} {ifn : Prop} {d : VDict} (h : IfaceMid t ifn d) : IfaceMid t ifn (autoStep d) := by
  unfold autoStep
  split
  · exact (h.set (by decide)).erase (by decide)
  · exact h

theorem enabledStep_mid {t : String} {ifn : Prop} {d : VDict} (h : IfaceMid t ifn d) : IfaceMid t ifn (enabledStep d) := by
  unfold enabledStep
  split
  · exact (h.set (by decide)).erase (by decide)
  · exact h

/-- the interface as it is cut into sections -/
structure IfaceReady (t : String) (d : VDict) : Prop where
  block : IsBlock d
  type : Dict.get? d "type" = some (.str t)
  ifText : Opt d "ifname" IsTxt
  ifname : Val.str t ∈ dsaTypes → Key d "ifname" fun v => ∃ s, v = .str s ∧ (t = "bridge" → '.' ∉ s.toList)
  members : t = "bridge" → Key d "bridge_members" (IsLst IsTxt)
  vlans : Opt d "vlan_filtering" (VlansFit t)
  vid : t = "8021q" ∨ t = "8021ad" → Key d "vid" fun _ => True
  name : t = "8021q" ∨ t = "8021ad" → Key d "name" fun _ => True

theorem uciName_dash {a b : Chars} (h : uciName a = b) (hb : '_' ∉ b) : a = b := by
  subst h
  induction a with
  | nil => rfl
  | cons c cs ih =>
    simp only [uciName, List.map_cons, List.mem_cons, not_or] at hb ⊢
    congr 1
    · by_cases h1 : c = '.'
      · rw [if_pos h1] at hb; exact absurd rfl hb.1
      · by_cases h2 : c = '-'
        · rw [if_neg h1, if_pos h2] at hb; exact absurd rfl hb.1
        · rw [if_neg h1, if_neg h2]
    · exact ih hb.2

theorem specific_safe {env : Env} {t : String} {d : VDict} (h : IfaceMid t True d) (hno : uciName t.toList ≠ "8021_vlan".toList) : Safe (IfaceReady t) (specific env d) := by
  unfold specific
  refine safe_bind (Q := fun x => x = .str t) (by unfold getKey; rw [h.type]; rfl) fun x hx => ?_
  subst hx
  refine safe_bind (safe_asText ⟨t, rfl⟩) fun tt htt => ?_
  have htt : t.toList = tt := by
    have := Val.str.inj htt
    rw [this]
    simp
  subst htt
  dsimp only
  have plain : ∀ d, IfaceMid t True d → ¬ (t = "8021q" ∨ t = "8021ad") → IfaceReady t d := fun d h hv =>
    ⟨h.block, h.type, h.ifText, fun _ => h.ifname trivial, h.members, h.vlans, fun e => absurd e hv, fun e => absurd e hv⟩
  have dash : ∀ s : String, uciName t.toList = s.toList → '_' ∉ s.toList → t = s := by
    intro s e hs
    exact String.ext (uciName_dash e hs)
  split
  · rename_i hm
    have hv : ¬ (t = "8021q" ∨ t = "8021ad") := by rintro (rfl | rfl) <;> revert hm <;> decide
    refine plain _ ?_ hv
    unfold modemManager
    exact ((h.set (by decide)).erase (by decide)).set (by decide)
  · split
    · rename_i hw
      have hv : ¬ (t = "8021q" ∨ t = "8021ad") := by rintro (rfl | rfl) <;> revert hw <;> decide
      have hnd : Val.str t ∉ dsaTypes := by
        intro hm
        simp only [dsaTypes, List.mem_cons, List.not_mem_nil, or_false, Val.str.injEq] at hm
        rcases hm with rfl | rfl | rfl | rfl | rfl | rfl <;> revert hw <;> decide
      have hb : t ≠ "bridge" := by rintro rfl; revert hw; decide
      unfold wireguardIface
      have h' := ((h.set (k := "proto") (v := .str "wireguard") (by decide)).erase (k := "port") (by decide)).set (k := "listen_port") (v := (Dict.get? (Dict.set d "proto" (.str "wireguard")) "port").getD .none) (by decide)
      refine ⟨block_erase h'.block (by decide), ?_, opt_erase h'.ifText, fun e => absurd e hnd, fun e => absurd e hb, opt_erase h'.vlans, fun e => absurd e hv, fun e => absurd e hv⟩
      rw [Dict.get?_erase, if_neg (by decide)]
      exact h'.type
    · split
      · rename_i hx
        have hv : ¬ (t = "8021q" ∨ t = "8021ad") := by rintro (rfl | rfl) <;> revert hx <;> decide
        have htv : t = "vxlan" := dash "vxlan" hx (by decide)
        have h1 := h.set (k := "proto") (v := .str "vxlan") (by decide)
        unfold vxlanIface
        refine safe_bind (safe_popKey (h1.vtep htv)) ?_
        rintro ⟨vtep, d2⟩ ⟨-, e⟩
        dsimp only at e
        subst e
        refine safe_bind (safe_popKey (key_set_ne (by decide) (key_erase (by decide) (h1.vni htv)))) ?_
        rintro ⟨vni, d3⟩ ⟨-, e⟩
        dsimp only at e
        subst e
        subst htv
        refine ⟨block_set (block_erase (block_set (block_erase h1.block (by decide)) (by decide)) (by decide)) (by decide), ?_,
          opt_set_ne (by decide) (opt_erase (opt_set_ne (by decide) (opt_erase h1.ifText))), fun e => absurd e (by decide), fun e => absurd e (by decide),
          opt_set_ne (by decide) (opt_erase (opt_set_ne (by decide) (opt_erase h1.vlans))), fun e => absurd e hv, fun e => absurd e hv⟩
        rw [Dict.get?_set, if_neg (by decide), Dict.get?_erase, if_neg (by decide), Dict.get?_set, if_neg (by decide), Dict.get?_erase, if_neg (by decide)]
        exact h1.type
      · split
        · rename_i hq
          have ht8 : t = "8021q" ∨ t = "8021ad" := by
            rcases hq with e | e | e
            · exact Or.inl (dash "8021q" e (by decide))
            · exact Or.inr (dash "8021ad" e (by decide))
            · exact absurd e hno
          have hb : t ≠ "bridge" := by rcases ht8 with rfl | rfl <;> decide
          unfold vlanIface
          refine safe_bind (safe_getKey (h.ifname trivial)) fun ifn _ => ?_
          refine safe_bind (safe_getKey (h.vid ht8)) fun vid _ => ?_
          refine safe_bind (safe_getKey h.block.2) fun nm _ => ?_
          have h' := h.set (k := "name") (v := .str (pyStr env.reprC ifn ++ "." ++ pyStr env.reprC vid)) (by decide)
          have hn : Key (Dict.set d "name" (.str (pyStr env.reprC ifn ++ "." ++ pyStr env.reprC vid))) "name" fun _ => True := key_set_self trivial
          dsimp only
          generalize Dict.set d "name" (.str (pyStr env.reprC ifn ++ "." ++ pyStr env.reprC vid)) = e at h' hn
          have htx : IsTxt (orVal ((Dict.get? e "network").getD .none) (.str ("vlan_" ++ pyStr env.reprC nm ++ "_" ++ pyStr env.reprC vid))) := by
            unfold orVal
            cases hg : Dict.get? e "network" with
            | none => exact isTxt_str _
            | some w =>
              dsimp only [Option.getD]
              split
              · exact h'.network w hg
              · exact isTxt_str _
          refine ⟨⟨Dict.nodup_set h'.block.1 _ _, key_set_self htx⟩, ?_, opt_set_ne (by decide) h'.ifText, fun _ => key_set_ne (by decide) (h'.ifname trivial),
            fun e => absurd e hb, opt_set_ne (by decide) h'.vlans, fun e => key_set_ne (by decide) (h'.vid e), fun _ => key_set_ne (by decide) hn⟩
          rw [Dict.get?_set, if_neg (by decide)]
          exact h'.type
        · rename_i hv
          refine plain _ h ?_
          rintro (rfl | rfl)
          · exact hv (by decide)
          · exact hv (by decide)

/-- when the interface is one of DSA, its name is there -/
structure IfaceCut (dsa : Bool) (vlans : List Val) (t : String) (d : VDict) : Prop where
  block : IsBlock d
  type : Dict.get? d "type" = some (.str t)
  ifname : isDsa dsa vlans d = true ∨ t = "bridge" → Key d "ifname" IsTxt
  members : t = "bridge" → Key d "bridge_members" (IsLst IsTxt)
  vlanList : Opt d "vlan_filtering" (VlansFit t)
  vid : isDsa dsa vlans d = true → t = "8021q" ∨ t = "8021ad" → Key d "vid" fun _ => True
  name : isDsa dsa vlans d = true → t = "8021q" ∨ t = "8021ad" → Key d "name" fun _ => True

theorem key_moveOption {p : VDict × VDict} {k k' : String} {P : Val → Prop} (hne : k ≠ k') (h : Key p.2 k' P) : Key (moveOption p k).2 k' P := by
  unfold moveOption
  split
  · exact key_erase hne h
  · exact h

theorem opt_moveOption {p : VDict × VDict} {k k' : String} {P : Val → Prop} (h : Opt p.2 k' P) : Opt (moveOption p k).2 k' P := by
  unfold moveOption
  split
  · exact opt_erase h
  · exact h

theorem nodup_moveOption {p : VDict × VDict} {k : String} (h : (Dict.keys p.2).Nodup) : (Dict.keys (moveOption p k).2).Nodup := by
  unfold moveOption
  split
  · exact Dict.nodup_erase h _
  · exact h

theorem nodup_moveOption1 {p : VDict × VDict} {k : String} (h : (Dict.keys p.1).Nodup) : (Dict.keys (moveOption p k).1).Nodup := by
  unfold moveOption
  split
  · exact Dict.nodup_set h _ _
  · exact h

theorem key_moveOption1 {p : VDict × VDict} {k k' : String} {P : Val → Prop} (hne : k ≠ k') (h : Key p.1 k' P) : Key (moveOption p k).1 k' P := by
  unfold moveOption
  split
  · exact key_set_ne hne h
  · exact h

theorem foldMove {ks : List String} {p : VDict × VDict} :
    (∀ {k : String} {P : Val → Prop}, k ∉ ks → Key p.2 k P → Key (ks.foldl moveOption p).2 k P) ∧
    (∀ {k : String} {P : Val → Prop}, Opt p.2 k P → Opt (ks.foldl moveOption p).2 k P) ∧
    ((Dict.keys p.2).Nodup → (Dict.keys (ks.foldl moveOption p).2).Nodup) ∧
    (∀ {k : String} {P : Val → Prop}, k ∉ ks → Key p.1 k P → Key (ks.foldl moveOption p).1 k P) ∧
    ((Dict.keys p.1).Nodup → (Dict.keys (ks.foldl moveOption p).1).Nodup) := by
  induction ks generalizing p with
  | nil => exact ⟨fun _ h => h, fun h => h, fun h => h, fun _ h => h, fun h => h⟩
  | cons x xs ih =>
    obtain ⟨h1, h2, h3, h4, h5⟩ := ih (p := moveOption p x)
    refine ⟨fun hk h => ?_, fun h => h2 (opt_moveOption h), fun h => h3 (nodup_moveOption h), fun hk h => ?_, fun h => h5 (nodup_moveOption1 h)⟩
    · rw [List.mem_cons, not_or] at hk
      exact h1 hk.2 (key_moveOption (Ne.symm hk.1) h)
    · rw [List.mem_cons, not_or] at hk
      exact h4 hk.2 (key_moveOption1 (Ne.symm hk.1) h)

theorem addL2_facts {dev d : VDict} :
    (∀ {k : String} {P : Val → Prop}, k ∉ "macaddr" :: l2Options → Key d k P → Key (addL2 dev d).2 k P) ∧
    (∀ {k : String} {P : Val → Prop}, Opt d k P → Opt (addL2 dev d).2 k P) ∧
    ((Dict.keys d).Nodup → (Dict.keys (addL2 dev d).2).Nodup) ∧
    ((Dict.keys dev).Nodup → (Dict.keys (addL2 dev d).1).Nodup) := by
  obtain ⟨h1, h2, h3, h4, h5⟩ := foldMove (ks := l2Options) (p := (dev, d))
  unfold addL2
  dsimp only
  generalize l2Options.foldl moveOption (dev, d) = p at h1 h2 h3 h4 h5
  split
  · refine ⟨fun hk h => ?_, fun h => opt_moveOption (h2 h), fun h => nodup_moveOption (h3 h), fun h => nodup_moveOption1 (h5 h)⟩
    rw [List.mem_cons, not_or] at hk
    exact key_moveOption (Ne.symm hk.1) (h1 hk.2 h)
  · refine ⟨fun hk h => ?_, fun h => h2 h, h3, h5⟩
    rw [List.mem_cons, not_or] at hk
    exact h1 hk.2 h

theorem get_of_key {d : VDict} {k : String} {v : Val} (h : Key d k fun x => x = v) : Dict.get? d k = some v := by
  obtain ⟨x, hx, rfl⟩ := h
  exact hx

theorem checkBridgeVlan_safe {dsa : Bool} {vlans : List Val} {t : String} {d : VDict} (h : IfaceReady t d) :
    Safe (IfaceCut dsa vlans t) (checkBridgeVlan dsa vlans d) := by
  have keep : IfaceCut dsa vlans t d := by
    refine ⟨h.block, h.type, ?_, h.members, h.vlans, fun _ => h.vid, fun _ => h.name⟩
    intro hd
    have hm : Val.str t ∈ dsaTypes := by
      rcases hd with hd | rfl
      · unfold isDsa at hd
        simp only [Bool.and_eq_true, decide_eq_true_eq, h.type, Option.getD_some] at hd
        exact hd.1.2
      · decide
    exact key_mono (h.ifname hm) fun v hv => ⟨_, hv.choose_spec.1⟩
  unfold checkBridgeVlan
  split
  · split
    · rename_i s hs
      split
      · rename_i hc
        have hb : t ≠ "bridge" := by
          rintro rfl
          obtain ⟨v, hv, s', rfl, hdot⟩ := h.ifname (by decide)
          rw [hv] at hs
          have e := Val.str.inj hs
          subst e
          exact hdot rfl hc.1
        obtain ⟨l1, l2, l3, -⟩ := addL2_facts (dev := []) (d := d)
        have hnot : isDsa dsa vlans (Dict.set (Dict.erase (addL2 [] d).2 "ifname") "device" (.str s)) = false := by
          unfold isDsa
          have e1 : Dict.get? (Dict.set (Dict.erase (addL2 [] d).2 "ifname") "device" (.str s)) "ifname" = none := by
            rw [Dict.get?_set, if_neg (by decide), Dict.get?_erase, if_pos rfl]
          have e2 : Dict.get? (Dict.set (Dict.erase (addL2 [] d).2 "ifname") "device" (.str s)) "device" = some (.str s) := by
            rw [Dict.get?_set, if_pos rfl]
          rw [e1, e2]
          simp [hc.2]
        refine ⟨⟨Dict.nodup_set (Dict.nodup_erase (l3 h.block.1) _) _ _, key_set_ne (by decide) (key_erase (by decide) (l1 (by decide) h.block.2))⟩, ?_,
          ?_, fun e => absurd e hb, opt_set_ne (by decide) (opt_erase (l2 h.vlans)), ?_, ?_⟩
        · rw [Dict.get?_set, if_neg (by decide), Dict.get?_erase, if_neg (by decide)]
          exact get_of_key (l1 (by decide) ⟨_, h.type, rfl⟩)
        · rintro (e | e)
          · rw [hnot] at e; cases e
          · exact absurd e hb
        · intro e; rw [hnot] at e; cases e
        · intro e; rw [hnot] at e; cases e
      · exact keep
    · rename_i hne
      cases hg : Dict.get? d "ifname" with
      | none => exact absurd (by rw [hg]; rfl) (hne "")
      | some w =>
        obtain ⟨s, e⟩ := h.ifText _ hg
        exact absurd (by rw [hg, e]; rfl) (hne s)
  · exact keep

theorem ifaceBlock_safe {env : Env} {dsa : Bool} {vlans : List Val} {uci : Chars} {t : String} {d : VDict} (h : IfaceIn t d)
    (hno : uciName t.toList ≠ "8021_vlan".toList) : Safe (IfaceCut dsa vlans t) (ifaceBlock env dsa vlans uci d) := by
  unfold ifaceBlock
  have he : ∀ (P : Val → Prop) k, k ≠ ".type" → k ≠ ".name" → ∀ p ∈ ([(".type", Val.str "interface"), (".name", txt uci)] : VDict), p.1 = k → P p.2 := by
    intro P k h1 h2 p hp hk
    simp only [List.mem_cons, List.not_mem_nil, or_false] at hp
    rcases hp with rfl | rfl
    · exact absurd hk.symm h1
    · exact absurd hk.symm h2
  dsimp only
  refine safe_bind (safe_popKey (key_update h.name (he (fun v => ∃ s, v = .str s ∧ (t = "bridge" → '.' ∉ s.toList)) "name" (by decide) (by decide)))) ?_
  rintro ⟨name, d1⟩ ⟨hname, e⟩
  dsimp only at hname e
  subst e
  have hu : ∀ {k : String} {P : Val → Prop}, k ≠ ".type" → k ≠ ".name" → k ≠ "name" → k ≠ "ifname" → Key d k P →
      Key (Dict.set (Dict.erase (Dict.update d [(".type", Val.str "interface"), (".name", txt uci)]) "name") "ifname" name) k P := by
    intro k P h1 h2 h3 h4 hk
    exact key_set_ne (Ne.symm h4) (key_erase (Ne.symm h3) (key_update hk (he _ _ h1 h2)))
  have huo : ∀ {k : String} {P : Val → Prop}, k ≠ ".type" → k ≠ ".name" → k ≠ "ifname" → Opt d k P →
      Opt (Dict.set (Dict.erase (Dict.update d [(".type", Val.str "interface"), (".name", txt uci)]) "name") "ifname" name) k P := by
    intro k P h1 h2 h4 hk
    exact opt_set_ne (Ne.symm h4) (opt_erase (opt_update hk (he _ _ h1 h2)))
  have hm : IfaceMid t True (Dict.set (Dict.erase (Dict.update d [(".type", Val.str "interface"), (".name", txt uci)]) "name") "ifname" name) := by
    refine ⟨?_, ?_, huo (by decide) (by decide) (by decide) h.network, fun _ => key_set_self hname, ?_, fun e => hu (by decide) (by decide) (by decide) (by decide) (h.members e),
      huo (by decide) (by decide) (by decide) h.vlans, fun e => hu (by decide) (by decide) (by decide) (by decide) (h.vid e),
      fun e => hu (by decide) (by decide) (by decide) (by decide) (h.vtep e), fun e => hu (by decide) (by decide) (by decide) (by decide) (h.vni e)⟩
    · refine block_set (block_erase (block_update h.nodup (by simp [Dict.keys]) ?_) (by decide)) (by decide)
      intro p hp hk
      simp only [List.mem_cons, List.not_mem_nil, or_false] at hp
      rcases hp with rfl | rfl
      · exact absurd hk (by simp)
      · exact isTxt_txt _
    · exact get_of_key (hu (by decide) (by decide) (by decide) (by decide) ⟨_, h.type, rfl⟩)
    · exact opt_of_key (key_set_self ⟨_, hname.choose_spec.1⟩)
  have hm := ((enabledStep_mid (autoStep_mid (macStep_mid hm))).erase (k := "wireless") (by decide)).erase (k := "addresses") (by decide)
  refine safe_bind (specific_safe hm hno) fun d2 h2 => ?_
  refine safe_bind (checkBridgeVlan_safe h2) fun d3 h3 => ?_
  have hd : isDsa dsa vlans (Dict.erase d3 "network") = isDsa dsa vlans d3 := by
    unfold isDsa
    simp only [Dict.get?_erase]
    rw [if_neg (by decide), if_neg (by decide), if_neg (by decide), if_neg (by decide)]
  refine ⟨block_erase h3.block (by decide), ?_, ?_, fun e => key_erase (by decide) (h3.members e), opt_erase h3.vlanList, ?_, ?_⟩
  · rw [Dict.get?_erase, if_neg (by decide)]; exact h3.type
  · rw [hd]; exact fun e => key_erase (by decide) (h3.ifname e)
  · rw [hd]; exact fun e e' => key_erase (by decide) (h3.vid e e')
  · rw [hd]; exact fun e e' => key_erase (by decide) (h3.name e e')

/-! ## Devices and VLANs -/

/-- the interface whose sections are written -/
structure IfaceSec (t : String) (d : VDict) : Prop where
  block : IsBlock d
  type : Dict.get? d "type" = some (.str t)
  ifname : t = "bridge" → Key d "ifname" IsTxt
  members : t = "bridge" → Key d "bridge_members" (IsLst IsTxt)

theorem vlanDevice_safe {t : String} {device i : VDict} (hd : IsBlock device) (hi : IsBlock i) (ht : Dict.get? i "type" = some (.str t)) (hb : t ≠ "bridge")
    (hv : Key i "vid" fun _ => True) (hn : Key i "name" fun _ => True) (hf : Key i "ifname" IsTxt) :
    Safe (fun r => IsBlock r.1 ∧ IfaceSec t r.2) (vlanDevice device i) := by
  unfold vlanDevice
  refine safe_bind (safe_getKey (P := fun _ => True) ⟨_, ht, trivial⟩) fun ty _ => ?_
  refine safe_bind (safe_popKey hv) ?_
  rintro ⟨vid, i1⟩ ⟨-, e⟩
  dsimp only at e
  subst e
  refine safe_bind (safe_popKey (key_erase (by decide) hn)) ?_
  rintro ⟨nm, i2⟩ ⟨-, e⟩
  dsimp only at e
  subst e
  refine safe_bind (safe_getKey (key_erase (by decide) (key_erase (by decide) hi.2))) fun dn hdn => ?_
  refine safe_bind (safe_asText hdn) fun dnt _ => ?_
  refine safe_bind (safe_popKey (key_erase (by decide) (key_erase (by decide) hf))) ?_
  rintro ⟨ifn, i3⟩ ⟨-, e⟩
  dsimp only at e
  subst e
  dsimp only [popOr]
  refine ⟨block_update' hd ?_, ?_, ?_, fun e => absurd e hb, fun e => absurd e hb⟩
  · intro p hp hk
    simp only [List.mem_cons, List.not_mem_nil, or_false] at hp
    rcases hp with rfl | rfl | rfl | rfl | rfl | rfl | rfl
    · exact absurd hk (by simp)
    · exact absurd hk (by simp)
    · exact absurd hk (by simp)
    · exact isTxt_txt _
    all_goals exact absurd hk (by simp)
  · exact block_set (block_erase (block_erase (block_erase (block_erase (block_erase hi (by decide)) (by decide)) (by decide)) (by decide)) (by decide)) (by decide)
  · refine get_of_key (key_set_ne (by decide) (key_erase (by decide) (key_erase (by decide) (key_erase (by decide) (key_erase (by decide) (key_erase (by decide) ⟨_, ht, rfl⟩))))))

theorem block_addOptions {prop : String} {os : List String} {device i : VDict} (hp : prop ≠ ".name") (ho : ".name" ∉ os) (h : IsBlock device) :
    IsBlock (addOptions prop os device i) := by
  unfold addOptions
  split
  · have h1 : IsBlock (Dict.set device prop (.bool true)) := block_set h hp
    generalize Dict.set device prop (.bool true) = g at h1
    induction os generalizing g with
    | nil => exact h1
    | cons x xs ih =>
      rw [List.mem_cons, not_or] at ho
      refine ih ho.2 _ ?_
      unfold addOption
      split
      · split
        · exact block_set h1 (Ne.symm ho.1)
        · exact h1
      · exact h1
  · exact h

theorem bridgeDevice_safe {device i : VDict} (hd : IsBlock device) (hi : IfaceSec "bridge" i) :
    Safe (fun r => (IsBlock r.1 ∧ r.1 ≠ []) ∧ IfaceSec "bridge" r.2) (bridgeDevice device i) := by
  unfold bridgeDevice
  refine safe_bind (safe_getKey (hi.ifname rfl)) fun ifn hifn => ?_
  refine safe_bind (safe_asText hifn) fun ift _ => ?_
  dsimp only
  generalize (if "br-".toList <+: ift then ift else "br-".toList ++ ift) = name
  have hs : IfaceSec "bridge" (Dict.set (Dict.set i "ifname" (txt name)) "device" (txt name)) :=
    ⟨block_set (block_set hi.block (by decide)) (by decide), get_of_key (key_set_ne (by decide) (key_set_ne (by decide) ⟨_, hi.type, rfl⟩)),
      fun _ => key_set_ne (by decide) (key_set_self (isTxt_txt _)), fun e => key_set_ne (by decide) (key_set_ne (by decide) (hi.members e))⟩
  generalize Dict.set (Dict.set i "ifname" (txt name)) "device" (txt name) = i1 at hs
  have hdev : IsBlock (addOptions "igmp_snooping" igmpOptions (addOptions "stp" stpOptions (Dict.set (Dict.set device "type" (.str "bridge")) "name" (txt name)) i1) i1) :=
    block_addOptions (by decide) (by decide) (block_addOptions (by decide) (by decide) (block_set (block_set hd (by decide)) (by decide)))
  generalize addOptions "igmp_snooping" igmpOptions (addOptions "stp" stpOptions (Dict.set (Dict.set device "type" (.str "bridge")) "name" (txt name)) i1) i1 = dev at hdev
  obtain ⟨h1, h2, h3, h4, h5⟩ := foldMove (ks := allOptions ++ stpOptions ++ igmpOptions) (p := (dev, i1))
  generalize (allOptions ++ stpOptions ++ igmpOptions).foldl moveOption (dev, i1) = r at h1 h2 h3 h4 h5
  obtain ⟨dev2, i2⟩ := r
  have hd2 : IsBlock dev2 := ⟨h5 hdev.1, h4 (by decide) hdev.2⟩
  refine ⟨?_, ⟨h3 hs.block.1, h1 (by decide) hs.block.2⟩, get_of_key (h1 (by decide) ⟨_, hs.type, rfl⟩), fun e => h1 (by decide) (hs.ifname e), fun e => h1 (by decide) (hs.members e)⟩
  have hb : ∀ x : VDict, IsBlock x → IsBlock (sortedDict x) ∧ sortedDict x ≠ [] := by
    intro x hx
    refine ⟨block_sorted hx, fun e => ?_⟩
    obtain ⟨-, v, hv, -⟩ := block_sorted hx
    rw [e] at hv
    cases hv
  refine hb _ (block_if (block_set hd2 (by decide)) (block_erase (block_set hd2 (by decide)) (by decide)))

set_option maxHeartbeats 1000000 in
theorem ifaceDevice_safe {env : Env} {t : String} {i : VDict} (hb : IsBlock i) (ht : Dict.get? i "type" = some (.str t)) (hf : Key i "ifname" IsTxt)
    (hm : t = "bridge" → Key i "bridge_members" (IsLst IsTxt)) (hv : t = "8021q" ∨ t = "8021ad" → Key i "vid" fun _ => True)
    (hn : t = "8021q" ∨ t = "8021ad" → Key i "name" fun _ => True) (h8 : "8021".toList <+: t.toList → t = "8021q" ∨ t = "8021ad") :
    Safe (fun r => (r.1 ≠ [] → IsBlock r.1) ∧ (t = "bridge" → r.1 ≠ []) ∧ IfaceSec t r.2) (ifaceDevice env i) := by
  have l1 : ∀ (k : String) (P : Val → Prop), k ∉ "macaddr" :: l2Options → Key i k P → Key (addL2 [] i).2 k P := fun k P => addL2_facts.1
  have l3 : (Dict.keys (addL2 [] i).2).Nodup := addL2_facts.2.2.1 hb.1
  have l4 : (Dict.keys (addL2 [] i).1).Nodup := addL2_facts.2.2.2 List.nodup_nil
  unfold ifaceDevice
  generalize addL2 [] i = p at l1 l3 l4
  obtain ⟨l2d, j⟩ := p
  dsimp only at l1 l3 l4 ⊢
  have hjb : IsBlock j := ⟨l3, l1 _ _ (by decide) hb.2⟩
  have hjt : Dict.get? j "type" = some (.str t) := get_of_key (l1 _ _ (by decide) ⟨_, ht, rfl⟩)
  have hjf : Key j "ifname" IsTxt := l1 _ _ (by decide) hf
  have hjm : t = "bridge" → Key j "bridge_members" (IsLst IsTxt) := fun e => l1 _ _ (by decide) (hm e)
  have hjv : t = "8021q" ∨ t = "8021ad" → Key j "vid" fun _ => True := fun e => l1 _ _ (by decide) (hv e)
  have hjn : t = "8021q" ∨ t = "8021ad" → Key j "name" fun _ => True := fun e => l1 _ _ (by decide) (hn e)
  refine safe_bind (safe_getKey hjb.2) fun nm _ => ?_
  refine safe_bind (safe_getKey hjf) fun ifn _ => ?_
  have hdev : IsBlock (Dict.update l2d [(".type", .str "device"), (".name", .str ("device_" ++ pyStr env.reprC nm)), ("name", ifn)]) := by
    refine block_update (l4) (by simp [Dict.keys]) ?_
    intro p hp hk
    simp only [List.mem_cons, List.not_mem_nil, or_false] at hp
    rcases hp with rfl | rfl | rfl
    · exact absurd hk (by simp)
    · exact isTxt_str _
    · exact absurd hk (by simp)
  generalize Dict.update l2d [(".type", .str "device"), (".name", .str ("device_" ++ pyStr env.reprC nm)), ("name", ifn)] = dev at hdev
  have hi2 : ∃ i2, (if ((Dict.get? j "device").getD .none).truthy = true then j else Dict.set j "device" ifn) = i2 ∧ IsBlock i2 ∧ Dict.get? i2 "type" = some (.str t) ∧ Key i2 "ifname" IsTxt ∧
      (t = "bridge" → Key i2 "bridge_members" (IsLst IsTxt)) ∧ (t = "8021q" ∨ t = "8021ad" → Key i2 "vid" fun _ => True) ∧ (t = "8021q" ∨ t = "8021ad" → Key i2 "name" fun _ => True) := by
    refine ⟨_, rfl, ?_⟩
    split
    · exact ⟨hjb, hjt, hjf, hjm, hjv, hjn⟩
    · exact ⟨block_set hjb (by decide), get_of_key (key_set_ne (by decide) ⟨_, hjt, rfl⟩), key_set_ne (by decide) hjf, fun e => key_set_ne (by decide) (hjm e),
        fun e => key_set_ne (by decide) (hjv e), fun e => key_set_ne (by decide) (hjn e)⟩
  obtain ⟨i2, he, k1, k2, k3, k4, k5, k6⟩ := hi2
  rw [he]
  refine safe_bind (Q := fun x => x = .str t) (by unfold getKey; rw [k2]; rfl) fun x hx => ?_
  subst hx
  refine safe_bind (safe_asText ⟨t, rfl⟩) fun tt htt => ?_
  have htt : t.toList = tt := by
    have := Val.str.inj htt
    rw [this]
    simp
  subst htt
  by_cases hb8 : "8021".toList <+: t.toList
  · rw [if_pos hb8]
    have hnb : t ≠ "bridge" := by rintro rfl; revert hb8; decide
    refine safe_bind (vlanDevice_safe hdev k1 k2 hnb (k5 (h8 hb8)) (k6 (h8 hb8)) k3) ?_
    rintro ⟨dev2, i3⟩ ⟨g1, g2⟩
    dsimp only at g1 g2 ⊢
    rw [if_pos (fun e => hnb (String.ext e))]
    exact ⟨fun _ => by rw [if_neg (fun h => h.2 hb8)]; exact g1, fun e => absurd e hnb, g2⟩
  · rw [if_neg hb8]
    refine safe_bind (safe_pure (P := fun r => r = (dev, i2)) rfl) ?_
    rintro ⟨dev2, i3⟩ hr
    cases hr
    dsimp only
    by_cases hbr : t = "bridge"
    · subst hbr
      rw [if_neg (by decide)]
      exact safe_mono (bridgeDevice_safe hdev ⟨k1, k2, fun _ => k3, k4⟩) fun r hr => ⟨fun _ => hr.1.1, fun _ => hr.1.2, hr.2⟩
    · rw [if_pos (fun e => hbr (String.ext e))]
      refine ⟨fun h => ?_, fun e => absurd e hbr, k1, k2, fun e => absurd e hbr, fun e => absurd e hbr⟩
      dsimp only at h ⊢
      split at h
      · exact absurd rfl h
      · rename_i hc
        rw [if_neg hc]
        exact hdev

theorem portText_safe {env : Env} {v : Val} (h : IsObj (fun y => Key y "ifname" fun _ => True) v) : Safe (fun _ => True) (portText env v) := by
  unfold portText
  refine safe_bind (safe_asDict h) fun d hd => ?_
  exact safe_bind (safe_getKey hd) fun _ _ => trivial

theorem vlanSections_safe {env : Env} {uci : Chars} {i : VDict} {v : Val} (hi : Key i "ifname" IsTxt)
    (hv : IsObj (fun x => Key x "vlan" (fun _ => True) ∧ Opt x "ports" (IsLst (IsObj fun y => Key y "ifname" fun _ => True))) v) :
    Safe (fun r => IsBlock r.1 ∧ IsBlock r.2.1) (vlanSections env uci i v) := by
  unfold vlanSections
  refine safe_bind (safe_asDict hv) ?_
  rintro x ⟨h1, h2⟩
  refine safe_bind (safe_getKey h1) fun vid _ => ?_
  refine safe_bind (safe_getKey hi) fun ifn _ => ?_
  dsimp only
  have hd : IsBlock [(".type", .str "bridge-vlan"), (".name", .str ("vlan_" ++ (String.ofList uci ++ "_" ++ pyStr env.reprC vid))), ("vlan", vid), ("device", ifn)] :=
    ⟨by simp [Dict.keys], _, by simp [Dict.get?_cons]; rfl, isTxt_str _⟩
  have hi : IsBlock [(".type", .str "interface"), (".name", .str (String.ofList uci ++ "_" ++ pyStr env.reprC vid)),
      ("device", .str (pyStr env.reprC ifn ++ "." ++ pyStr env.reprC vid)), ("proto", .str "none")] :=
    ⟨by simp [Dict.keys], _, by simp [Dict.get?_cons]; rfl, isTxt_str _⟩
  refine safe_bind (Q := IsBlock) ?_ fun d hd => ⟨block_sorted hd, block_sorted hi⟩
  unfold vlanPorts
  cases hp : Dict.get? x "ports" with
  | none => exact hd
  | some w =>
    obtain ⟨l, rfl, hl⟩ := h2 _ hp
    exact safe_bind (safe_mapM fun y hy => portText_safe (hl y hy)) fun ps _ => block_set hd (by decide)

theorem pushNetwork_safe {r : VDict} {bs : List VDict} (hr : IsPkgs r) (hb : ∀ b ∈ bs, IsBlock b) (hn : bs ≠ [] → ∃ l, Dict.get? r "network" = some (.list l)) :
    Safe (fun r' => IsPkgs r' ∧ ((∃ l, Dict.get? r "network" = some (.list l)) → ∃ l, Dict.get? r' "network" = some (.list l))) (pushNetwork r bs) := by
  unfold pushNetwork
  split
  · exact ⟨hr, fun h => h⟩
  · rename_i hne
    obtain ⟨l, hl⟩ := hn hne
    rw [hl]
    obtain ⟨l', e, hl'⟩ := pkgs_get hr hl
    cases e
    refine ⟨pkgs_set hr ?_, fun _ => ⟨_, by rw [Dict.get?_set, if_pos rfl]⟩⟩
    intro v hv
    rcases List.mem_append.1 hv with hv | hv
    · exact hl' v hv
    · obtain ⟨b, hb', rfl⟩ := List.mem_map.1 hv
      exact ⟨b, rfl, hb b hb'⟩

theorem appendTo_list (r : VDict) (k : String) (l : List Val) : ∃ l', Dict.get? (appendTo r k l) k = some (.list l') := by
  unfold appendTo
  split
  · exact ⟨_, by rw [Dict.get?_set, if_pos rfl]⟩
  · exact ⟨_, by rw [Dict.get?_set, if_pos rfl]⟩

theorem dsa_8021 {vlans : List Val} {t : String} {d : VDict} (ht : Dict.get? d "type" = some (.str t)) (hd : isDsa true vlans d = true) :
    "8021".toList <+: t.toList → t = "8021q" ∨ t = "8021ad" := by
  have hm : Val.str t ∈ dsaTypes := by
    unfold isDsa at hd
    simp only [Bool.and_eq_true, decide_eq_true_eq, ht, Option.getD_some] at hd
    exact hd.1.2
  simp only [dsaTypes, List.mem_cons, List.not_mem_nil, or_false, Val.str.injEq] at hm
  intro hp
  rcases hm with rfl | rfl | rfl | rfl | rfl | rfl
  · revert hp; decide
  · revert hp; decide
  · revert hp; decide
  · revert hp; decide
  · exact Or.inl rfl
  · exact Or.inr rfl

theorem dsaTail_safe {env : Env} {vlans : List Val} {uci : Chars} {t : String} {i2 r2 : VDict} {l : List Val} (g3 : IfaceSec t i2) (hp2 : IsPkgs r2)
    (hn2 : t = "bridge" → ∃ l, Dict.get? r2 "network" = some (.list l)) (hlb : l = [] ∨ t = "bridge")
    (hl : ∀ x ∈ l, IsObj (fun x => Key x "vlan" (fun _ => True) ∧ Opt x "ports" (IsLst (IsObj fun y => Key y "ifname" fun _ => True))) x) :
    Safe (fun x : VDict × List Val × VDict => IfaceSec t x.1 ∧ IsPkgs x.2.2) (do
      let l ← vlanList (.list l)
      let vs ← l.mapM (vlanSections env uci i2)
      let result ← pushNetwork r2 (vs.map (fun x => x.1))
      let result ← pushNetwork result (vs.map (fun x => x.2.1))
      pure (i2, vlans ++ vs.map (fun x => x.2.2), result)) := by
  refine safe_bind (safe_ok (P := fun x => x = l) rfl) fun x hx => ?_
  subst hx
  have hmap : Safe (fun vs => (∀ a ∈ vs, IsBlock a.1 ∧ IsBlock a.2.1) ∧ (vs ≠ [] → x ≠ [])) (x.mapM (vlanSections env uci i2)) := by
    rcases hlb with rfl | hb
    · exact ⟨fun a ha => (nomatch ha), fun h => absurd rfl h⟩
    · have hm := safe_mapM fun y hy => vlanSections_safe (env := env) (uci := uci) (g3.ifname hb) (hl y hy)
      cases hx : x.mapM (vlanSections env uci i2) with
      | error e => rw [hx] at hm; exact hm
      | ok vs =>
        rw [hx] at hm
        refine ⟨hm, fun hne e => ?_⟩
        subst e
        cases hx
        exact hne rfl
  refine safe_bind hmap ?_
  rintro vs ⟨hvs, hvne⟩
  have hnet : vs ≠ [] → ∃ l, Dict.get? r2 "network" = some (.list l) := fun e => by
    rcases hlb with h | h
    · exact absurd h (hvne e)
    · exact hn2 h
  refine safe_bind (pushNetwork_safe hp2 (bs := vs.map fun x => x.1) ?_ ?_) ?_
  · intro b hb
    obtain ⟨a, ha, rfl⟩ := List.mem_map.1 hb
    exact (hvs a ha).1
  · intro e; exact hnet fun h => e (by rw [h]; rfl)
  · rintro r3 ⟨hp3, hn3⟩
    refine safe_bind (pushNetwork_safe hp3 (bs := vs.map fun x => x.2.1) ?_ ?_) ?_
    · intro b hb
      obtain ⟨a, ha, rfl⟩ := List.mem_map.1 hb
      exact (hvs a ha).2
    · intro e; exact hn3 (hnet fun h => e (by rw [h]; rfl))
    · rintro r4 ⟨hp4, -⟩
      exact ⟨g3, hp4⟩

theorem cut_vlans {vlans : List Val} {dsa : Bool} {t : String} {d : VDict} (h : IfaceCut dsa vlans t d) :
    ∃ l, (Dict.get? d "vlan_filtering").getD (.list []) = .list l ∧ (l = [] ∨ t = "bridge") ∧
      ∀ x ∈ l, IsObj (fun x => Key x "vlan" (fun _ => True) ∧ Opt x "ports" (IsLst (IsObj fun y => Key y "ifname" fun _ => True))) x := by
  cases hg : Dict.get? d "vlan_filtering" with
  | none => exact ⟨[], rfl, Or.inl rfl, fun x hx => nomatch hx⟩
  | some w =>
    obtain ⟨e, l, hw, hl⟩ := h.vlanList w hg
    exact ⟨l, hw, Or.inr e, hl⟩

/-- the interface with the flag in place of its VLANs -/
def flagged (d : VDict) (l : List Val) : VDict :=
  if (Val.list l).truthy then Dict.set (Dict.erase d "vlan_filtering") "vlan_filtering" (.bool true) else Dict.erase d "vlan_filtering"

theorem flagged_key {d : VDict} {l : List Val} {k : String} {P : Val → Prop} (hk : k ≠ "vlan_filtering") (h : Key d k P) : Key (flagged d l) k P := by
  unfold flagged
  split
  · exact key_set_ne (Ne.symm hk) (key_erase (Ne.symm hk) h)
  · exact key_erase (Ne.symm hk) h

theorem flagged_nodup {d : VDict} {l : List Val} (h : (Dict.keys d).Nodup) : (Dict.keys (flagged d l)).Nodup := by
  unfold flagged
  split
  · exact Dict.nodup_set (Dict.nodup_erase h _) _ _
  · exact Dict.nodup_erase h _

theorem dsaSections_eq {env : Env} {vlans : List Val} {uci : Chars} {d r : VDict} {l : List Val}
    (h : (Dict.get? d "vlan_filtering").getD (.list []) = .list l) :
    dsaSections env vlans uci d r = (ifaceDevice env (flagged d l) >>= fun x => do
      let l ← vlanList (.list l)
      let vs ← l.mapM (vlanSections env uci x.2)
      let result ← pushNetwork (if x.1.isEmpty then r else appendTo r "network" [.dict (sortedDict x.1)]) (vs.map (fun x => x.1))
      let result ← pushNetwork result (vs.map (fun x => x.2.1))
      pure (x.2, vlans ++ vs.map (fun x => x.2.2), result)) := by
  unfold dsaSections flagged
  simp only [popOr, h]

attribute [local irreducible] dsaSections ifaceDevice in
theorem dsaSections_safe {env : Env} {vlans : List Val} {uci : Chars} {t : String} {d r : VDict} (h : IfaceCut true vlans t d)
    (hd : isDsa true vlans d = true) (hr : IsPkgs r) :
    Safe (fun x => IfaceSec t x.1 ∧ IsPkgs x.2.2) (dsaSections env vlans uci d r) := by
  have h8 := dsa_8021 h.type hd
  obtain ⟨l, hl, hlb, hle⟩ := cut_vlans h
  rw [dsaSections_eq hl]
  have h1 : IsBlock (flagged d l) := ⟨flagged_nodup h.block.1, flagged_key (by decide) h.block.2⟩
  have h2 : Dict.get? (flagged d l) "type" = some (.str t) := get_of_key (flagged_key (by decide) ⟨_, h.type, rfl⟩)
  have h3 : Key (flagged d l) "ifname" IsTxt := flagged_key (by decide) (h.ifname (Or.inl hd))
  have h4 : t = "bridge" → Key (flagged d l) "bridge_members" (IsLst IsTxt) := fun e => flagged_key (by decide) (h.members e)
  have h5 : t = "8021q" ∨ t = "8021ad" → Key (flagged d l) "vid" fun _ => True := fun e => flagged_key (by decide) (h.vid hd e)
  have h6 : t = "8021q" ∨ t = "8021ad" → Key (flagged d l) "name" fun _ => True := fun e => flagged_key (by decide) (h.name hd e)
  generalize flagged d l = i at h1 h2 h3 h4 h5 h6
  refine safe_bind (ifaceDevice_safe h1 h2 h3 h4 h5 h6 h8) ?_
  rintro ⟨device, i2⟩ ⟨g1, g2, g3⟩
  dsimp only at g1 g2 g3 ⊢
  refine dsaTail_safe g3 ?_ ?_ hlb hle
  · split
    · exact hr
    · rename_i he
      exact pkgs_append hr (obj_block (block_sorted (g1 fun e => he (by rw [e]; rfl))))
  · intro e
    rw [if_neg (fun he => g2 e (List.isEmpty_iff.1 he))]
    exact appendTo_list _ _ _

/-! ## Sections -/

theorem textItems_safe {l : List Val} (h : ∀ v ∈ l, IsTxt v) : Safe (fun _ => True) (l.mapM textItem) := by
  refine safe_mono (safe_mapM (P := fun _ => True) fun v hv => ?_) fun _ _ => trivial
  obtain ⟨s, rfl⟩ := h v hv
  trivial

theorem blankJoin_safe {v : Val} (h : IsLst IsTxt v) : Safe (fun _ => True) (blankJoin v) := by
  obtain ⟨l, rfl, hl⟩ := h
  exact safe_bind (textItems_safe hl) fun _ _ => trivial

theorem dnsValue_safe {config : VDict} {own key : String} {ig : List Val} {d : VDict} {proto : Val} (h : Opt config key (IsLst IsTxt)) :
    Safe (fun _ => True) (dnsValue config own key ig d proto) := by
  unfold dnsValue
  split
  · trivial
  · split
    · trivial
    · unfold joinedOf
      dsimp only
      split
      · rename_i ht
        cases hg : Dict.get? config key with
        | none => rw [hg] at ht; cases ht
        | some w => exact blankJoin_safe (h w hg)
      · trivial

theorem cleanBridge_block {b : Bool} {d : VDict} (h : IsBlock d) : IsBlock (cleanBridge b d) := by
  unfold cleanBridge
  split
  · exact block_foldErase (by decide) h
  · exact h

theorem bridgeSection_safe {isdsa : Bool} {i : Nat} {t : String} {d : VDict} (h : IfaceSec t d) : Safe IsBlock (bridgeSection isdsa i d) := by
  unfold bridgeSection
  refine safe_bind (Q := fun x => x = .str t) (by unfold getKey; rw [h.type]; rfl) fun x hx => ?_
  subst hx
  refine safe_bind (Q := IsBlock) ?_ fun d hd => cleanBridge_block hd
  by_cases ht : t = "bridge"
  · rw [if_pos (by rw [ht])]
    split
    · unfold firstBridge
      refine safe_bind (safe_popKey (h.members ht)) ?_
      rintro ⟨m, e⟩ ⟨hm, he⟩
      dsimp only at hm he
      subst he
      refine safe_bind (blankJoin_safe hm) fun mm _ => ?_
      split
      · exact safe_bind (safe_getKey (key_erase (by decide) (h.ifname ht))) fun ifn _ => block_set (block_erase h.block (by decide)) (by decide)
      · split
        · exact block_set (block_erase h.block (by decide)) (by decide)
        · refine safe_bind (safe_popKey (key_set_ne (by decide) (key_erase (by decide) (h.ifname ht)))) ?_
          rintro ⟨m, e⟩ ⟨hm, he⟩
          dsimp only at hm he
          subst he
          exact block_erase (block_set (block_erase h.block (by decide)) (by decide)) (by decide)
    · unfold nextBridge
      refine safe_bind (safe_getKey (h.ifname ht)) fun ifn hifn => ?_
      refine safe_bind (safe_asText hifn) fun ift _ => ?_
      dsimp only
      exact block_foldErase (by decide) (block_if (block_set h.block (by decide)) h.block)
  · rw [if_neg (by intro e; exact ht (Val.str.inj e))]
    exact block_erase h.block (by decide)

theorem ifaceSection_safe {config : VDict} {isdsa : Bool} {uci : Chars} {t : String} {d a : VDict} {i : Nat} (h : IfaceSec t d) (ha : AddrOut a)
    (h1 : Opt config "dns_servers" (IsLst IsTxt)) (h2 : Opt config "dns_search" (IsLst IsTxt)) : Safe IsBlock (ifaceSection config isdsa uci d i a) := by
  unfold ifaceSection
  dsimp only
  have hd : IfaceSec t (if i > 1 then Dict.set d ".name" (txt (uci ++ '_' :: showNat i)) else d) := by
    split
    · exact ⟨⟨Dict.nodup_set h.block.1 _ _, key_set_self (isTxt_txt _)⟩, get_of_key (key_set_ne (by decide) ⟨_, h.type, rfl⟩),
        fun e => key_set_ne (by decide) (h.ifname e), fun e => key_set_ne (by decide) (h.members e)⟩
    · exact h
  generalize (if i > 1 then Dict.set d ".name" (txt (uci ++ '_' :: showNat i)) else d) = d at hd
  refine safe_bind (safe_getKey ha.1) fun proto _ => ?_
  refine safe_bind (dnsValue_safe h1) fun dns _ => ?_
  refine safe_bind (dnsValue_safe h2) fun search _ => ?_
  have hu : ∀ (own : Val) {k : String} {P : Val → Prop}, k ≠ "dns" → k ≠ "dns_search" → k ≠ "proto" → Key d k P →
      Key (Dict.update (Dict.erase d "proto") [("dns", dns), ("dns_search", search), ("proto", own)]) k P := by
    intro own k P k1 k2 k3 hk
    refine key_update (key_erase (Ne.symm k3) hk) ?_
    intro p hp e
    simp only [List.mem_cons, List.not_mem_nil, or_false] at hp
    rcases hp with rfl | rfl | rfl
    · exact absurd e.symm k1
    · exact absurd e.symm k2
    · exact absurd e.symm k3
  have hs : ∀ own : Val, IfaceSec t (Dict.update (Dict.erase d "proto") [("dns", dns), ("dns_search", search), ("proto", own)]) := fun own =>
    ⟨⟨Dict.nodup_update (Dict.nodup_erase hd.block.1 _) _, hu own (by decide) (by decide) (by decide) hd.block.2⟩,
      get_of_key (hu own (by decide) (by decide) (by decide) ⟨_, hd.type, rfl⟩),
      fun e => hu own (by decide) (by decide) (by decide) (hd.ifname e), fun e => hu own (by decide) (by decide) (by decide) (hd.members e)⟩
  refine safe_bind (bridgeSection_safe (hs _)) fun b hb => ?_
  refine block_sorted (block_update' hb ?_)
  intro p hp hk
  have : p ∈ a := by
    have hsub : ∀ (l : VDict), p ∈ Dict.erase l "proto" → p ∈ l := by
      intro l hl
      unfold Dict.erase at hl
      exact (List.mem_filter.1 hl).1
    exact hsub _ hp
  exact absurd hk (ha.2 p this)

theorem addSection_safe (sh : Val → Bool) {r b : VDict} (hr : IsPkgs r) (hb : IsBlock b) : Safe IsPkgs (addSection sh r b) := by
  unfold addSection
  cases hg : Dict.get? r "network" with
  | none =>
    refine safe_bind (mergeBlocks_safe sh [".type"] (fun v hv => nomatch hv) (obj_block hb)) fun l hl => pkgs_set hr hl
  | some w =>
    obtain ⟨t, rfl, ht⟩ := pkgs_get hr hg
    refine safe_bind (mergeBlocks_safe sh [".type"] ht (obj_block hb)) fun l hl => pkgs_set hr hl

theorem addSections_safe {sh : Val → Bool} {config : VDict} {isdsa : Bool} {uci : Chars} {t : String} {d : VDict} (h : IfaceSec t d)
    (h1 : Opt config "dns_servers" (IsLst IsTxt)) (h2 : Opt config "dns_search" (IsLst IsTxt)) {as : List VDict} (ha : ∀ a ∈ as, AddrOut a) (i : Nat)
    {r : VDict} (hr : IsPkgs r) : Safe IsPkgs (addSections sh config isdsa uci d i r as) := by
  induction as generalizing i r with
  | nil => exact hr
  | cons a as ih =>
    rw [addSections]
    refine safe_bind (ifaceSection_safe h (ha a List.mem_cons_self) h1 h2) fun b hb => ?_
    refine safe_bind (addSection_safe sh hr hb) fun r' hr' => ?_
    exact ih (fun x hx => ha x (List.mem_cons_of_mem _ hx)) _ hr'

/-- an interface -/
def IfaceFit (d : VDict) : Prop := ∃ t, IfaceIn t d ∧ AddrsFit t d ∧ uciName t.toList ≠ "8021_vlan".toList

attribute [local irreducible] dsaSections ifaceBlock ifaceAddresses in
theorem ifaceFwd_safe {sh : Val → Bool} {env : Env} {dsa : Bool} {config : VDict} {acc : List Val × VDict} {v : Val} (h : IsObj IfaceFit v)
    (h1 : Opt config "dns_servers" (IsLst IsTxt)) (h2 : Opt config "dns_search" (IsLst IsTxt)) (hr : IsPkgs acc.2) :
    Safe (fun r => IsPkgs r.2) (ifaceFwd sh env dsa config acc v) := by
  unfold ifaceFwd
  refine safe_bind (safe_asDict h) ?_
  rintro d ⟨t, hi, ha, hno⟩
  dsimp only
  have hname : Safe IsTxt (if ((Dict.get? d "network").getD .none).truthy = true then pure ((Dict.get? d "network").getD .none) else getKey d "name") := by
    split
    · rename_i ht
      cases hg : Dict.get? d "network" with
      | none => rw [hg] at ht; cases ht
      | some w => exact hi.network w hg
    · exact safe_getKey (key_mono hi.name fun v hv => ⟨_, hv.choose_spec.1⟩)
  refine safe_bind hname fun name hn => ?_
  refine safe_bind (safe_asText hn) fun uci _ => ?_
  refine safe_bind (ifaceAddresses_safe hi ha) ?_
  rintro ⟨b, as⟩ ⟨hb, has⟩
  dsimp only at hb has ⊢
  refine safe_bind (ifaceBlock_safe hb hno) fun i hc => ?_
  cases hd : isDsa dsa acc.1 i with
  | true =>
    cases dsa with
    | false => unfold isDsa at hd; simp at hd
    | true =>
      rw [if_pos rfl]
      refine safe_bind (dsaSections_safe hc hd hr) ?_
      rintro ⟨i2, vlans, r⟩ ⟨g1, g2⟩
      dsimp only at g1 g2 ⊢
      refine safe_bind (addSections_safe g1 h1 h2 has 1 g2) fun r' hr' => hr'
  | false =>
    rw [if_neg (by simp)]
    refine safe_bind (safe_pure (P := fun x => x = (i, acc.1, acc.2)) rfl) ?_
    rintro ⟨i2, vlans, r⟩ hx
    cases hx
    dsimp only
    have g1 : IfaceSec t i := ⟨hc.block, hc.type, fun e => hc.ifname (Or.inr e), hc.members⟩
    refine safe_bind (addSections_safe g1 h1 h2 has 1 hr) fun r' hr' => hr'

theorem ifaces_safe {sh : Val → Bool} {env : Env} {dsa : Bool} {config : VDict} (h : Key config "interfaces" (IsLst (IsObj IfaceFit)))
    (h1 : Opt config "dns_servers" (IsLst IsTxt)) (h2 : Opt config "dns_search" (IsLst IsTxt)) : Safe IsPkgs (ifacesRun sh env dsa config) := by
  obtain ⟨v, hv, l, rfl, hl⟩ := h
  unfold ifacesRun
  rw [hv]
  refine safe_bind (safe_foldlM (P := fun r : List Val × VDict => IsPkgs r.2) pkgs_nil fun acc hacc b hb => ?_) fun acc hacc => hacc
  exact ifaceFwd_safe (hl b hb) h1 h2 hacc

end NJ
