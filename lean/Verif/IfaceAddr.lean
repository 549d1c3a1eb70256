import Verif.OpenWrt
import Verif.PropsRoutes
import Verif.PropsWifiRound

/-!
# The addresses of an interface, to UCI and back

The specification describes a static address by its version, number, prefix length and gateway.
-/

namespace NJ

/-! ## Specification -/

/-- a static address -/
structure Addr where
  v6 : Bool
  addr : Nat
  plen : Nat
  gw : Option String

def Addr.ip (a : Addr) : IpIf := ⟨a.v6, a.addr, a.plen⟩

/-- the address as text, and with its prefix length -/
def Addr.host (env : Env) (a : Addr) : Chars := showIp env.ip6 a.v6 a.addr
def Addr.full (env : Env) (a : Addr) : Chars := a.host env ++ '/' :: showNat a.plen

def familyOf (v6 : Bool) : String := if v6 then "ipv6" else "ipv4"

/-- the items of an address in NetJSON -/
def addrItem (env : Env) (a : Addr) (k : String) : Option Val :=
  if k = "address" then some (txt (a.host env))
  else if k = "mask" then some (.int a.plen)
  else if k = "proto" then some (.str "static")
  else if k = "family" then some (.str (familyOf a.v6))
  else if k = "gateway" then a.gw.map .str
  else none

/-- An address that can be read from its text. IPv4 addresses can; the text of IPv6 addresses is a parameter of the model. -/
def Addr.Readable (env : Env) (a : Addr) : Prop :=
  if a.v6 then ipInterface env.ip6 (a.full env) = some a.ip ∧ PlainText (a.host env) ∧ '/' ∉ a.host env ∧ a.host env ≠ []
  else a.addr < 2 ^ 32 ∧ a.plen ≤ 32

/-- `d` is the address `a` in NetJSON -/
structure AddrOK (env : Env) (a : Addr) (d : VDict) : Prop where
  nodup : (Dict.keys d).Nodup
  items : ∀ k, Dict.get? d k = addrItem env a k
  readable : a.Readable env

/-- the addresses of one version -/
def ofVersion (v6 : Bool) (as : List Addr) : List Addr := as.filter (fun a => a.v6 == v6)

/-- the last gateway of that version: one option of the section holds it -/
def gwOf (as : List Addr) (v6 : Bool) : Option String := ((ofVersion v6 as).filterMap (·.gw)).getLast?

/-- no value for an empty list -/
def someList (l : List Val) : Option Val := if l = [] then none else some (.list l)

/-- the options of the static section: one IPv4 address is written with its netmask, one IPv6 address as text, several as lists -/
def staticItem (env : Env) (as : List Addr) (k : String) : Option Val :=
  if k = "proto" then some (.str "static")
  else if k = "ipaddr" then match ofVersion false as with
    | [] => none
    | [a] => some (txt (a.host env))
    | l => some (.list (l.map (fun a => txt (a.full env))))
  else if k = "netmask" then match ofVersion false as with
    | [a] => some (txt (showIp4 (mask4 a.plen)))
    | _ => none
  else if k = "ip6addr" then match ofVersion true as with
    | [] => none
    | [a] => some (txt (a.full env))
    | l => some (.list (l.map (fun a => txt (a.full env))))
  else none

/-! ## Facts about addresses -/

theorem pyStr_txt (reprC : Val → String) (s : Chars) : pyStr reprC (txt s) = String.ofList s := rfl

theorem showInt_nat (n : Nat) : showInt (n : Int) = showNat n := rfl

theorem Addr.Readable.read {env : Env} {a : Addr} (h : a.Readable env) : ipInterface env.ip6 (a.full env) = some a.ip := by
  unfold Addr.Readable at h
  split at h
  · exact h.1
  · next hv =>
    have hv : a.v6 = false := by simpa using hv
    have := (C42_ipv4 env.ip6 a.addr a.plen h.1 h.2).2.1
    unfold Addr.full Addr.host Addr.ip showIp
    rw [hv]
    exact this

theorem Addr.Readable.slash {env : Env} {a : Addr} (h : a.Readable env) : '/' ∉ a.host env := by
  unfold Addr.Readable at h
  split at h
  · exact h.2.2.1
  · next hv =>
    have hv : a.v6 = false := by simpa using hv
    unfold Addr.host showIp
    rw [hv]
    exact showIp4_noSlash _

theorem Addr.Readable.ne {env : Env} {a : Addr} (h : a.Readable env) : a.host env ≠ [] := by
  unfold Addr.Readable at h
  split at h
  · exact h.2.2.2
  · next hv =>
    have hv : a.v6 = false := by simpa using hv
    unfold Addr.host showIp
    rw [hv]
    intro e
    have := showIp4_dot a.addr
    rw [show showIp4 a.addr = [] from e] at this
    exact absurd this (by simp)

theorem Addr.Readable.hostPlain {env : Env} {a : Addr} (h : a.Readable env) : PlainText (a.host env) := by
  unfold Addr.Readable at h
  split at h
  · exact h.2.1
  · next hv =>
    have hv : a.v6 = false := by simpa using hv
    unfold Addr.host showIp
    rw [hv]
    exact showIp4_plain _

theorem plain_sep {a b : Chars} {c : Char} (hc : c ≠ ' ' ∧ c ≠ '\n' ∧ c ≠ '\'' ∧ c ≠ '"') (ha : PlainText a) (hb : PlainText b) :
    PlainText (a ++ c :: b) := by
  refine ⟨fun x hx => ?_, noBlanks_sep hc.1 ha.2 hb.2⟩
  rcases List.mem_append.1 hx with hx | hx
  · exact ha.1 x hx
  · rcases List.mem_cons.1 hx with rfl | hx
    · exact hc.2
    · exact hb.1 x hx

theorem Addr.Readable.fullPlain {env : Env} {a : Addr} (h : a.Readable env) : PlainText (a.full env) :=
  plain_sep (by decide) h.hostPlain (digit_plain (fun c hc => .inl (showNat_digits _ c hc)))

theorem Addr.full_ne {env : Env} (a : Addr) : a.full env ≠ [] := by unfold Addr.full; simp

theorem Addr.full_slash {env : Env} (a : Addr) : '/' ∈ a.full env := by unfold Addr.full; simp

/-! ## NetJSON to UCI -/

theorem addressText_ok {env : Env} {a : Addr} {d : VDict} (h : AddrOK env a d) : addressText env d = .ok (txt (a.full env)) := by
  unfold addressText
  rw [getKey_ok (by rw [h.items]; rfl), getKey_ok (by rw [h.items]; rfl)]
  show Except.ok _ = _
  congr 1
  show Val.str _ = Val.str _
  congr 1
  apply String.ext
  show (String.ofList (a.host env) ++ "/" ++ String.ofList (showInt a.plen)).toList = _
  rw [showInt_nat]
  simp [Addr.full]

theorem addressRest_get {env : Env} {a : Addr} {d : VDict} (h : AddrOK env a d) (k : String) :
    Dict.get? (addressRest d) k = if k = "proto" then some (.str "static") else none := by
  unfold addressRest
  simp only [List.foldl_cons, List.foldl_nil, Dict.get?_erase', h.items, addrItem]
  by_cases h1 : k = "proto"
  · subst h1; simp
  · by_cases h2 : k = "gateway" <;> by_cases h3 : k = "family" <;> by_cases h4 : k = "mask" <;> by_cases h5 : k = "address" <;>
      simp_all

/-- what is gathered from the addresses `done` of an interface `b` -/
structure Gathered (env : Env) (b : VDict) (done : List Addr) (acc : AddrAcc) : Prop where
  dhcp : acc.dhcp = []
  nodup : (Dict.keys acc.static).Nodup
  static : ∀ k, Dict.get? acc.static k =
    if k = "proto" then (if done = [] then none else some (.str "static"))
    else if k = "ipaddr" then someList ((ofVersion false done).map (fun a => txt (a.full env)))
    else if k = "ip6addr" then someList ((ofVersion true done).map (fun a => txt (a.full env)))
    else none
  nodupI : (Dict.keys b).Nodup → (Dict.keys acc.interface).Nodup
  interface : ∀ k, Dict.get? acc.interface k =
    if k = "gateway" then ((gwOf done false).map .str).or (Dict.get? b k)
    else if k = "ip6gw" then ((gwOf done true).map .str).or (Dict.get? b k)
    else Dict.get? b k

theorem pushTo_some {d : VDict} {k : String} {l : List Val} (h : Dict.get? d k = someList l) (v : Val) :
    pushTo d k v = .ok (Dict.set d k (.list (l ++ [v]))) := by
  unfold pushTo
  rw [h]
  unfold someList
  split
  · next e => split at e <;> simp_all
  · next l' e => split at e <;> simp_all
  · next hne e =>
    split at e
    · cases e
    · simp only [Option.some.injEq] at e
      exact (hne _ e.symm).elim

theorem ofVersion_snoc (v : Bool) (as : List Addr) (a : Addr) :
    ofVersion v (as ++ [a]) = if a.v6 = v then ofVersion v as ++ [a] else ofVersion v as := by
  unfold ofVersion
  rw [List.filter_append]
  by_cases h : a.v6 = v <;> simp [h]

theorem gwOf_snoc (v : Bool) (as : List Addr) (a : Addr) :
    gwOf (as ++ [a]) v = if a.v6 = v then a.gw.or (gwOf as v) else gwOf as v := by
  unfold gwOf
  rw [ofVersion_snoc]
  split
  · rw [List.filterMap_append]
    cases hg : a.gw with
    | none => simp [hg]
    | some g => simp [hg]
  · rfl

theorem addressStep_ok {env : Env} {b : VDict} {done : List Addr} {acc : AddrAcc} {a : Addr} {d : VDict} (h : AddrOK env a d)
    (hacc : Gathered env b done acc) : ∃ acc', addressStep env acc (.dict d) = .ok acc' ∧ Gathered env b (done ++ [a]) acc' := by
  have hproto : getKey d "proto" = .ok (.str "static") := getKey_ok (by rw [h.items]; rfl)
  have hfam : Dict.get? d "family" = some (.str (familyOf a.v6)) := by rw [h.items]; rfl
  have hgw : Dict.get? d "gateway" = a.gw.map .str := by rw [h.items]; rfl
  have hv4 : decide (Dict.get? d "family" = some (.str "ipv4")) = !a.v6 := by
    rw [hfam]; cases a.v6 <;> decide
  have hpush : pushTo acc.static (if (!a.v6) = true then "ipaddr" else "ip6addr") (txt (a.full env)) =
      .ok (Dict.set acc.static (if (!a.v6) = true then "ipaddr" else "ip6addr") (.list ((ofVersion a.v6 done).map (fun a => txt (a.full env)) ++ [txt (a.full env)]))) := by
    apply pushTo_some
    rw [hacc.static]
    cases a.v6
    · rw [if_neg (by decide), if_pos (by decide)]
    · rw [if_neg (by decide), if_neg (by decide), if_pos (by decide)]
  refine ⟨⟨gatewayStep (!a.v6) d acc.interface, Dict.update (Dict.set acc.static (if (!a.v6) = true then "ipaddr" else "ip6addr")
      (.list ((ofVersion a.v6 done).map (fun a => txt (a.full env)) ++ [txt (a.full env)]))) (addressRest d), acc.dhcp⟩, ?_, ?_⟩
  · unfold addressStep
    simp only [asDict, bind, Except.bind, hproto]
    rw [if_neg (by decide), addressText_ok h]
    simp only [hv4]
    rw [hpush]
    rfl
  · have hrn : (Dict.keys (addressRest d)).Nodup := by
      unfold addressRest
      simp only [List.foldl_cons, List.foldl_nil]
      exact Dict.nodup_erase (Dict.nodup_erase (Dict.nodup_erase (Dict.nodup_erase h.nodup _) _) _) _
    refine ⟨hacc.dhcp, Dict.nodup_update (Dict.nodup_set hacc.nodup _ _) _, ?_, ?_, ?_⟩
    · intro k
      rw [Dict.get?_update _ _ hrn, addressRest_get h]
      by_cases h1 : k = "proto"
      · subst h1; simp
      · rw [if_neg h1, if_neg h1]
        show Dict.get? _ _ = _
        rw [Dict.get?_set', hacc.static, if_neg h1]
        simp only [ofVersion_snoc]
        cases hv : a.v6
        · by_cases h2 : k = "ipaddr"
          · subst h2; simp [someList]
          · simp [h2]
        · by_cases h2 : k = "ip6addr"
          · subst h2; simp [someList]
          · simp [h2]
    · intro hb
      show (Dict.keys (gatewayStep _ _ _)).Nodup
      unfold gatewayStep
      split
      · exact Dict.nodup_set (hacc.nodupI hb) _ _
      · exact hacc.nodupI hb
    · intro k
      show Dict.get? (gatewayStep _ _ _) k = _
      unfold gatewayStep
      rw [hgw]
      simp only [gwOf_snoc]
      cases hg : a.gw with
      | none =>
        simp only [Option.map_none, Option.none_or, ite_self]
        exact hacc.interface k
      | some g =>
        simp only [Option.map_some]
        rw [Dict.get?_set', hacc.interface]
        cases hv : a.v6
        · by_cases h1 : k = "gateway"
          · subst h1; simp
          · simp [h1]
        · by_cases h1 : k = "ip6gw"
          · subst h1; simp
          · simp [h1]

theorem addresses_gather {env : Env} {b : VDict} (as : List Addr) (ds : List VDict) (h : List.Forall₂ (AddrOK env) as ds) (done : List Addr)
    (acc : AddrAcc) (hacc : Gathered env b done acc) :
    ∃ acc', (ds.map Val.dict).foldlM (addressStep env) acc = .ok acc' ∧ Gathered env b (done ++ as) acc' := by
  induction h generalizing done acc with
  | nil => exact ⟨acc, rfl, by simpa using hacc⟩
  | @cons a d as ds h1 _ ih =>
    obtain ⟨acc1, e1, g1⟩ := addressStep_ok h1 hacc
    obtain ⟨acc2, e2, g2⟩ := ih _ _ g1
    refine ⟨acc2, ?_, by simpa using g2⟩
    rw [List.map_cons, List.foldlM_cons, e1]
    exact e2

theorem gathered_nil (env : Env) (b : VDict) : Gathered env b [] ⟨b, [], []⟩ := by
  refine ⟨rfl, List.nodup_nil, ?_, fun h => h, ?_⟩
  · intro k; simp [ofVersion, someList]
  · intro k; simp [gwOf, ofVersion]

theorem someList_map_getD {l : List Val} (h : l ≠ []) : (someList l).getD (.list []) = .list l := by
  unfold someList; rw [if_neg h]; rfl

theorem someList_getD (l : List Val) : (someList l).getD (.list []) = .list l := by
  unfold someList; split
  · next h => subst h; rfl
  · rfl

theorem netmaskText_v4 {env : Env} {a : Addr} (hv : a.v6 = false) : netmaskText env a.ip = showIp4 (mask4 a.plen) := by
  unfold netmaskText Addr.ip
  simp [hv, showIp]

/-- the section of static addresses -/
theorem staticAddress_ok {env : Env} {b : VDict} {as : List Addr} {acc : AddrAcc} (h : Gathered env b as acc) (hne : as ≠ [])
    (hr : ∀ a ∈ as, a.Readable env) :
    ∃ A, staticSection env acc.static = .ok [A] ∧ (Dict.keys A).Nodup ∧ ∀ k, Dict.get? A k = staticItem env as k := by
  have hs : acc.static.isEmpty = false := by
    cases hc : acc.static with
    | nil =>
      have := h.static "proto"
      rw [hc, if_pos rfl, if_neg hne] at this
      cases this
    | cons p ps => rfl
  have h4 : ∃ u, singleIpv4 env acc.static = .ok u ∧ (Dict.keys u).Nodup ∧ ∀ k, Dict.get? u k =
      if k = "proto" ∨ k = "ipaddr" ∨ k = "netmask" then staticItem env as k else Dict.get? acc.static k := by
    unfold singleIpv4
    have e := h.static "ipaddr"
    rw [if_neg (by decide), if_pos rfl] at e
    rw [e, someList_getD]
    have hp := h.static "proto"
    rw [if_pos rfl, if_neg hne] at hp
    have hm := h.static "netmask"
    rw [if_neg (by decide), if_neg (by decide), if_neg (by decide)] at hm
    cases hl : ofVersion false as with
    | nil =>
      refine ⟨_, rfl, h.nodup, ?_⟩
      intro k
      by_cases h1 : k = "proto"
      · subst h1; rw [hp]; rfl
      · by_cases h2 : k = "ipaddr"
        · subst h2; rw [e, hl]; simp [staticItem, hl, someList]
        · by_cases h3 : k = "netmask"
          · subst h3; rw [hm]; simp [staticItem, hl]
          · simp [h1, h2, h3]
    | cons a l =>
      have ha : a ∈ as ∧ a.v6 = false := by
        have : a ∈ ofVersion false as := by rw [hl]; simp
        simpa [ofVersion] using this
      cases l with
      | nil =>
        have hi : ipInterfaceV env (txt (a.full env)) = .ok a.ip := ipInterfaceV_ok (hr a ha.1).read
        refine ⟨_, by
          simp only [List.map_cons, List.map_nil, hi, bind, Except.bind]
          rfl, Dict.nodup_set (Dict.nodup_set h.nodup _ _) _ _, ?_⟩
        intro k
        rw [Dict.get?_set', Dict.get?_set', netmaskText_v4 ha.2]
        by_cases h1 : k = "proto"
        · subst h1; rw [if_neg (by decide), if_neg (by decide), hp]; rfl
        · by_cases h2 : k = "ipaddr"
          · subst h2; simp [staticItem, hl, Addr.host, Addr.ip]
          · by_cases h3 : k = "netmask"
            · subst h3; simp [staticItem, hl]
            · simp [h1, h2, h3]
      | cons a2 l =>
        refine ⟨acc.static, rfl, h.nodup, ?_⟩
        intro k
        by_cases h1 : k = "proto"
        · subst h1; rw [hp]; rfl
        · by_cases h2 : k = "ipaddr"
          · subst h2; rw [e, hl]; simp [staticItem, hl, someList]
          · by_cases h3 : k = "netmask"
            · subst h3; rw [hm]; simp [staticItem, hl]
            · simp [h1, h2, h3]
  obtain ⟨u, e1, n1, g1⟩ := h4
  have e6 := h.static "ip6addr"
  rw [if_neg (by decide), if_neg (by decide), if_pos rfl] at e6
  have h6 : Dict.get? u "ip6addr" = someList ((ofVersion true as).map (fun a => txt (a.full env))) := by
    rw [g1, if_neg (by decide), e6]
  have g1' : ∀ k, k ≠ "ip6addr" → Dict.get? u k = staticItem env as k := by
    intro k hk
    rw [g1]
    split
    · rfl
    · next hno =>
      simp only [not_or] at hno
      rw [h.static, if_neg hno.1, if_neg hno.2.1, if_neg hk]
      simp [staticItem, hno.1, hno.2.1, hno.2.2, hk]
  unfold staticSection
  rw [hs]
  simp only [Bool.false_eq_true, if_false]
  unfold staticAddress
  simp only [e1, bind, Except.bind]
  unfold singleIpv6
  rw [h6, someList_getD]
  cases hl : ofVersion true as with
  | nil =>
    refine ⟨u, rfl, n1, ?_⟩
    intro k
    by_cases hk : k = "ip6addr"
    · subst hk; rw [h6, hl]; simp [staticItem, hl, someList]
    · exact g1' k hk
  | cons a l =>
    cases l with
    | nil =>
      refine ⟨_, rfl, Dict.nodup_set n1 _ _, ?_⟩
      intro k
      rw [Dict.get?_set']
      by_cases hk : k = "ip6addr"
      · subst hk; simp [staticItem, hl]
      · rw [if_neg hk]; exact g1' k hk
    | cons a2 l =>
      refine ⟨u, rfl, n1, ?_⟩
      intro k
      by_cases hk : k = "ip6addr"
      · subst hk; rw [h6, hl]; simp [staticItem, hl, someList]
      · exact g1' k hk

theorem forall2_left {α β : Type} {R : α → β → Prop} {as : List α} {bs : List β} (h : List.Forall₂ R as bs) {a : α} (ha : a ∈ as) :
    ∃ b, b ∈ bs ∧ R a b := by
  induction h with
  | nil => simp at ha
  | @cons x y xs ys h1 _ ih =>
    rcases List.mem_cons.1 ha with rfl | ha
    · exact ⟨y, by simp, h1⟩
    · obtain ⟨b, hb, hr⟩ := ih ha
      exact ⟨b, by simp [hb], hr⟩

/-! ## Groups of addresses -/

/-- the addresses of an interface that has one section: none, by DHCP, or static -/
inductive Group where
  | none
  | dhcp (v6 : Bool)
  | static (as : List Addr)

/-- the options of its section -/
def groupItem (env : Env) : Group → String → Option Val
  | .none, k => if k = "proto" then some (.str "none") else none
  | .dhcp v6, k => if k = "proto" then some (.str (if v6 then "dhcpv6" else "dhcp")) else none
  | .static as, k => staticItem env as k

/-- its gateways -/
def groupGw : Group → Bool → Option String
  | .static as, v6 => gwOf as v6
  | _, _ => none

/-- the items of a DHCP address in NetJSON -/
def dhcpItem (v6 : Bool) (k : String) : Option Val :=
  if k = "proto" then some (.str "dhcp") else if k = "family" then some (.str (familyOf v6)) else none

/-- the interface `b` has these addresses -/
def HasGroup (env : Env) (b : VDict) : Group → Prop
  | .none => Dict.get? b "addresses" = none
  | .dhcp v6 => ∃ d, Dict.get? b "addresses" = some (.list [.dict d]) ∧ (Dict.keys d).Nodup ∧ ∀ k, Dict.get? d k = dhcpItem v6 k
  | .static as => as ≠ [] ∧ ∃ ds, Dict.get? b "addresses" = some (.list (ds.map .dict)) ∧ List.Forall₂ (AddrOK env) as ds

theorem addresses_forward {env : Env} {b : VDict} {g : Group} {t : Val} (hb : (Dict.keys b).Nodup) (hg : HasGroup env b g)
    (ht : Dict.get? b "type" = some t) (h1 : t ≠ .str "wireguard") (h2 : t ≠ .str "wireless") :
    ∃ b' A, ifaceAddresses env b = .ok (b', [A]) ∧ (Dict.keys b').Nodup ∧ (Dict.keys A).Nodup ∧
      (∀ k, Dict.get? A k = groupItem env g k) ∧
      ∀ k, Dict.get? b' k = if k = "gateway" then ((groupGw g false).map .str).or (Dict.get? b k)
        else if k = "ip6gw" then ((groupGw g true).map .str).or (Dict.get? b k) else Dict.get? b k := by
  unfold ifaceAddresses
  rw [ht, if_neg (by simpa using h1)]
  cases g with
  | none =>
    have hg : Dict.get? b "addresses" = none := hg
    refine ⟨b, [("proto", .str "none")], ?_, hb, by simp, ?_, ?_⟩
    · rw [hg]
      simp only [Option.getD_none, Val.truthy, Bool.false_eq_true, if_false, getKey_ok ht, bind, Except.bind]
      rw [if_neg h2]; rfl
    · intro k
      simp only [Dict.get?_cons, groupItem, Dict.get?_nil]
      by_cases hk : k = "proto"
      · subst hk; simp
      · have : ¬ "proto" = k := fun e => hk e.symm
        simp [hk, this]
    · intro k; simp [groupGw]
  | dhcp v6 =>
    obtain ⟨d, h3, h4, h5⟩ := hg
    have hp : getKey d "proto" = .ok (.str "dhcp") := getKey_ok (by rw [h5]; rfl)
    have hf : decide (Dict.get? d "family" = some (.str "ipv4")) = !v6 := by
      rw [h5]; cases v6 <;> decide
    refine ⟨b, addressRest (Dict.set d "proto" (.str (if (!v6) = true then "dhcp" else "dhcpv6"))), ?_, hb, ?_, ?_, ?_⟩
    · rw [h3]
      simp only [Option.getD_some, Val.truthy, List.isEmpty_cons, Bool.not_false, if_true, List.foldlM_cons, List.foldlM_nil]
      unfold addressStep
      simp only [asDict, bind, Except.bind, hp, hf, if_true]
      rfl
    · unfold addressRest
      simp only [List.foldl_cons, List.foldl_nil]
      exact Dict.nodup_erase (Dict.nodup_erase (Dict.nodup_erase (Dict.nodup_erase (Dict.nodup_set h4 _ _) _) _) _) _
    · intro k
      unfold addressRest
      rw [Dict.get?_foldl_erase, Dict.get?_set', h5]
      simp only [groupItem, dhcpItem]
      by_cases hk : k = "proto"
      · subst hk; cases v6 <;> simp
      · by_cases hk2 : k = "family" <;> simp [hk, hk2]
    · intro k; simp [groupGw]
  | static as =>
    obtain ⟨hne, ds, h3, h4⟩ := hg
    obtain ⟨acc, e1, g1⟩ := addresses_gather as ds h4 [] _ (gathered_nil env b)
    rw [List.nil_append] at g1
    have hr : ∀ a ∈ as, a.Readable env := by
      intro a ha
      obtain ⟨d, _, hd⟩ := forall2_left h4 ha
      exact hd.readable
    obtain ⟨A, e2, n2, g2⟩ := staticAddress_ok g1 hne hr
    refine ⟨acc.interface, A, ?_, g1.nodupI hb, n2, g2, g1.interface⟩
    rw [h3]
    have htr : (Val.list (ds.map .dict)).truthy = true := by
      cases h4 with
      | nil => exact absurd rfl hne
      | cons _ _ => rfl
    simp only [Option.getD_some, htr, if_true, e1, bind, Except.bind, e2, g1.dhcp]
    rfl

/-! ## UCI to NetJSON -/

/-- the gateway is in the network of the address -/
def SameNet (g : IpIf) (a : Addr) : Prop :=
  g.v6 = a.v6 ∧ g.addr / 2 ^ (bitsOf a.v6 - a.plen) = a.addr / 2 ^ (bitsOf a.v6 - a.plen)

/-- At most one of the addresses (of one version) has a gateway; it is an address in the network of that one, and in no network before it:
the section holds one gateway, and it is given to the first address whose network it is in. -/
def GwOK (env : Env) (as : List Addr) : Prop :=
  (∀ a ∈ as, a.gw = none) ∨ ∃ pre a post g i, as = pre ++ a :: post ∧ a.gw = some g ∧ (∀ b ∈ pre ++ post, b.gw = none) ∧
    g ≠ "" ∧ PlainText g.toList ∧ ipAddress env.ip6 g.toList = some i ∧ SameNet i a ∧ ∀ b ∈ pre, ¬ SameNet i b

/-- the gateways of an interface can be told -/
def GroupOK' (env : Env) : Group → Prop
  | .static as => ∀ v6, GwOK env (ofVersion v6 as)
  | _ => True

theorem inNetwork_iff (g : IpIf) (a : Addr) : inNetwork g a.ip = true ↔ SameNet g a := by
  unfold inNetwork SameNet IpIf.network Addr.ip
  simp only [decide_eq_true_eq]
  constructor
  · rintro ⟨h1, h2⟩
    exact ⟨h1, Nat.eq_of_mul_eq_mul_right (Nat.two_pow_pos _) h2⟩
  · rintro ⟨h1, h2⟩
    exact ⟨h1, by rw [h2]⟩

def gwKey (v6 : Bool) : String := if v6 then "ip6gw" else "gateway"

/-- a value of the section that is read as the address `a` -/
def ReadsAs (env : Env) (v : Val) (a : Addr) : Prop :=
  ∃ t, parseIp env v (.int 32) = .ok (some t) ∧ ipInterface env.ip6 t = some a.ip

theorem txt_truthy {s : Chars} (h : s ≠ []) : (txt s).truthy = true := by
  simp only [txt, Val.truthy, bne_iff_ne, ne_eq]
  intro e
  apply h
  have : (String.ofList s).toList = [] := by rw [e]; rfl
  simpa using this

theorem parseIp_full (env : Env) {ip mask : Chars} (h : '/' ∉ ip) (hm : '/' ∉ mask) (h1 : ip ≠ []) (h2 : mask ≠ []) (default : Val) :
    parseIp env (txt (ip ++ '/' :: mask)) default = .ok (some (ip ++ '/' :: mask)) := by
  have hsp : splitOn '/' (ip ++ '/' :: mask) = [ip, mask] := by
    have := splitOn_joinWith (sep := '/') [ip, mask] (by simp) (by
      intro x hx
      simp only [List.mem_cons, List.not_mem_nil, or_false] at hx
      rcases hx with rfl | rfl <;> assumption)
    simpa [joinWith] using this
  have htr : (txt mask).truthy = true := txt_truthy h2
  unfold parseIp txt
  simp only [String.toList_ofList, hsp, List.headD_cons, List.drop_succ_cons, List.drop_zero]
  have hmem : '/' ∈ ip ++ '/' :: mask := by simp
  rw [if_pos hmem, if_pos hmem]
  have : orVal (Val.str (String.ofList mask)) default = txt mask := by
    exact if_pos htr
  rw [this, if_pos ⟨h1, htr⟩]
  simp [pyStr_txt]

theorem reads_full {env : Env} {a : Addr} (h : a.Readable env) : ReadsAs env (txt (a.full env)) a :=
  ⟨_, parseIp_full env h.slash (showNat_noSep _ _ (by decide)) h.ne (showNat_ne_nil _) _, h.read⟩

theorem reads_mask {env : Env} {a : Addr} (h : a.Readable env) (hv : a.v6 = false) :
    ReadsAs env (txt (a.host env ++ '/' :: showIp4 (mask4 a.plen))) a := by
  refine ⟨_, parseIp_full env h.slash (showIp4_noSlash _) h.ne ?_ _, ?_⟩
  · intro e
    have := showIp4_dot (mask4 a.plen)
    rw [e] at this
    exact absurd this (by simp)
  · unfold Addr.Readable at h
    rw [if_neg (by simp [hv])] at h
    unfold ipInterface Addr.host showIp Addr.ip
    rw [hv]
    simp only [Bool.false_eq_true, if_false]
    rw [parseIf4_mask _ _ h.1 h.2]

/-- the address without gateway -/
def Addr.bare (env : Env) (a : Addr) : VDict :=
  [("address", txt (a.host env)), ("mask", .int a.plen), ("proto", .str "static"), ("family", .str (familyOf a.v6))]

theorem bare_ok {env : Env} {a : Addr} (h : a.Readable env) (hg : a.gw = none) : AddrOK env a (a.bare env) := by
  refine ⟨by simp [Addr.bare], ?_, h⟩
  intro k
  unfold Addr.bare addrItem
  rw [hg]
  simp only [Dict.get?_cons, Dict.get?_nil, Option.map_none, ite_self]
  by_cases h1 : k = "address"
  · subst h1; rfl
  by_cases h2 : k = "mask"
  · subst h2; rfl
  by_cases h3 : k = "proto"
  · subst h3; rfl
  by_cases h4 : k = "family"
  · subst h4; rfl
  rw [if_neg (Ne.symm h1), if_neg (Ne.symm h2), if_neg (Ne.symm h3), if_neg (Ne.symm h4), if_neg h1, if_neg h2, if_neg h3, if_neg h4]

theorem gate_ok {env : Env} {a : Addr} {g : String} (h : a.Readable env) (hg : a.gw = some g) :
    AddrOK env a (Dict.set (a.bare env) "gateway" (.str g)) := by
  refine ⟨Dict.nodup_set (by simp [Addr.bare]) _ _, ?_, h⟩
  intro k
  rw [Dict.get?_set']
  unfold Addr.bare addrItem
  rw [hg]
  simp only [Dict.get?_cons, Dict.get?_nil, Option.map_some]
  by_cases h0 : k = "gateway"
  · subst h0; rfl
  by_cases h1 : k = "address"
  · subst h1; rfl
  by_cases h2 : k = "mask"
  · subst h2; rfl
  by_cases h3 : k = "proto"
  · subst h3; rfl
  by_cases h4 : k = "family"
  · subst h4; rfl
  rw [if_neg h0, if_neg (Ne.symm h1), if_neg (Ne.symm h2), if_neg (Ne.symm h3), if_neg (Ne.symm h4), if_neg h1, if_neg h2, if_neg h3,
    if_neg h4, if_neg h0]

theorem addressBack_eq {env : Env} {v : Val} {a : Addr} (h : ReadsAs env v a) (vs : List Val) (acc : List Val × VDict) :
    addressesLoop env (v :: vs) acc = (do
      let p ← gatewayBack env a.ip (a.bare env) acc.2
      addressesLoop env vs (acc.1 ++ [.dict p.1], p.2)) := by
  obtain ⟨t, h1, h2⟩ := h
  conv_lhs => rw [addressesLoop]
  simp only [h1, bind, Except.bind]
  unfold addressBack
  rw [ipInterfaceV_ok h2]
  rfl

/-- no gateway left: the addresses are read without one -/
theorem loop_none {env : Env} (v6 : Bool) (as : List Addr) (vs : List Val) (h : List.Forall₂ (ReadsAs env) vs as)
    (hr : ∀ a ∈ as, a.Readable env ∧ a.v6 = v6 ∧ a.gw = none) (acc : List Val) (d : VDict) (hd : Dict.get? d (gwKey v6) = none) :
    addressesLoop env vs (acc, d) = .ok (acc ++ (as.map (fun a => Val.dict (a.bare env))), d) := by
  induction h generalizing acc with
  | nil => simp [addressesLoop]
  | @cons v a vs as h1 _ ih =>
    rw [addressBack_eq h1]
    have hv := (hr a (by simp)).2.1
    have : gatewayBack env a.ip (a.bare env) d = .ok (a.bare env, d) := by
      unfold gatewayBack Addr.ip
      simp only [hv]
      unfold gwKey at hd
      rw [hd]
    simp only [this, bind, Except.bind]
    rw [ih (fun a ha => hr a (by simp [ha]))]
    simp

theorem addressesLoop_append (env : Env) (xs ys : List Val) (acc : List Val × VDict) :
    addressesLoop env (xs ++ ys) acc = (addressesLoop env xs acc >>= fun acc => addressesLoop env ys acc) := by
  induction xs generalizing acc with
  | nil => rfl
  | cons v vs ih =>
    rw [List.cons_append]
    conv_lhs => rw [addressesLoop]
    conv_rhs => rw [addressesLoop]
    simp only [bind, Except.bind]
    cases parseIp env v (.int 32) with
    | error e => rfl
    | ok p =>
      cases p with
      | none => exact ih acc
      | some t =>
        dsimp only
        cases addressBack env t acc.2 with
        | error e => rfl
        | ok q => exact ih _

/-- the addresses of one version -/
theorem loop_version {env : Env} (v6 : Bool) (as : List Addr) (vs : List Val) (h : List.Forall₂ (ReadsAs env) vs as)
    (hr : ∀ a ∈ as, a.Readable env ∧ a.v6 = v6) (hg : GwOK env as) (acc : List Val) (d : VDict)
    (hd : Dict.get? d (gwKey v6) = ((as.filterMap (·.gw)).getLast?).map .str) :
    ∃ outs d', addressesLoop env vs (acc, d) = .ok (acc ++ outs.map .dict, d') ∧ List.Forall₂ (AddrOK env) as outs ∧
      ((Dict.keys d).Nodup → (Dict.keys d').Nodup) ∧ ∀ k, Dict.get? d' k = if k = gwKey v6 then none else Dict.get? d k := by
  have bares : ∀ as : List Addr, (∀ a ∈ as, a.Readable env ∧ a.gw = none) → List.Forall₂ (AddrOK env) as (as.map (fun a => a.bare env)) := by
    intro as ha
    induction as with
    | nil => exact .nil
    | cons a as ih => exact .cons (bare_ok (ha a (by simp)).1 (ha a (by simp)).2) (ih (fun a h => ha a (by simp [h])))
  rcases hg with hg | ⟨pre, a, post, g, i, rfl, ha, hno, hg1, hg2, hg3, hg4, hg5⟩
  · have hfm : as.filterMap (·.gw) = [] := by
      rw [List.filterMap_eq_nil_iff]; exact hg
    rw [hfm] at hd
    have hd : Dict.get? d (gwKey v6) = none := hd
    refine ⟨as.map (fun a => a.bare env), d, ?_, bares as (fun a ha => ⟨(hr a ha).1, hg a ha⟩), id, ?_⟩
    · rw [loop_none v6 as vs h (fun a ha => ⟨(hr a ha).1, (hr a ha).2, hg a ha⟩) acc d hd, List.map_map]; rfl
    · intro k
      split
      · next e => rw [e, hd]
      · rfl
  · have hfm : (pre ++ a :: post).filterMap (·.gw) = [g] := by
      have h1 : pre.filterMap (·.gw) = [] := by
        rw [List.filterMap_eq_nil_iff]; exact fun b hb => hno b (by simp [hb])
      have h2 : post.filterMap (·.gw) = [] := by
        rw [List.filterMap_eq_nil_iff]; exact fun b hb => hno b (by simp [hb])
      simp [List.filterMap_append, h1, h2, ha]
    rw [hfm] at hd
    have hd : Dict.get? d (gwKey v6) = some (.str g) := hd
    obtain ⟨vpre, vrest, rfl, hpre, hrest⟩ : ∃ vpre vrest, vs = vpre ++ vrest ∧ List.Forall₂ (ReadsAs env) vpre pre ∧
        List.Forall₂ (ReadsAs env) vrest (a :: post) := by
      clear hfm hd hno hg5 hr
      induction pre generalizing vs with
      | nil => exact ⟨[], vs, rfl, .nil, h⟩
      | cons b pre ih =>
        cases h with
        | cons h1 h2 =>
          obtain ⟨p, q, rfl, e1, e2⟩ := ih _ h2
          exact ⟨_ :: p, q, rfl, .cons h1 e1, e2⟩
    have hgt : (Val.str g).truthy = true := by
      simpa [Val.truthy] using hg1
    have hgate : ∀ b : Addr, b.v6 = v6 → ∀ n, gatewayBack env b.ip n d =
        .ok (if inNetwork i b.ip then (Dict.set n "gateway" (.str g), Dict.erase d (gwKey v6)) else (n, d)) := by
      intro b hb n
      unfold gatewayBack
      have : (if b.ip.v6 = true then "ip6gw" else "gateway") = gwKey v6 := by unfold gwKey; rw [← hb]; rfl
      simp only [this, hd, hgt, if_true, hg3, bind, Except.bind, pure, Except.pure]
    have loop_pre : ∀ (pre : List Addr) (vpre : List Val), List.Forall₂ (ReadsAs env) vpre pre → (∀ b ∈ pre, b.v6 = v6 ∧ ¬ SameNet i b) →
        ∀ acc, addressesLoop env vpre (acc, d) = .ok (acc ++ pre.map (fun a => Val.dict (a.bare env)), d) := by
      intro pre vpre hp hno
      induction hp with
      | nil => intro acc; simp [addressesLoop]
      | @cons v b vs bs h1 _ ih =>
        intro acc
        rw [addressBack_eq h1]
        have hb := hno b (by simp)
        simp only [hgate b hb.1, bind, Except.bind]
        rw [if_neg (by rw [inNetwork_iff]; exact hb.2)]
        rw [ih (fun b hb => hno b (by simp [hb]))]
        simp
    cases hrest with
    | @cons v _ vpost _ h1 h2 =>
      have hav := (hr a (by simp)).2
      refine ⟨pre.map (fun a => a.bare env) ++ Dict.set (a.bare env) "gateway" (.str g) :: post.map (fun a => a.bare env), Dict.erase d (gwKey v6), ?_, ?_, ?_, ?_⟩
      · rw [addressesLoop_append, loop_pre pre vpre hpre (fun b hb => ⟨(hr b (by simp [hb])).2, hg5 b hb⟩)]
        simp only [bind, Except.bind]
        rw [addressBack_eq h1]
        simp only [hgate a hav, bind, Except.bind]
        rw [if_pos ((inNetwork_iff _ _).2 hg4)]
        rw [loop_none v6 post vpost h2 (fun b hb => ⟨(hr b (by simp [hb])).1, (hr b (by simp [hb])).2, hno b (by simp [hb])⟩) _ _
          (by rw [Dict.get?_erase', if_pos rfl])]
        simp [List.map_map, Function.comp_def]
      · refine List.rel_append (bares pre (fun b hb => ⟨(hr b (by simp [hb])).1, hno b (by simp [hb])⟩)) ?_
        exact .cons (gate_ok (hr a (by simp)).1 ha) (bares post (fun b hb => ⟨(hr b (by simp [hb])).1, hno b (by simp [hb])⟩))
      · exact fun h => Dict.nodup_erase h _
      · intro k
        rw [Dict.get?_erase']

/-- the option the addresses of one version are read from -/
def addrOption (env : Env) (v6 : Bool) : List Addr → Option Val
  | [] => none
  | [a] => some (txt (if v6 then a.full env else a.host env))
  | l => some (.list (l.map (fun a => txt (a.full env))))

/-- the options the addresses of one version are read from -/
theorem addressOption_ok {env : Env} (v6 : Bool) (as : List Addr) (hr : ∀ a ∈ as, a.Readable env ∧ a.v6 = v6) (default : Int) (d : VDict)
    (h1 : Dict.get? d (if v6 then "ip6addr" else "ipaddr") = addrOption env v6 as)
    (h2 : ∀ a, v6 = false → as = [a] → Dict.get? d "netmask" = some (txt (showIp4 (mask4 a.plen)))) :
    ∃ vs d', addressOption env (if v6 then "ip6addr" else "ipaddr") default d = .ok (vs, d') ∧ List.Forall₂ (ReadsAs env) vs as ∧
      ((Dict.keys d).Nodup → (Dict.keys d').Nodup) ∧
      ∀ k, Dict.get? d' k = if k = (if v6 then "ip6addr" else "ipaddr") ∨ (k = "netmask" ∧ as.length = 1) then none else Dict.get? d k := by
  generalize hkey : (if v6 then "ip6addr" else "ipaddr") = key at h1 ⊢
  unfold addressOption popOr
  match as, hr, h1, h2 with
  | [], _, h1, _ =>
    refine ⟨[], Dict.erase d key, ?_, .nil, fun h => Dict.nodup_erase h _, ?_⟩
    · rw [h1]; rfl
    · intro k; rw [Dict.get?_erase']; simp
  | [a], hr, h1, h2 =>
    obtain ⟨ha, hv⟩ := hr a (by simp)
    have hkn : key ≠ "netmask" := by rw [← hkey]; cases v6 <;> decide
    have hfin : ∀ k, Dict.get? (Dict.erase (Dict.erase d key) "netmask") k =
        if k = key ∨ (k = "netmask" ∧ [a].length = 1) then none else Dict.get? d k := by
      intro k
      rw [Dict.get?_erase', Dict.get?_erase']
      by_cases e1 : k = key <;> by_cases e2 : k = "netmask" <;> simp [e1, e2]
    cases v6 with
    | false =>
      have hm : '/' ∉ showIp4 (mask4 a.plen) := showIp4_noSlash _
      refine ⟨[txt (a.host env ++ '/' :: showIp4 (mask4 a.plen))], _, ?_, .cons (reads_mask ha hv) .nil,
        fun h => Dict.nodup_erase (Dict.nodup_erase h _) _, hfin⟩
      rw [h1]
      have hne : showIp4 (mask4 a.plen) ≠ [] := by
        intro e
        have := showIp4_dot (mask4 a.plen)
        rw [e] at this
        exact absurd this (by simp)
      have hp : parseIp env (txt (a.host env)) (txt (showIp4 (mask4 a.plen))) = .ok (some (a.host env ++ '/' :: showIp4 (mask4 a.plen))) := by
        unfold parseIp txt
        simp only [String.toList_ofList]
        rw [if_neg ha.slash, if_neg ha.slash, if_pos ⟨ha.ne, txt_truthy hne⟩]
        simp [pyStr]
      have hnm : Dict.get? (Dict.erase d key) "netmask" = some (txt (showIp4 (mask4 a.plen))) := by
        rw [Dict.get?_erase', if_neg (Ne.symm hkn)]; exact h2 a rfl rfl
      simp only [Option.getD_some, Bool.false_eq_true, if_false, hnm]
      show (parseIp env (txt (a.host env)) (txt (showIp4 (mask4 a.plen))) >>= _) = _
      rw [hp]; rfl
    | true =>
      refine ⟨[txt (a.full env)], _, ?_, .cons (reads_full ha) .nil, fun h => Dict.nodup_erase (Dict.nodup_erase h _) _, hfin⟩
      rw [h1]
      simp only [Option.getD_some, if_true]
      show (parseIp env (txt (a.full env)) _ >>= _) = _
      have hp := parseIp_full env ha.slash (showNat_noSep a.plen _ (by decide)) ha.ne (showNat_ne_nil _)
        ((Dict.get? (Dict.erase d key) "netmask").getD (.int default))
      unfold Addr.full
      rw [hp]; rfl
  | a :: b :: l, hr, h1, _ =>
    refine ⟨(a :: b :: l).map (fun a => txt (a.full env)), Dict.erase d key, ?_, ?_, fun h => Dict.nodup_erase h _, ?_⟩
    · rw [h1]; rfl
    · clear h1
      generalize a :: b :: l = xs at hr
      induction xs with
      | nil => exact .nil
      | cons x xs ih => exact .cons (reads_full (hr x (by simp)).1) (ih (fun a ha => hr a (by simp [ha])))
    · intro k; rw [Dict.get?_erase']; simp

/-- the addresses that can be written and read -/
def GroupRead (env : Env) : Group → Prop
  | .static as => as ≠ [] ∧ (∀ a ∈ as, a.Readable env) ∧ ∀ v6, GwOK env (ofVersion v6 as)
  | _ => True

/-- the addresses as they come back: those of IPv4 first -/
def Group.back : Group → Group
  | .static as => .static (ofVersion false as ++ ofVersion true as)
  | g => g

/-- the options of addresses in a section -/
def addressKeys : List String := ["proto", "ipaddr", "netmask", "ip6addr", "gateway", "ip6gw"]

/-- The addresses of a section. -/
theorem addresses_backward {env : Env} {g : Group} {d : VDict} (hn : (Dict.keys d).Nodup) (hg : GroupRead env g)
    (hi : ∀ k ∈ ["proto", "ipaddr", "netmask", "ip6addr"], Dict.get? d k = groupItem env g k)
    (hw : ∀ v6, Dict.get? d (gwKey v6) = (groupGw g v6).map .str) (ha : Dict.get? d "addresses" = none) :
    ∃ d', addressesBack env d = .ok d' ∧ (Dict.keys d').Nodup ∧ HasGroup env d' g.back ∧ (∀ k ∈ addressKeys, Dict.get? d' k = none) ∧
      ∀ k, k ∉ addressKeys → k ≠ "addresses" → Dict.get? d' k = Dict.get? d k := by
  have hgw0 : Dict.get? d "gateway" = (groupGw g false).map .str := hw false
  have hgw1 : Dict.get? d "ip6gw" = (groupGw g true).map .str := hw true
  have hpr := hi "proto" (by simp)
  have hip := hi "ipaddr" (by simp)
  have hnm := hi "netmask" (by simp)
  have hi6 := hi "ip6addr" (by simp)
  clear hi
  cases g with
  | none =>
    simp only [groupItem, groupGw, String.reduceEq, if_true, if_false, Option.map_none] at hpr hip hnm hi6 hgw0 hgw1
    refine ⟨Dict.erase d "proto", ?_, Dict.nodup_erase hn _, ?_, ?_, ?_⟩
    · unfold addressesBack
      rw [hpr]
      simp only [Option.getD_some, asText, bind, Except.bind]
      have h1 : Dict.has (Dict.erase d "proto") "ipaddr" = false := by
        rw [Dict.has_eq, Dict.get?_erase', if_neg (by decide), hip]; rfl
      have h2 : Dict.has (Dict.erase d "proto") "ip6addr" = false := by
        rw [Dict.has_eq, Dict.get?_erase', if_neg (by decide), hi6]; rfl
      have hk : ("none".toList ∈ ["static".toList, "dhcp".toList, "dhcpv6".toList, "none".toList]) := by simp
      simp only [hk, if_true, h1, h2, and_self]; rfl
    · show Dict.get? _ _ = none
      rw [Dict.get?_erase', if_neg (by decide), ha]
    · intro k hk
      rw [Dict.get?_erase']
      simp only [addressKeys, List.mem_cons, List.not_mem_nil, or_false] at hk
      rcases hk with rfl | rfl | rfl | rfl | rfl | rfl <;> simp [hip, hnm, hi6, hgw0, hgw1]
    · intro k hk _
      rw [Dict.get?_erase', if_neg (by intro e; subst e; exact hk (by decide))]
  | dhcp v6 =>
    simp only [groupItem, groupGw, String.reduceEq, if_true, if_false, Option.map_none] at hpr hip hnm hi6 hgw0 hgw1
    obtain ⟨vs1, d1, e1, f1, n1, g1⟩ := addressOption_ok (env := env) false [] (by simp) 32 (Dict.erase d "proto")
      (by rw [Dict.get?_erase', if_neg (by decide)]; exact hip) (by simp)
    obtain ⟨vs2, d2, e2, f2, n2, g2⟩ := addressOption_ok (env := env) true [] (by simp) 128 d1
      (by rw [g1, Dict.get?_erase']; simpa [addrOption] using hi6) (by simp)
    cases f1; cases f2
    have hg2 : ∀ k, Dict.get? d2 k = if k ∈ ["proto", "ipaddr", "ip6addr"] then none else Dict.get? d k := by
      intro k
      rw [g2, g1, Dict.get?_erase']
      by_cases c1 : k = "proto" <;> by_cases c2 : k = "ipaddr" <;> by_cases c3 : k = "ip6addr" <;> simp [c1, c2, c3]
    refine ⟨Dict.set d2 "addresses" (.list [.dict [("proto", .str "dhcp"), ("family", .str (familyOf v6))]]), ?_,
      Dict.nodup_set (n2 (n1 (Dict.nodup_erase hn _))) _ _, ?_, ?_, ?_⟩
    · unfold addressesBack
      rw [hpr]
      have hk : (if v6 then "dhcpv6" else "dhcp").toList ∈ ["static".toList, "dhcp".toList, "dhcpv6".toList, "none".toList] := by
        cases v6 <;> simp
      have hno : (if v6 then "dhcpv6" else "dhcp").toList ≠ "none".toList := by cases v6 <;> decide
      have hpre : "dhcp".toList <+: (if v6 then "dhcpv6" else "dhcp").toList := by cases v6 <;> decide
      have hfam : (if (if v6 then "dhcpv6" else "dhcp").toList = "dhcp".toList then "ipv4" else "ipv6") = familyOf v6 := by
        cases v6 <;> decide
      simp only [Option.getD_some, asText, bind, Except.bind]
      simp only [hk, if_true, hno, and_false, if_false]
      unfold addAddresses
      simp only [Bool.false_eq_true, if_false, if_true] at e1 e2
      simp only [e1, bind, Except.bind, e2, List.append_nil, addressesLoop, hpre, if_true, hfam]
      rfl
    · refine ⟨_, by rw [Dict.get?_set', if_pos rfl], by simp, ?_⟩
      intro k
      simp only [Dict.get?_cons, Dict.get?_nil, dhcpItem]
      by_cases c1 : k = "proto"
      · subst c1; rfl
      by_cases c2 : k = "family"
      · subst c2; rfl
      rw [if_neg (Ne.symm c1), if_neg (Ne.symm c2), if_neg c1, if_neg c2]
    · intro k hk
      rw [Dict.get?_set', hg2]
      simp only [addressKeys, List.mem_cons, List.not_mem_nil, or_false] at hk
      rcases hk with rfl | rfl | rfl | rfl | rfl | rfl <;> simp [hnm, hgw0, hgw1]
    · intro k hk hk2
      rw [Dict.get?_set', if_neg hk2, hg2, if_neg]
      intro hm
      apply hk
      simp only [addressKeys, List.mem_cons, List.not_mem_nil, or_false] at hm ⊢
      rcases hm with h | h | h <;> simp [h]
  | static as =>
    obtain ⟨hne, hr, hgo⟩ := hg
    simp only [groupItem, staticItem, groupGw, gwOf, String.reduceEq, if_true, if_false] at hpr hip hnm hi6 hgw0 hgw1
    have hver : ∀ v6, ∀ a ∈ ofVersion v6 as, a.Readable env ∧ a.v6 = v6 := by
      intro v6 a ha
      obtain ⟨h1, h2⟩ := List.mem_filter.1 ha
      exact ⟨hr a h1, by simpa using h2⟩
    obtain ⟨vs1, d1, e1, f1, n1, g1⟩ := addressOption_ok (env := env) false (ofVersion false as) (hver false) 32 (Dict.erase d "proto")
      (by rw [Dict.get?_erase', if_neg (by decide)]
          refine hip.trans ?_
          rcases ofVersion false as with _ | ⟨a, _ | ⟨b, l⟩⟩ <;> rfl)
      (by intro a _ h1; rw [Dict.get?_erase', if_neg (by decide), hnm, h1])
    obtain ⟨vs2, d2, e2, f2, n2, g2⟩ := addressOption_ok (env := env) true (ofVersion true as) (hver true) 128 d1
      (by rw [g1, Dict.get?_erase', if_neg (by simp), if_neg (by decide)]
          refine hi6.trans ?_
          rcases ofVersion true as with _ | ⟨a, _ | ⟨b, l⟩⟩ <;> rfl) (by simp)
    have hnm' : ∀ k, k = "netmask" → (ofVersion false as).length ≠ 1 → Dict.get? d k = none := by
      intro k hk hl
      rw [hk, hnm]
      match h : ofVersion false as with
      | [] => rfl
      | [a] => rw [h] at hl; exact absurd rfl hl
      | a :: b :: l => rfl
    have hg2 : ∀ k, Dict.get? d2 k = if k ∈ ["proto", "ipaddr", "ip6addr", "netmask"] then none else Dict.get? d k := by
      intro k
      rw [g2, g1, Dict.get?_erase']
      by_cases c1 : k = "proto"
      · simp [c1]
      by_cases c2 : k = "ipaddr"
      · simp [c2]
      by_cases c3 : k = "ip6addr"
      · simp [c3]
      by_cases c4 : k = "netmask"
      · by_cases c5 : (ofVersion false as).length = 1
        · simp [c4, c5]
        · have := hnm' k c4 c5
          simp [c4, c5]
          intro _
          rw [← c4]; exact this
      · simp [c1, c2, c3, c4]
    obtain ⟨o1, d3, e3, f3, n3, g3⟩ := loop_version false _ vs1 f1 (hver false) (hgo false) [] d2 (by rw [hg2]; exact hgw0)
    obtain ⟨o2, d4, e4, f4, n4, g4⟩ := loop_version true _ vs2 f2 (hver true) (hgo true) (o1.map .dict) d3
      (by rw [g3, if_neg (by decide), hg2]; exact hgw1)
    have hg4 : ∀ k, Dict.get? d4 k = if k ∈ addressKeys then none else Dict.get? d k := by
      intro k
      rw [g4, g3, hg2]
      simp only [gwKey, if_true, Bool.false_eq_true, if_false, addressKeys, List.mem_cons, List.not_mem_nil, or_false]
      by_cases c1 : k = "proto"
      · simp [c1]
      by_cases c2 : k = "ipaddr"
      · simp [c2]
      by_cases c3 : k = "ip6addr"
      · simp [c3]
      by_cases c4 : k = "netmask"
      · simp [c4]
      simp [c1, c2, c3, c4]
      by_cases c5 : k = "gateway" <;> by_cases c6 : k = "ip6gw" <;> simp [c5, c6]
    have hlen : ofVersion false as ++ ofVersion true as ≠ [] := by
      intro e
      obtain ⟨x1, x2⟩ := List.append_eq_nil_iff.1 e
      apply hne
      cases as with
      | nil => rfl
      | cons a as =>
        exfalso
        unfold ofVersion at x1 x2
        rw [List.filter_eq_nil_iff] at x1 x2
        have y1 := x1 a (by simp)
        have y2 := x2 a (by simp)
        cases hv : a.v6 <;> simp [hv] at y1 y2
    have hall : List.Forall₂ (AddrOK env) (ofVersion false as ++ ofVersion true as) (o1 ++ o2) := List.rel_append f3 f4
    refine ⟨Dict.set d4 "addresses" (.list ((o1 ++ o2).map .dict)), ?_,
      Dict.nodup_set (n4 (n3 (n2 (n1 (Dict.nodup_erase hn _))))) _ _, ⟨hlen, _, by rw [Dict.get?_set', if_pos rfl], hall⟩, ?_, ?_⟩
    · unfold addressesBack
      rw [hpr]
      have hk : "static".toList ∈ ["static".toList, "dhcp".toList, "dhcpv6".toList, "none".toList] := by simp
      have hno : "static".toList ≠ "none".toList := by decide
      have hpre : ¬ "dhcp".toList <+: "static".toList := by decide
      simp only [Option.getD_some, asText, bind, Except.bind]
      simp only [hk, if_true, hno, and_false, if_false]
      unfold addAddresses
      simp only [Bool.false_eq_true, if_false, if_true] at e1 e2
      have hl : addressesLoop env (vs1 ++ vs2) ([], d2) = .ok ((o1 ++ o2).map .dict, d4) := by
        rw [addressesLoop_append, e3]
        simp only [bind, Except.bind, List.nil_append]
        rw [e4, List.map_append]
      simp only [e1, bind, Except.bind, e2, hpre, if_false, hl]
      have : ((o1 ++ o2).map Val.dict).isEmpty = false := by
        cases h : o1 ++ o2 with
        | nil => rw [h] at hall; cases hx : ofVersion false as ++ ofVersion true as with
          | nil => exact absurd hx hlen
          | cons a l => rw [hx] at hall; cases hall
        | cons x l => rfl
      simp only [this, Bool.false_eq_true, if_false]
      rfl
    · intro k hk
      rw [Dict.get?_set', hg4, if_pos hk, if_neg]
      intro e; subst e; revert hk; decide
    · intro k hk hk2
      rw [Dict.get?_set', if_neg hk2, hg4, if_neg hk]

end NJ
