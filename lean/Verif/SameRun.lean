import Verif.SameIfaces
import Verif.PropsIfaceItems
import Verif.OpenWrt

/-!
# The OpenWrt backend does not look at the order of the options
-/

namespace NJ

set_option linter.unusedVariables false
variable {env : Env} {X : Spec} {d e : VDict}

/-! ## Interfaces -/

/-- a bridge whose `vlan_filtering` is a list of VLANs and not an option -/
structure Filters (dsa : Bool) (d : VDict) : Prop where
  dsa : dsa = true
  type : Dict.get? d "type" = some (.str "bridge")
  proto : Dict.get? d "proto" ≠ some (.str "ppp")
  name : ∃ s : String, Dict.get? d "name" = some (.str s) ∧ '.' ∉ s.toList

/-- interfaces with the same options -/
structure SameIface (dsa : Bool) (d e : VDict) : Prop where
  same : SameD ifaceSpec d e
  filtering : Dict.get? d "vlan_filtering" = Dict.get? e "vlan_filtering" ∨ Filters dsa d ∧ Filters dsa e

inductive IfaceBlk (dsa : Bool) : Val → Val → Prop
  | same (v : Val) : (∀ d, v ≠ .dict d) → IfaceBlk dsa v v
  | dict {d e : VDict} : SameIface dsa d e → IfaceBlk dsa (.dict d) (.dict e)

theorem IfaceBlk.asDict {dsa : Bool} {v w : Val} (h : IfaceBlk dsa v w) : RelE (SameIface dsa) (asDict v) (asDict w) := by
  cases h with
  | dict h => exact .ok h
  | same _ h => cases v <;> first | exact .error _ | exact absurd rfl (h _)

theorem IfaceBlk.blk {dsa : Bool} {v w : Val} (h : IfaceBlk dsa v w) : Blk ifaceSpec v w := by
  cases h with
  | dict h => exact .dict h.same
  | same _ h => exact .same _ h

/-- addresses change only gateways -/
theorem addresses_keep {b b' : VDict} {gs : List VDict} (h : ifaceAddresses env b = .ok (b', gs)) {k : String} (h1 : k ≠ "addresses")
    (h2 : k ≠ "gateway") (h3 : k ≠ "ip6gw") : Dict.get? b' k = Dict.get? b k := by
  unfold ifaceAddresses at h
  split at h
  · unfold wgAddresses at h
    obtain ⟨⟨v, i⟩, e1, h⟩ := bind_ok_iff.1 h
    obtain ⟨_, rfl⟩ := popKey_inv' e1
    dsimp only at h
    split at h
    · obtain ⟨l, e2, h⟩ := bind_ok_iff.1 h
      have := pure_ok_iff.1 h
      rw [Prod.mk.injEq] at this
      rw [← this.1, Dict.get?_erase', if_neg h1]
    · cases h
  · dsimp only at h
    split at h
    · split at h
      · rename_i l _
        obtain ⟨acc, e2, h⟩ := bind_ok_iff.1 h
        obtain ⟨s, e3, h⟩ := bind_ok_iff.1 h
        have := pure_ok_iff.1 h
        rw [Prod.mk.injEq] at this
        rw [← this.1]
        have key : ∀ (l : List Val) (a acc : AddrAcc), l.foldlM (addressStep env) a = .ok acc → Dict.get? a.interface k = Dict.get? b k →
            Dict.get? acc.interface k = Dict.get? b k := by
          intro l
          induction l with
          | nil =>
            intro a acc h hk
            rw [List.foldlM_nil] at h
            rw [← pure_ok_iff.1 h]
            exact hk
          | cons x l ih =>
            intro a acc h hk
            rw [List.foldlM_cons] at h
            obtain ⟨a', e4, h⟩ := bind_ok_iff.1 h
            refine ih a' acc h ?_
            unfold addressStep at e4
            obtain ⟨x', _, e4⟩ := bind_ok_iff.1 e4
            obtain ⟨p, _, e4⟩ := bind_ok_iff.1 e4
            dsimp only at e4
            split at e4
            · rw [← pure_ok_iff.1 e4]; exact hk
            · obtain ⟨t, _, e4⟩ := bind_ok_iff.1 e4
              obtain ⟨s, _, e4⟩ := bind_ok_iff.1 e4
              rw [← pure_ok_iff.1 e4]
              unfold gatewayStep
              dsimp only
              split
              · rw [Dict.get?_set, if_neg]
                · exact hk
                · split
                  · exact Ne.symm h2
                  · exact Ne.symm h3
              · exact hk
        exact key l _ acc e2 rfl
      · cases h
    · obtain ⟨t, e2, h⟩ := bind_ok_iff.1 h
      have := pure_ok_iff.1 h
      rw [Prod.mk.injEq] at this
      rw [← this.1]

theorem Filters.congr {dsa : Bool} {b b' : VDict} (h : Filters dsa b) (hk : ∀ k, k ≠ "addresses" → k ≠ "gateway" → k ≠ "ip6gw" → Dict.get? b' k = Dict.get? b k) :
    Filters dsa b' :=
  ⟨h.dsa, (hk _ (by decide) (by decide) (by decide)).trans h.type, fun q => h.proto ((hk _ (by decide) (by decide) (by decide)).symm.trans q),
    h.name.elim fun s hs => ⟨s, (hk _ (by decide) (by decide) (by decide)).trans hs.1, hs.2⟩⟩

theorem Filters.uses {dsa : Bool} {vlans : List Val} {b : VDict} (hd : Dotted vlans) (h : Filters dsa b) : usesDevice dsa vlans b = true := by
  obtain ⟨s, hs, hdot⟩ := h.name
  unfold usesDevice ownProto
  rw [h.dsa, h.type, hs]
  have h1 : Val.str s ∉ vlans := fun q => by
    obtain ⟨t, ht, hq⟩ := hd _ q
    rw [Val.str.inj ht] at hdot
    exact hdot hq
  have hk : kindOf b = "bridge".toList := by
    unfold kindOf
    rw [h.type]
    decide
  simp [hk, h1, h.proto, dsaTypes]

theorem mapM_from {α β : Type} {f : α → Except PyErr β} {l : List α} {r : List β} (h : l.mapM f = .ok r) {y : β} (hy : y ∈ r) :
    ∃ x, x ∈ l ∧ f x = .ok y := by
  induction l generalizing r with
  | nil => cases Except.ok.inj h; cases hy
  | cons a l ih =>
    rw [List.mapM_cons] at h
    obtain ⟨b, e1, h⟩ := bind_ok_iff.1 h
    obtain ⟨bs, e2, h⟩ := bind_ok_iff.1 h
    rw [← pure_ok_iff.1 h] at hy
    rcases List.mem_cons.1 hy with rfl | hy
    · exact ⟨a, List.mem_cons_self .., e1⟩
    · obtain ⟨x, hx, e3⟩ := ih e2 hy
      exact ⟨x, List.mem_cons_of_mem _ hx, e3⟩

/-- the devices of VLANs have a dot -/
theorem dsaSections_dotted {vlans vlans' : List Val} {uci : Chars} {i j r r' : VDict} (hd : Dotted vlans)
    (h : dsaSections env vlans uci i r = .ok (j, vlans', r')) : Dotted vlans' := by
  unfold dsaSections at h
  dsimp only at h
  obtain ⟨⟨c, f⟩, _, h⟩ := bind_ok_iff.1 h
  dsimp only at h
  obtain ⟨l, _, h⟩ := bind_ok_iff.1 h
  obtain ⟨vs, e1, h⟩ := bind_ok_iff.1 h
  obtain ⟨_, _, h⟩ := bind_ok_iff.1 h
  obtain ⟨_, _, h⟩ := bind_ok_iff.1 h
  have := pure_ok_iff.1 h
  rw [Prod.mk.injEq, Prod.mk.injEq] at this
  rw [← this.2.1]
  intro v hv
  rcases List.mem_append.1 hv with hv | hv
  · exact hd v hv
  · obtain ⟨x, hx, rfl⟩ := List.mem_map.1 hv
    obtain ⟨w, _, hw⟩ := mapM_from e1 hx
    unfold vlanSections at hw
    obtain ⟨_, _, hw⟩ := bind_ok_iff.1 hw
    obtain ⟨_, _, hw⟩ := bind_ok_iff.1 hw
    obtain ⟨_, _, hw⟩ := bind_ok_iff.1 hw
    dsimp only at hw
    obtain ⟨_, _, hw⟩ := bind_ok_iff.1 hw
    rw [← pure_ok_iff.1 hw]
    refine ⟨_, rfl, ?_⟩
    rw [String.toList_append, String.toList_append]
    simp

theorem ifaceFwd_dotted {sh : Val → Bool} {dsa : Bool} {config : VDict} {a b : List Val × VDict} {v : Val} (hd : Dotted a.1)
    (h : ifaceFwd sh env dsa config a v = .ok b) : Dotted b.1 := by
  unfold ifaceFwd at h
  obtain ⟨_, _, h⟩ := bind_ok_iff.1 h
  obtain ⟨_, _, h⟩ := bind_ok_iff.1 h
  obtain ⟨_, _, h⟩ := bind_ok_iff.1 h
  dsimp only at h
  obtain ⟨⟨_, _⟩, _, h⟩ := bind_ok_iff.1 h
  dsimp only at h
  obtain ⟨_, _, h⟩ := bind_ok_iff.1 h
  obtain ⟨⟨_, vs, _⟩, e1, h⟩ := bind_ok_iff.1 h
  dsimp only at h
  obtain ⟨_, _, h⟩ := bind_ok_iff.1 h
  rw [← pure_ok_iff.1 h]
  split at e1
  · exact dsaSections_dotted hd e1
  · have := pure_ok_iff.1 e1
    rw [Prod.mk.injEq, Prod.mk.injEq] at this
    rw [← this.2.1]
    exact hd

theorem same_section {dsa : Bool} {vlans : List Val} {uci : Chars} {i j : VDict} (hdot : Dotted vlans)
    (hf : Dict.get? d "vlan_filtering" = Dict.get? e "vlan_filtering" ∨ Filters dsa d) (h1 : ifaceBlock env dsa vlans uci d = .ok i)
    (h2 : ifaceBlock env dsa vlans uci e = .ok j) (h : SameD sectionSpec i j) : isDsa dsa vlans i = true ∨ SameD flat i j := by
  obtain ⟨hO, w, hw⟩ := block_options hdot h1
  obtain ⟨hO', w', hw'⟩ := block_options hdot h2
  rcases hf with hf | hf
  · refine .inr (sameD_shrink h (fun k hk _ => ?_) fun _ q => nomatch q)
    cases List.mem_singleton.1 hk
    rw [hO, hO', blockOption_plain (by decide), blockOption_plain (by decide), named_plain (by decide), named_plain (by decide), hf]
  · exact .inl (by rw [isDsa_uses hO hw]; exact hf.uses hdot)

/-- keeps the equation with the result -/
theorem relE_bind_eq {α β γ δ : Type} {R : α → β → Prop} {S : γ → δ → Prop} {x : Except PyErr α} {y : Except PyErr β} {f : α → Except PyErr γ} {g : β → Except PyErr δ}
    (h : RelE R x y) (hf : ∀ a b, x = .ok a → y = .ok b → R a b → RelE S (f a) (g b)) : RelE S (x >>= f) (y >>= g) := by
  cases h with
  | ok h => exact hf _ _ rfl rfl h
  | error e => exact .error e

theorem same_ifaceFwd {sh : Val → Bool} {dsa : Bool} {c c' : VDict} {a : List Val × VDict} {v w : Val} (h1 : Dict.get? c "dns_servers" = Dict.get? c' "dns_servers")
    (h2 : Dict.get? c "dns_search" = Dict.get? c' "dns_search") (hdot : Dotted a.1) (h : IfaceBlk dsa v w) :
    RelE Eq (ifaceFwd sh env dsa c a v) (ifaceFwd sh env dsa c' a w) := by
  unfold ifaceFwd
  refine relE_bind h.asDict fun b b' hb => ?_
  dsimp only
  rw [hb.same.get (k := "network") (by decide)]
  refine relE_bind (R := Eq) (relE_ite Iff.rfl (fun _ => relE_refl _) fun _ => relE_getKey hb.same (by decide)) fun n n' hn => ?_
  subst hn
  refine relE_bind (relE_refl _) fun u u' hu => ?_
  subst hu
  refine relE_bind_eq (same_ifaceAddresses hb.same) ?_
  rintro ⟨x, gs⟩ ⟨x', gs'⟩ ex ex' ⟨hx, hg⟩
  dsimp only at hx hg ⊢
  refine relE_bind_eq (same_ifaceBlock hx) fun i j ei ej hij => ?_
  have hf : Dict.get? x "vlan_filtering" = Dict.get? x' "vlan_filtering" ∨ Filters dsa x := by
    rcases hb.filtering with hf | hf
    · left
      rw [addresses_keep ex (by decide) (by decide) (by decide), addresses_keep ex' (by decide) (by decide) (by decide), hf]
    · exact .inr (hf.1.congr fun k q1 q2 q3 => addresses_keep ex q1 q2 q3)
  rw [← same_isDsa hij]
  have hd : RelE (RelP (SameD flat) Eq)
      (if isDsa dsa a.1 i = true then dsaSections env a.1 (uciName u) i a.2 else pure (i, a.1, a.2))
      (if isDsa dsa a.1 i = true then dsaSections env a.1 (uciName u) j a.2 else pure (j, a.1, a.2)) := by
    refine relE_ite Iff.rfl (fun _ => same_dsaSections hij) fun hn => ?_
    rcases same_section hdot hf ei ej hij with q | q
    · exact absurd q hn
    · exact .ok ⟨q, rfl⟩
  refine relE_bind hd ?_
  rintro ⟨i, vs, r⟩ ⟨j, vs', r'⟩ ⟨q1, q2⟩
  dsimp only at q1 q2 ⊢
  rw [Prod.mk.injEq] at q2
  obtain ⟨rfl, rfl⟩ := q2
  refine relE_bind (same_addSections h1 h2 q1 hg) fun s t hst => ?_
  rw [hst]
  exact .ok rfl

theorem same_ifacesLoop {sh : Val → Bool} {dsa : Bool} {c c' : VDict} {a : List Val × VDict} {l m : List Val} (h1 : Dict.get? c "dns_servers" = Dict.get? c' "dns_servers")
    (h2 : Dict.get? c "dns_search" = Dict.get? c' "dns_search") (hdot : Dotted a.1) (h : List.Forall₂ (IfaceBlk dsa) l m) :
    RelE Eq (l.foldlM (ifaceFwd sh env dsa c) a) (m.foldlM (ifaceFwd sh env dsa c') a) := by
  induction h generalizing a with
  | nil => exact relE_refl _
  | cons h _ ih =>
    rw [List.foldlM_cons, List.foldlM_cons]
    refine relE_bind_eq (same_ifaceFwd h1 h2 hdot h) fun s t e1 e2 hst => ?_
    subst hst
    exact ih (ifaceFwd_dotted hdot e1)

/-! ## The configuration -/

/-- a list of related values, or related values that are not lists -/
inductive EachV (R : Val → Val → Prop) : Val → Val → Prop
  | list {l m : List Val} : List.Forall₂ R l m → EachV R (.list l) (.list m)
  | one {v w : Val} : (∀ l, v ≠ .list l) → (∀ l, w ≠ .list l) → R v w → EachV R v w

theorem Sec.each {v w : Val} (h : Sec X v w) : EachV (Blk X) v w := by
  cases h with
  | same _ h1 h2 => exact .one h2 h2 (.same _ h1)
  | dict h => exact .one (fun _ q => nomatch q) (fun _ q => nomatch q) (.dict h)
  | list h => exact .list h

theorem EachV.mono {R S : Val → Val → Prop} {v w : Val} (h : EachV R v w) (hrs : ∀ v w, R v w → S v w) : EachV S v w := by
  cases h with
  | list h => exact .list (h.imp hrs)
  | one h1 h2 h => exact .one h1 h2 (hrs _ _ h)

theorem same_fwdList {R : Val → Val → Prop} {loop : Option Nat → Val → VDict → Except PyErr VDict} (hl : ∀ i v w r, R v w → RelE Eq (loop i v r) (loop i w r))
    {i : Nat} {r : VDict} {l m : List Val} (h : List.Forall₂ R l m) : RelE Eq (fwdList loop i r l) (fwdList loop i r m) := by
  induction h generalizing i r with
  | nil => exact relE_refl _
  | cons h _ ih =>
    rw [fwdList, fwdList]
    refine relE_bind (hl _ _ _ _ h) fun s t hst => ?_
    subst hst
    exact ih

theorem same_fwd {R : Val → Val → Prop} {loop : Option Nat → Val → VDict → Except PyErr VDict} (hl : ∀ i v w r, R v w → RelE Eq (loop i v r) (loop i w r))
    {key : String} {c c' : VDict} (h : EachV R ((Dict.get? c key).getD .none) ((Dict.get? c' key).getD .none)) : RelE Eq (fwd key loop c) (fwd key loop c') := by
  unfold fwd
  generalize (Dict.get? c key).getD .none = v at h ⊢
  generalize (Dict.get? c' key).getD .none = w at h ⊢
  cases h with
  | list h => exact same_fwdList hl h
  | one h1 h2 h =>
    split
    · exact absurd rfl (h1 _)
    · exact hl _ _ _ _ h

/-- how the values of a key of the configuration are related -/
def topRel (dsa : Bool) (k : String) : Val → Val → Prop :=
  if k = "dns_servers" ∨ k = "dns_search" then Eq
  else if k = "interfaces" then EachV (IfaceBlk dsa)
  else if k = "switch" then Sec switchSpec
  else if k = "openvpn" then Sec vpnSpec
  else if k = "zerotier" then Sec ztSpec
  else Sec flat

/-- configurations with the same data -/
structure TopSame (dsa : Bool) (c c' : VDict) : Prop where
  left : (Dict.keys c).Nodup
  right : (Dict.keys c').Nodup
  at' : ∀ k, OptRel (topRel dsa k) (Dict.get? c k) (Dict.get? c' k)

/-- both fail, or both succeed with the same result and leave configurations with the same data -/
inductive SameRun {α : Type} (dsa : Bool) : VDict × Except PyErr α → VDict × Except PyErr α → Prop
  | ok {c c' : VDict} (r : α) : TopSame dsa c c' → SameRun dsa (c, .ok r) (c', .ok r)
  | error (c c' : VDict) (e e' : PyErr) : SameRun dsa (c, .error e) (c', .error e')

structure ConvSame (dsa : Bool) (conv : Conv) : Prop where
  should : ∀ {c c' : VDict}, TopSame dsa c c' → conv.should c = conv.should c'
  run : ∀ {c c' : VDict} (inter : VDict), TopSame dsa c c' → SameRun dsa (conv.run c inter) (conv.run c' inter)

theorem TopSame.has {dsa : Bool} {c c' : VDict} (h : TopSame dsa c c') (k : String) : Dict.has c k = Dict.has c' k := by
  rw [Dict.has_eq, Dict.has_eq]
  have := h.at' k
  generalize Dict.get? c k = a at this ⊢
  generalize Dict.get? c' k = b at this ⊢
  cases this with
  | none => rfl
  | some _ => rfl

theorem TopSame.sec {dsa : Bool} {c c' : VDict} (h : TopSame dsa c c') {k : String} {X : Spec} (hk : topRel dsa k = Sec X) :
    Sec X ((Dict.get? c k).getD .none) ((Dict.get? c' k).getD .none) := optRel_getD (hk ▸ h.at' k) sec_none

theorem sameRun_pure {α : Type} {dsa : Bool} {c c' : VDict} {x y : Except PyErr α} (h : TopSame dsa c c') (hx : RelE Eq x y) : SameRun dsa (c, x) (c', y) := by
  cases hx with
  | ok h' => rw [h']; exact .ok _ h
  | error e => exact .error _ _ _ _

theorem convSame_pure {dsa : Bool} {key : String} {run : VDict → VDict → Except PyErr VDict}
    (h : ∀ c c' inter, TopSame dsa c c' → RelE Eq (run c inter) (run c' inter)) : ConvSame dsa (pureConv key run) :=
  ⟨fun h => h.has key, fun {c c'} inter hc => sameRun_pure hc (h c c' inter hc)⟩

theorem convSame_fwd {dsa : Bool} {X : Spec} {key : String} {loop : Option Nat → Val → VDict → Except PyErr VDict} (hk : topRel dsa key = Sec X)
    (hl : ∀ i v w r, Blk X v w → RelE Eq (loop i v r) (loop i w r)) : ConvSame dsa (pureConv key (fun config _ => fwd key loop config)) :=
  convSame_pure fun c c' inter hc => same_fwd hl (hc.sec hk).each

theorem TopSame.dns {dsa : Bool} {c c' : VDict} (h : TopSame dsa c c') {k : String} (hk : topRel dsa k = Eq) : Dict.get? c k = Dict.get? c' k := by
  have := h.at' k
  rw [hk] at this
  generalize Dict.get? c k = a at this ⊢
  generalize Dict.get? c' k = b at this ⊢
  cases this with
  | none => rfl
  | some q => rw [q]

theorem TopSame.ifaces {dsa : Bool} {c c' : VDict} (h : TopSame dsa c c') :
    EachV (IfaceBlk dsa) ((Dict.get? c "interfaces").getD .none) ((Dict.get? c' "interfaces").getD .none) :=
  optRel_getD (h.at' "interfaces") (.one (fun _ q => nomatch q) (fun _ q => nomatch q) (.same _ fun _ q => nomatch q))

theorem convSame_ifaces {sh : Val → Bool} {dsa : Bool} : ConvSame dsa (ifacesConv sh env dsa) := by
  refine convSame_pure fun c c' inter hc => ?_
  unfold ifacesRun
  have h1 := hc.dns (k := "dns_servers") rfl
  have h2 := hc.dns (k := "dns_search") rfl
  have h := hc.ifaces
  generalize (Dict.get? c "interfaces").getD .none = v at h ⊢
  generalize (Dict.get? c' "interfaces").getD .none = w at h ⊢
  have hd : Dotted ([] : List Val) := fun _ q => nomatch q
  cases h with
  | list h =>
    refine relE_bind (same_ifacesLoop h1 h2 hd h) fun s t hst => ?_
    rw [hst]
    exact .ok rfl
  | one q1 q2 h =>
    have : RelE Eq (ifaceFwd sh env dsa c ([], []) v) (ifaceFwd sh env dsa c' ([], []) w) := same_ifaceFwd h1 h2 hd h
    split
    · exact absurd rfl (q1 _)
    · refine relE_bind this fun s t hst => ?_
      rw [hst]
      exact .ok rfl

theorem convSame_wireless {dsa : Bool} : ConvSame dsa (wirelessConv env dsa) := by
  refine convSame_pure fun c c' inter hc => ?_
  unfold wirelessRun
  refine relE_bind (relE_refl _) fun s t hst => ?_
  subst hst
  exact same_fwd (R := Blk ifaceSpec) (loop := wirelessFwd env s) (fun i v w r h => same_wirelessFwd h) (hc.ifaces.mono fun _ _ h => h.blk)

end NJ
