import Verif.SameValid

/-!
# C83: the order of the keys of a configuration means nothing (OpenWrt)

Two configurations that are the same JSON data (`SameJson`: objects compare without order) are accepted or refused together, are rendered to the
same text, and give the same archive members, when dictionaries are found only where the NetJSON schema of OpenWrt defines them (`Tidy`).
-/

namespace NJ

set_option linter.unusedVariables false

/-! ## Specification -/

mutual
def noDict : Val → Bool
  | .dict _ => false
  | .list l => noDictL l
  | _ => true
  termination_by structural v => v
def noDictL : List Val → Bool
  | [] => true
  | v :: vs => noDict v && noDictL vs
  termination_by structural v => v
end

/-- a value without any dictionary in it -/
def NoDict (v : Val) : Prop := noDict v = true

/-- no dictionary under any key but the special ones -/
def Options (special : List String) (d : VDict) : Prop := ∀ p ∈ d, p.1 ∉ special → NoDict p.2

/-- what is found under a key, if anything -/
def At (d : VDict) (k : String) (P : Val → Prop) : Prop :=
  match Dict.get? d k with
  | some v => P v
  | none => True

/-- a block, a list of blocks, or no dictionary at all -/
def Blocks (P : VDict → Prop) : Val → Prop
  | .dict d => P d
  | .list l => ∀ x ∈ l, match x with
    | .dict d => P d
    | x => NoDict x
  | _ => True

/-- a block with no dictionary in it -/
def Simple (d : VDict) : Prop := Options [] d

/-- a block with simple blocks under some keys -/
def Nested (keys : List String) (d : VDict) : Prop := Options keys d ∧ ∀ k ∈ keys, At d k (Blocks Simple)

/-- an interface that filters VLANs: only in the newer syntax (DSA), and not when the interface already stands for a VLAN (`br.10`) -/
def FiltersVlans (dsa : Bool) (d : VDict) : Prop :=
  dsa = true ∧ Dict.get? d "type" = some (.str "bridge") ∧ Dict.get? d "proto" ≠ some (.str "ppp") ∧
    (match Dict.get? d "name" with
      | some (.str s) => '.' ∉ s.toList
      | _ => False)

/-- an interface: addresses, wireless (with encryption), VLANs (with ports) -/
def TidyIface (dsa : Bool) (d : VDict) : Prop :=
  Options ["addresses", "wireless", "vlan_filtering"] d ∧ At d "addresses" (Blocks Simple) ∧ At d "wireless" (Blocks (Nested ["encryption"])) ∧
    At d "vlan_filtering" (fun v => NoDict v ∨ FiltersVlans dsa d ∧ Blocks (Nested ["ports"]) v)

/-- what is expected under a key of the configuration -/
def TidyAt (dsa : Bool) (k : String) : Val → Prop :=
  if k = "dns_servers" ∨ k = "dns_search" then NoDict
  else if k = "interfaces" then Blocks (TidyIface dsa)
  else if k = "switch" then Blocks (Nested ["vlan"])
  else if k = "openvpn" then Blocks (Nested ["remote", "data_ciphers"])
  else if k = "zerotier" then Blocks (Nested ["networks"])
  else Blocks Simple

/-- dictionaries only where the schema defines them -/
def Tidy (dsa : Bool) (c : VDict) : Prop := ∀ p ∈ c, TidyAt dsa p.1 p.2

/-- the same result, or both raise an exception -/
def SameOutcome {α : Type} (x y : Except PyErr α) : Prop := (∃ r, x = .ok r ∧ y = .ok r) ∨ ∃ e e', x = .error e ∧ y = .error e'

/-! ## Proofs -/

theorem noDictL_iff {l : List Val} : noDictL l = true ↔ ∀ v ∈ l, NoDict v := by
  induction l with
  | nil => exact ⟨fun _ _ q => (nomatch q), fun _ => rfl⟩
  | cons v l ih => rw [noDictL, Bool.and_eq_true, ih, List.forall_mem_cons]; rfl

theorem noDict_eq {v w : Val} (h : SameJson v w) (hv : NoDict v) : v = w := by
  induction h with
  | none => rfl
  | bool _ => rfl
  | int _ => rfl
  | str _ => rfl
  | dict => cases hv
  | list a b hl hr ih =>
    have ha := noDictL_iff.1 hv
    refine congrArg _ (List.ext_getElem hl fun i h1 h2 => ?_)
    exact ih i _ _ (List.getElem?_eq_getElem h1) (List.getElem?_eq_getElem h2) (ha _ (List.getElem_mem h1))

theorem sameD_of {X : Spec} {d e : VDict} (h : SameJson (.dict d) (.dict e)) (hd : (Val.dict d).WF) (he : (Val.dict e).WF) (ho : Options X.keys d)
    (hs : ∀ k ∈ X.keys, ∀ v w, Dict.get? d k = some v → SameJson v w → v.WF → w.WF → X.rel k v w) : SameD X d e := by
  cases h with
  | dict _ _ hk hr =>
    refine ⟨hd.nodup, he.nodup, fun k hx => ?_, fun k hx => ?_⟩
    · cases h1 : Dict.get? d k with
      | none => rw [(hk k).1 h1]
      | some v =>
        cases h2 : Dict.get? e k with
        | none => rw [(hk k).2 h2] at h1; cases h1
        | some w => rw [noDict_eq (hr k v w h1 h2) (ho _ (Dict.mem_of_get? h1) hx)]
    · cases h1 : Dict.get? d k with
      | none => rw [(hk k).1 h1]; exact .none
      | some v =>
        cases h2 : Dict.get? e k with
        | none => rw [(hk k).2 h2] at h1; cases h1
        | some w => exact .some (hs k hx v w h1 (hr k v w h1 h2) (hd.of_get? h1) (he.of_get? h2))

theorem forall₂_of {R : Val → Val → Prop} {l m : List Val} (hl : l.length = m.length)
    (h : ∀ (i : Nat) x y, l[i]? = some x → m[i]? = some y → R x y) : List.Forall₂ R l m := by
  induction l generalizing m with
  | nil => cases m with
    | nil => exact .nil
    | cons _ _ => cases hl
  | cons a l ih =>
    cases m with
    | nil => cases hl
    | cons b m => exact .cons (h 0 a b rfl rfl) (ih (by simpa using hl) fun i x y hx hy => h (i + 1) x y (by simpa using hx) (by simpa using hy))

theorem sec_of {X : Spec} {P : VDict → Prop} {v w : Val} (h : SameJson v w) (hv : v.WF) (hw : w.WF) (hb : Blocks P v)
    (hp : ∀ d e, P d → SameJson (.dict d) (.dict e) → (Val.dict d).WF → (Val.dict e).WF → SameD X d e) : Sec X v w := by
  have h' := h
  cases h with
  | none => exact .same _ (fun _ q => nomatch q) (fun _ q => nomatch q)
  | bool _ => exact .same _ (fun _ q => nomatch q) (fun _ q => nomatch q)
  | int _ => exact .same _ (fun _ q => nomatch q) (fun _ q => nomatch q)
  | str _ => exact .same _ (fun _ q => nomatch q) (fun _ q => nomatch q)
  | dict d e => exact .dict (hp d e hb h' hv hw)
  | list a b hl hr =>
    refine .list (forall₂_of hl fun i x y hx hy => ?_)
    have h1 := hb x (List.mem_of_getElem? hx)
    have h2 := hr i x y hx hy
    have wx := hv.mem x (List.mem_of_getElem? hx)
    have wy := hw.mem y (List.mem_of_getElem? hy)
    cases x with
    | dict d =>
      cases y with
      | dict e => exact .dict (hp d e h1 h2 wx wy)
      | _ => cases h2
    | _ => rw [← noDict_eq h2 h1]; exact .same _ fun _ q => nomatch q

theorem simple_same {d e : VDict} (hs : Simple d) (h : SameJson (.dict d) (.dict e)) (hd : (Val.dict d).WF) (he : (Val.dict e).WF) : SameD flat d e :=
  sameD_of h hd he hs fun _ q => nomatch q

theorem at_get {d : VDict} {k : String} {P : Val → Prop} (h : At d k P) {v : Val} (hv : Dict.get? d k = some v) : P v := by
  rw [At, hv] at h
  exact h

theorem nested_same {keys : List String} {d e : VDict} (hs : Nested keys d) (h : SameJson (.dict d) (.dict e)) (hd : (Val.dict d).WF) (he : (Val.dict e).WF) :
    SameD ⟨keys, fun _ => Sec flat⟩ d e :=
  sameD_of h hd he hs.1 fun k hk v w hv hvw wv ww => sec_of hvw wv ww (at_get (hs.2 k hk) hv) fun _ _ => simple_same

theorem FiltersVlans.filters {dsa : Bool} {d : VDict} (h : FiltersVlans dsa d) : Filters dsa d := by
  obtain ⟨h1, h2, h3, h4⟩ := h
  refine ⟨h1, h2, h3, ?_⟩
  split at h4
  · rename_i s hs
    exact ⟨s, hs, h4⟩
  · cases h4

theorem iface_same {dsa : Bool} {d e : VDict} (ht : TidyIface dsa d) (h : SameJson (.dict d) (.dict e)) (hd : (Val.dict d).WF) (he : (Val.dict e).WF) :
    SameIface dsa d e := by
  obtain ⟨h1, h2, h3, h4⟩ := ht
  have hs : SameD ifaceSpec d e := by
    refine sameD_of h hd he h1 fun k hk v w hv hvw wv ww => ?_
    simp only [ifaceSpec, List.mem_cons, List.not_mem_nil, or_false] at hk
    rcases hk with rfl | rfl | rfl
    · exact sec_of hvw wv ww (at_get h2 hv) fun _ _ => simple_same
    · exact sec_of hvw wv ww (at_get h3 hv) fun _ _ => nested_same
    · show Sec vlanSpec v w
      rcases at_get h4 hv with q | q
      · rw [← noDict_eq hvw q]
        cases v with
        | dict d => cases q
        | list l => exact .list (forall₂_of rfl fun i x y hx hy => by
            rw [hx] at hy
            cases hy
            have := noDictL_iff.1 q x (List.mem_of_getElem? hx)
            exact .same _ fun d e => by rw [e] at this; cases this)
        | _ => exact .same _ (fun _ q => nomatch q) (fun _ q => nomatch q)
      · exact sec_of hvw wv ww q.2 fun _ _ => nested_same
  refine ⟨hs, ?_⟩
  cases h with
  | dict _ _ hk hr =>
    cases hv : Dict.get? d "vlan_filtering" with
    | none => exact .inl ((hk _).1 hv).symm
    | some v =>
      cases hw : Dict.get? e "vlan_filtering" with
      | none => rw [(hk _).2 hw] at hv; cases hv
      | some w =>
        rcases at_get h4 hv with q | q
        · exact .inl (by rw [noDict_eq (hr _ _ _ hv hw) q])
        · have hf := q.1.filters
          obtain ⟨s, hs1, hs2⟩ := hf.name
          exact .inr ⟨hf, hf.dsa, (hs.get (by decide)).symm.trans hf.type, fun q => hf.proto ((hs.get (by decide)).trans q), s, (hs.get (by decide)).symm.trans hs1, hs2⟩

theorem eachV_of {dsa : Bool} {v w : Val} (h : SameJson v w) (hv : v.WF) (hw : w.WF) (hb : Blocks (TidyIface dsa) v) : EachV (IfaceBlk dsa) v w := by
  have h' := h
  cases h with
  | none => exact .one (fun _ q => nomatch q) (fun _ q => nomatch q) (.same _ (fun _ q => nomatch q))
  | bool _ => exact .one (fun _ q => nomatch q) (fun _ q => nomatch q) (.same _ (fun _ q => nomatch q))
  | int _ => exact .one (fun _ q => nomatch q) (fun _ q => nomatch q) (.same _ (fun _ q => nomatch q))
  | str _ => exact .one (fun _ q => nomatch q) (fun _ q => nomatch q) (.same _ (fun _ q => nomatch q))
  | dict d e => exact .one (fun _ q => nomatch q) (fun _ q => nomatch q) (.dict (iface_same hb h' hv hw))
  | list a b hl hr =>
    refine .list (forall₂_of hl fun i x y hx hy => ?_)
    have h1 := hb x (List.mem_of_getElem? hx)
    have h2 := hr i x y hx hy
    have wx := hv.mem x (List.mem_of_getElem? hx)
    have wy := hw.mem y (List.mem_of_getElem? hy)
    cases x with
    | dict d =>
      cases y with
      | dict e => exact .dict (iface_same h1 h2 wx wy)
      | _ => cases h2
    | _ => rw [← noDict_eq h2 h1]; exact .same _ fun _ q => nomatch q

theorem top_same {dsa : Bool} {c c' : VDict} (ht : Tidy dsa c) (h : SameJson (.dict c) (.dict c')) (hc : (Val.dict c).WF) (hc' : (Val.dict c').WF) :
    TopSame dsa c c' := by
  cases h with
  | dict _ _ hk hr =>
    refine ⟨hc.nodup, hc'.nodup, fun k => ?_⟩
    cases hv : Dict.get? c k with
    | none => rw [(hk k).1 hv]; exact .none
    | some v =>
      cases hw : Dict.get? c' k with
      | none => rw [(hk k).2 hw] at hv; cases hv
      | some w =>
        have q := ht _ (Dict.mem_of_get? hv)
        have hvw := hr k v w hv hw
        have wv := hc.of_get? hv
        have ww := hc'.of_get? hw
        refine .some ?_
        unfold TidyAt at q
        unfold topRel
        dsimp only at q
        split at q
        · rw [if_pos ‹_›]
          exact noDict_eq hvw q
        · rw [if_neg ‹_›]
          split at q
          · rw [if_pos ‹_›]
            exact eachV_of hvw wv ww q
          · rw [if_neg ‹_›]
            split at q
            · rw [if_pos ‹_›]
              exact sec_of hvw wv ww q fun _ _ => nested_same
            · rw [if_neg ‹_›]
              split at q
              · rw [if_pos ‹_›]
                exact sec_of hvw wv ww q fun _ _ => nested_same
              · rw [if_neg ‹_›]
                split at q
                · rw [if_pos ‹_›]
                  exact sec_of hvw wv ww q fun _ _ => nested_same
                · rw [if_neg ‹_›]
                  exact sec_of hvw wv ww q fun _ _ => simple_same

theorem SameSt.outcome {α : Type} {dsa : Bool} {x y : BState × Except PyErr α} (h : SameSt dsa x y) : SameOutcome x.2 y.2 := by
  cases h with
  | ok i r _ => exact .inl ⟨r, rfl, rfl⟩
  | error _ _ e e' => exact .inr ⟨e, e', rfl, rfl⟩

/-! ## C83 -/

/-- C83. Configurations that are the same data in another order of keys are accepted or refused together, with the same error … -/
theorem C83_validate {env : Env} {ip6 : Ip6} {sh : Val → Bool} {loads : Chars → Option Val} {dsa : Bool} {c c' : VDict} (hsame : SameJson (.dict c) (.dict c'))
    (hc : (Val.dict c).WF) (hc' : (Val.dict c').WF) (ht : Tidy dsa c) :
    validate (openwrtClass env (owValidate ip6) sh loads dsa) c = validate (openwrtClass env (owValidate ip6) sh loads dsa) c' :=
  same_validate (top_same ht hsame hc hc') (owValidate_same hsame hc hc')

/-- … are rendered to the same text … -/
theorem C83_render {env : Env} {ip6 : Ip6} {sh : Val → Bool} {loads : Chars → Option Val} {dsa : Bool} {c c' : VDict} (hsame : SameJson (.dict c) (.dict c'))
    (hc : (Val.dict c).WF) (hc' : (Val.dict c').WF) (ht : Tidy dsa c) (files : Bool) :
    SameOutcome (render (openwrtClass env (owValidate ip6) sh loads dsa) files ⟨c, none⟩).2 (render (openwrtClass env (owValidate ip6) sh loads dsa) files ⟨c', none⟩).2 :=
  (same_render (top_same ht hsame hc hc') (owValidate_same hsame hc hc')).outcome

/-- … and give the same members of the archive, in the same order. -/
theorem C83_generate {env : Env} {ip6 : Ip6} {sh : Val → Bool} {loads : Chars → Option Val} {dsa : Bool} {c c' : VDict} (hsame : SameJson (.dict c) (.dict c'))
    (hc : (Val.dict c).WF) (hc' : (Val.dict c').WF) (ht : Tidy dsa c) :
    SameOutcome (generate (openwrtClass env (owValidate ip6) sh loads dsa) ⟨c, none⟩).2 (generate (openwrtClass env (owValidate ip6) sh loads dsa) ⟨c', none⟩).2 :=
  (same_generate (top_same ht hsame hc hc') (owValidate_same hsame hc hc')).outcome

/-- The schema does not look at the order of keys, whatever the configuration. -/
theorem C83_schema {ip6 : Ip6} {root : VDict} {n : Nat} {s v w : Val} (h : SameJson v w) (hv : v.WF) (hw : w.WF) : valid ip6 root n s v = valid ip6 root n s w :=
  valid_same n s v w h hv hw

end NJ
