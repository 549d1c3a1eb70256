import Verif.OverIfaces

/-!
# Merging keeps the texts; the sections of the interfaces
-/

namespace NJ

variable {A : Char → Prop} {env : Env}

/-- all values of a dictionary with keys of any kind -/
def ValuesOk {κ α : Type} (P : α → Prop) (d : Dict κ α) : Prop := ∀ p ∈ d, P p.2

theorem values_set {κ α : Type} [DecidableEq κ] {P : α → Prop} {d : Dict κ α} {k : κ} {v : α} (h : ValuesOk P d) (hv : P v) : ValuesOk P (Dict.set d k v) := by
  induction d with
  | nil => intro p hp; cases List.mem_singleton.1 hp; exact hv
  | cons q r ih =>
    obtain ⟨k', v'⟩ := q
    have hr := ih (fun p hp => h p (List.mem_cons_of_mem _ hp))
    rw [Dict.set]
    split
    · intro p hp
      rcases List.mem_cons.1 hp with rfl | hp
      · exact hv
      · exact h p (List.mem_cons_of_mem _ hp)
    · intro p hp
      rcases List.mem_cons.1 hp with rfl | hp
      · exact h (k', v') List.mem_cons_self
      · exact hr p hp

theorem values_get {κ α : Type} [DecidableEq κ] {P : α → Prop} {d : Dict κ α} {k : κ} {v : α} (h : ValuesOk P d) (hv : Dict.get? d k = some v) : P v :=
  h _ (Dict.mem_of_get? hv)

/-- what an element of the second list is merged into -/
def MergeOver (A : Char → Prop) (m : Mergeable) : Prop := Over A m.1 ∧ ∀ e : Option Val, Over A e → Over A (m.2 e)

theorem container1_over {sh ids i} {acc : Dict LKey Val} {l : List Val} {c} (h : container1 sh ids i acc l = .ok c)
    (ha : ValuesOk (fun v : Val => Over A v) acc) (hl : Over A l) : ValuesOk (fun v : Val => Over A v) c := by
  induction l generalizing i acc with
  | nil => cases h; exact ha
  | cons v l ih =>
    obtain ⟨k, _, h⟩ := bind_ok_iff.1 h
    exact ih h (values_set ha (over_cons.1 hl).1) (over_cons.1 hl).2

theorem container2_over {sh ids c1 i} {acc : Dict LKey Mergeable} {l : List Mergeable} {c} (h : container2 sh ids c1 i acc l = .ok c)
    (ha : ValuesOk (MergeOver A) acc) (hl : ∀ m ∈ l, MergeOver A m) : ValuesOk (MergeOver A) c := by
  induction l generalizing i acc with
  | nil => cases h; exact ha
  | cons v l ih =>
    rw [container2] at h
    split at h
    · exact ih h ha fun m hm => hl m (List.mem_cons_of_mem _ hm)
    · obtain ⟨k, _, h⟩ := bind_ok_iff.1 h
      exact ih h (values_set ha (hl v List.mem_cons_self)) fun m hm => hl m (List.mem_cons_of_mem _ hm)

theorem mergeContainers_over {acc : Dict LKey Val} {l : Dict LKey Mergeable} {c} (h : mergeContainers acc l = .ok c)
    (ha : ValuesOk (fun v : Val => Over A v) acc) (hl : ValuesOk (MergeOver A) l) : ValuesOk (fun v : Val => Over A v) c := by
  induction l generalizing acc with
  | nil => cases h; exact ha
  | cons p l ih =>
    obtain ⟨k, m⟩ := p
    obtain ⟨v, hv, h⟩ := bind_ok_iff.1 h
    have hm := hl (k, m) List.mem_cons_self
    have hg : Over A (Dict.get? acc k) := fun x hx => values_get ha hx
    exact ih h (values_set ha (hm.2 _ hg v hv)) fun q hq => hl q (List.mem_cons_of_mem _ hq)

theorem mergeListWith_over {sh ids} {l1 : List Val} {l2 : List Mergeable} (h1 : Over A l1) (h2 : ∀ m ∈ l2, MergeOver A m) :
    Over A (mergeListWith sh ids l1 l2) := by
  intro r h
  obtain ⟨c1, hc1, h⟩ := bind_ok_iff.1 h
  obtain ⟨c2, hc2, h⟩ := bind_ok_iff.1 h
  obtain ⟨m, hm, h⟩ := bind_ok_iff.1 h
  cases h
  have := mergeContainers_over hm (container1_over hc1 (fun _ hp => nomatch hp) h1) (container2_over hc2 (fun _ hp => nomatch hp) h2)
  intro v hv
  obtain ⟨p, hp, rfl⟩ := List.mem_map.1 hv
  exact this p hp

mutual
theorem mergeVal_over {sh : Val → Bool} (ids : List String) : ∀ (v : Val) (e : Option Val), Over A v → Over A e → Over A (mergeVal sh ids v e)
  | .dict kvs, some (.dict t), hv, he => by
    unfold mergeVal
    exact over_bind (mergeKvs_over ids kvs t (over_vdict.1 hv) (over_vdict.1 (over_some.1 he))) fun d hd => over_pure.2 (over_vdict.2 hd)
  | .dict _, none, hv, _ => by unfold mergeVal; exact over_ok.2 hv
  | .dict _, some .none, hv, _ => by unfold mergeVal; exact over_ok.2 hv
  | .dict _, some (.bool _), hv, _ => by unfold mergeVal; exact over_ok.2 hv
  | .dict _, some (.int _), hv, _ => by unfold mergeVal; exact over_ok.2 hv
  | .dict _, some (.str _), hv, _ => by unfold mergeVal; exact over_ok.2 hv
  | .dict _, some (.list _), _, _ => by unfold mergeVal; exact over_error
  | .list l, some (.list t), hv, he => by
    unfold mergeVal
    exact over_bind (mergeListWith_over (over_vlist.1 (over_some.1 he)) (closures_over l (over_vlist.1 hv))) fun d hd => over_pure.2 (over_vlist.2 hd)
  | .list _, none, hv, _ => by unfold mergeVal; exact over_ok.2 hv
  | .list _, some .none, hv, _ => by unfold mergeVal; exact over_ok.2 hv
  | .list _, some (.bool _), hv, _ => by unfold mergeVal; exact over_ok.2 hv
  | .list _, some (.int _), hv, _ => by unfold mergeVal; exact over_ok.2 hv
  | .list _, some (.str _), hv, _ => by unfold mergeVal; exact over_ok.2 hv
  | .list _, some (.dict _), _, _ => by unfold mergeVal; exact over_error
  | .none, _, hv, _ => by unfold mergeVal; exact over_ok.2 hv
  | .bool _, _, hv, _ => by unfold mergeVal; exact over_ok.2 hv
  | .int _, _, hv, _ => by unfold mergeVal; exact over_ok.2 hv
  | .str _, _, hv, _ => by unfold mergeVal; exact over_ok.2 hv
theorem mergeKvs_over {sh : Val → Bool} (ids : List String) : ∀ (l : List (String × Val)) (d : VDict), Over A l → Over A d → Over A (mergeKvs sh ids l d)
  | [], d, _, hd => over_ok.2 hd
  | (k, v) :: r, d, hl, hd => by
    rw [mergeKvs]
    exact over_bind (mergeVal_over ids v _ (over_cons.1 hl).1.2 (over_get? hd)) fun x hx =>
      mergeKvs_over ids r _ (over_cons.1 hl).2 (over_set hd (over_cons.1 hl).1.1 hx)
theorem closures_over {sh : Val → Bool} : ∀ (l : List Val), Over A l → ∀ m ∈ closures sh l, MergeOver A m
  | [], _, m, hm => nomatch hm
  | v :: r, hl, m, hm => by
    rw [closures] at hm
    rcases List.mem_cons.1 hm with rfl | hm
    · exact ⟨(over_cons.1 hl).1, fun e he => mergeVal_over [] v e (over_cons.1 hl).1 he⟩
    · exact closures_over r (over_cons.1 hl).2 m hm
end

theorem over_mergeList {sh ids} {l m : List Val} (hl : Over A l) (hm : Over A m) : Over A (mergeList sh ids l m) :=
  mergeListWith_over hl (closures_over m hm)

theorem over_addSection (hA : Wide A env) {sh} {r b : VDict} (h0 : Over A r) (h1 : Over A b) : Over A (addSection sh r b) := by
  unfold addSection
  have h : Over A ((Dict.get? r "network").getD (.list [])) := by over
  generalize (Dict.get? r "network").getD (.list []) = x at h
  split
  · exact over_bind (over_mergeList (over_vlist.1 h) (over_cons.2 ⟨over_vdict.2 h1, over_nil⟩)) fun l hl => by over
  · exact over_error

theorem over_addSections (hA : Wide A env) (b : Bool) {sh} {i : Nat} {c d r : VDict} {u : Chars} {l : List VDict} (h0 : Over A (Dict.get? c "dns_servers"))
    (h1 : Over A (Dict.get? c "dns_search")) (h2 : Over A d) (h3 : Over A r) (h4 : Over A u) (h5 : Over A l) : Over A (addSections sh c b u d i r l) := by
  induction l generalizing i r with
  | nil => exact over_ok.2 h3
  | cons a l ih =>
    rw [addSections]
    exact over_bind (over_ifaceSection hA b i h0 h1 h2 (over_cons.1 h5).1 h4) fun s hs => over_bind (over_addSection hA h3 hs) fun t ht =>
      ih ht (over_cons.1 h5).2

@[over_rule] theorem over_pushNetwork (hA : Wide A env) {d : VDict} {l : List VDict} (h0 : Over A d) (h1 : Over A l) : Over A (pushNetwork d l) := by
  unfold pushNetwork
  split
  · exact over_ok.2 h0
  · have h := over_get? (k := "network") h0
    generalize Dict.get? d "network" = x at h
    split
    · refine over_ok.2 (over_set h0 ?_ ?_)
      · over
      · exact over_vlist.2 (over_append.2 ⟨over_vlist.1 (over_some.1 h), over_map h1 fun _ hd => over_vdict.2 hd⟩)
    · exact over_error
    · exact over_error

@[over_rule] theorem over_vlanList {v : Val} (h0 : Over A v) : Over A (vlanList v) := by
  unfold vlanList
  split
  · exact over_ok.2 (over_vlist.1 h0)
  · refine over_ite over_error ?_
    split
    · exact over_ok.2 over_nil
    · exact over_ok.2 over_nil
    · exact over_error

@[over_rule] theorem over_dsaSections (hA : Wide A env) {l : List Val} {u : Chars} {i r : VDict} (h0 : Over A l) (h1 : Over A u) (h2 : Over A i) (h3 : Over A r) :
    Over A (dsaSections env l u i r) := by
  unfold dsaSections popOr
  dsimp only
  have h4 : Over A ((Dict.get? i "vlan_filtering").getD (.list [])) := by over
  generalize (Dict.get? i "vlan_filtering").getD (.list []) = v at h4
  have h5 : Over A (if v.truthy = true then Dict.set (Dict.erase i "vlan_filtering") "vlan_filtering" (.bool true) else Dict.erase i "vlan_filtering") := by over
  generalize (if v.truthy = true then Dict.set (Dict.erase i "vlan_filtering") "vlan_filtering" (.bool true) else Dict.erase i "vlan_filtering") = j at h5
  refine over_bind (over_ifaceDevice hA h5) fun p hp => ?_
  obtain ⟨p1, p2⟩ := p
  obtain ⟨h6, h7⟩ := over_mk.1 hp
  dsimp only
  have h8 : Over A (if p1.isEmpty = true then r else appendTo r "network" [Val.dict (sortedDict p1)]) := by over
  generalize (if p1.isEmpty = true then r else appendTo r "network" [Val.dict (sortedDict p1)]) = r' at h8
  refine over_bind (over_vlanList h4) fun l' hl' => over_bind (over_mapM hl' fun _ hx => over_vlanSections hA h1 h7 hx) fun vs hvs => ?_
  refine over_bind (over_pushNetwork hA h8 (over_map hvs fun _ hx => hx.1)) fun r1 hr1 => ?_
  refine over_bind (over_pushNetwork hA hr1 (over_map hvs fun _ hx => hx.2.1)) fun r2 hr2 => ?_
  exact over_pure.2 (over_mk.2 ⟨h7, over_mk.2 ⟨over_append.2 ⟨h0, over_map hvs fun _ hx => hx.2.2⟩, hr2⟩⟩)

theorem over_ifaceFwd (hA : Wide A env) (b : Bool) {sh} {c : VDict} {p : List Val × VDict} {v : Val} (h0 : Over A (Dict.get? c "dns_servers"))
    (h1 : Over A (Dict.get? c "dns_search")) (h2 : Over A p) (h3 : Over A v) : Over A (ifaceFwd sh env b c p v) := by
  unfold ifaceFwd
  obtain ⟨p1, p2⟩ := p
  obtain ⟨h4, h5⟩ := over_mk.1 h2
  dsimp only
  refine over_bind (over_asDict h3) fun d hd => ?_
  refine over_bind (x := if ((Dict.get? d "network").getD Val.none).truthy = true then pure ((Dict.get? d "network").getD Val.none) else getKey d "name")
    (over_ite (over_pure.2 (by over)) (over_getKey hd)) fun n hn => over_bind (over_asText hn) fun t ht => ?_
  refine over_bind (over_ifaceAddresses hA hd) fun q hq => ?_
  obtain ⟨q1, q2⟩ := q
  obtain ⟨h6, h7⟩ := over_mk.1 hq
  dsimp only
  have hu := over_uciName hA.plain ht
  refine over_bind (over_ifaceBlock hA b hu h6) fun i hi => ?_
  refine over_bind (x := if isDsa b p1 i = true then dsaSections env p1 (uciName t) i p2 else pure (i, p1, p2))
    (over_ite (over_dsaSections hA h4 hu hi h5) (over_pure.2 (over_mk.2 ⟨hi, over_mk.2 ⟨h4, h5⟩⟩))) fun w hw => ?_
  obtain ⟨w1, w2, w3⟩ := w
  obtain ⟨h8, h9⟩ := over_mk.1 hw
  obtain ⟨h10, h11⟩ := over_mk.1 h9
  exact over_bind (over_addSections hA _ h0 h1 h8 h11 hu h7) fun r hr => over_pure.2 (over_mk.2 ⟨h10, hr⟩)

theorem over_ifacesRun (hA : Wide A env) (b : Bool) {sh} {c : VDict} (h0 : Over A (Dict.get? c "dns_servers"))
    (h1 : Over A (Dict.get? c "dns_search")) (h2 : Over A (Dict.get? c "interfaces")) : Over A (ifacesRun sh env b c) := by
  unfold ifacesRun
  have h := over_optGetD h2 (over_vnone (A := A))
  generalize (Dict.get? c "interfaces").getD .none = v at h
  split
  · exact over_bind (over_foldlM (over_vlist.1 h) (over_mk.2 ⟨over_nil, over_nil⟩) fun _ _ hb ha => over_ifaceFwd hA b h0 h1 hb ha) fun _ hp => over_pure.2 hp.2
  · exact over_bind (over_ifaceFwd hA b h0 h1 (over_mk.2 ⟨over_nil, over_nil⟩) h) fun _ hp => over_pure.2 hp.2

end NJ
