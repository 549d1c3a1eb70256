import Verif.WholeNetwork
import Verif.PropsWifiRound

/-!
# Wi-Fi without wireless interfaces, and packages the backend does not know, as parts of a configuration
-/

namespace NJ

/-! ## Wi-Fi -/

theorem trackBridges_ok (dsa : Bool) (M : Data) (h : ∀ b ∈ blocksIn M "network", Named b) : ∃ m, trackBridges dsa (interOf M) = .ok m := by
  have key : ∀ (l : List VDict) (m : Dict String (List String)), (∀ b ∈ l, Named b) → ∃ m', (l.map Val.dict).foldlM (trackBlock dsa) m = .ok m' := by
    intro l
    induction l with
    | nil => exact fun m _ => ⟨m, rfl⟩
    | cons b l ih =>
      intro m hl
      obtain ⟨s, hs⟩ := hl b (by simp)
      have : ∃ m', trackBlock dsa m (.dict b) = .ok m' := by
        unfold trackBlock
        simp only [asDict, bind, Except.bind]
        split
        · exact ⟨m, rfl⟩
        · split
          · exact ⟨m, rfl⟩
          · simp only [getKey, hs, asText]
            exact ⟨_, rfl⟩
      obtain ⟨m', hm⟩ := this
      obtain ⟨m2, hm2⟩ := ih m' (fun x hx => hl x (by simp [hx]))
      refine ⟨m2, ?_⟩
      rw [List.map_cons, List.foldlM_cons, hm]
      exact hm2
  unfold trackBridges
  rw [get?_interOf]
  cases hg : Dict.get? M "network" with
  | none => exact ⟨[], rfl⟩
  | some bs =>
    simp only [Option.map_some, Option.getD_some]
    refine key bs [] (fun b hb => h b ?_)
    unfold blocksIn
    rw [hg]; exact hb

theorem wifi_none (env : Env) (dsa : Bool) (config : VDict) (is : List VDict) (hk : ListIn config "interfaces" is)
    (h : ∀ d ∈ is, Dict.get? d "wireless" = none) (M : Data) (hM : ∀ b ∈ blocksIn M "network", Named b) :
    Makes (wirelessConv env dsa) config (interOf M) [] := by
  rcases hk with ⟨hk, _⟩ | hk
  · exact .inl ⟨by simp [wirelessConv, pureConv, Dict.has, hk], rfl⟩
  · refine .inr ⟨by simp [wirelessConv, pureConv, Dict.has, hk], ?_⟩
    obtain ⟨m, hm⟩ := trackBridges_ok dsa M hM
    show (config, wirelessRun env dsa config (interOf M)) = _
    unfold wirelessRun
    rw [hm]
    show (config, fwd "interfaces" (wirelessFwd env m) config) = _
    unfold fwd
    rw [hk]
    simp only [Option.getD_some]
    have : ∀ (i : Nat) (l : List VDict), (∀ d ∈ l, Dict.get? d "wireless" = none) → fwdList (wirelessFwd env m) i [] (l.map Val.dict) = .ok [] := by
      intro i l
      induction l generalizing i with
      | nil => exact fun _ => rfl
      | cons d l ih =>
        intro hl
        rw [List.map_cons, fwdList]
        have : wirelessFwd env m (some i) (.dict d) [] = .ok [] := by
          unfold wirelessFwd
          simp only [asDict, bind, Except.bind, hl d (by simp)]
          rfl
        rw [this]
        exact ih (i + 1) (fun x hx => hl x (by simp [hx]))
    rw [this 1 is h]
    rfl

theorem wifi_takes (env : Env) (dsa : Bool) (M : Data) (hM : ∀ b ∈ blocksIn M "network", Named b) :
    Takes (wirelessBConv env dsa) (interOf M) "wireless" [] [] [] := by
  obtain ⟨m, hm⟩ := trackBridges_ok dsa M hM
  refine ⟨fun _ => rfl, fun c inter hi => ?_, fun _ => rfl⟩
  unfold wirelessBConv bwdG
  simp only [hi, Option.getD_some, List.append_nil, List.map_nil, wirelessClean, hm, bind, Except.bind]
  rfl

/-! ## Packages the backend does not know -/

/-- a package with something in it -/
def isPackage (known : List String) (p : String × Val) : Bool := decide (p.1 ∈ known) || (match p.2 with
  | .list (_ :: _) => true
  | _ => false)

theorem defaultLoop_filter (env : Env) (known : List String) (config : VDict) :
    (defaultLoop env known config).2 = (defaultLoop env known (config.filter (isPackage known))).2 := by
  induction config with
  | nil => rfl
  | cons p r ih =>
    obtain ⟨k, v⟩ := p
    rw [List.filter_cons]
    unfold isPackage
    by_cases hk : k ∈ known
    · simp only [hk, decide_true, Bool.true_or, if_true]
      cases v <;> simp only [defaultLoop, hk, if_true] <;> exact ih
    · cases v with
      | list l =>
        cases l with
        | nil =>
          simp only [hk, decide_false, Bool.or_false, Bool.false_eq_true, if_false]
          rw [defaultLoop]
          simp only [hk, if_false, defaultBlocks]
          rw [show (defaultLoop env known r).2 = _ from ih]
          show (_ >>= fun rest => pure rest) = _
          rw [bind_pure]
          rfl
        | cons x xs =>
          simp only [Bool.or_true, if_true]
          rw [defaultLoop, defaultLoop]
          simp only [hk, if_false]
          cases hd : defaultBlocks env 1 (x :: xs) with
          | mk l' o =>
            cases o with
            | error e => rfl
            | ok bs =>
              dsimp only
              rw [show (defaultLoop env known r).2 = _ from ih]
              rfl
      | _ =>
        simp only [hk, decide_false, Bool.or_false, Bool.false_eq_true, if_false]
        rw [defaultLoop]
        exact ih
        all_goals simp

/-- a section the backend does not know: ignored, because it is not a list or is empty, or a package with blocks that survive -/
def CustomOK (k : String) (v : Val) : Prop := (∀ x xs, v ≠ .list (x :: xs)) ∨ PackageOK k v ∧ k ∉ ["system", "network", "wireless"]

theorem default_part (env : Env) (known : List String) (config : VDict) (hn : (Dict.keys config).Nodup)
    (h : ∀ k v, Dict.get? config k = some v → k ∉ known → CustomOK k v) :
    ∃ L : Data, (∀ inter, (defaultConv env known).run config inter = ((defaultLoop env known config).1, .ok (interOf L))) ∧ (Dict.keys L).Nodup ∧
      (∀ p ∈ L, PackageBack env config known p.1 p.2 ∧ p.1 ∉ ["system", "network", "wireless"]) ∧
      ∀ k, k ∈ Dict.keys L ↔ k ∉ known ∧ ∃ x xs, Dict.get? config k = some (.list (x :: xs)) := by
  have hfn : (Dict.keys (config.filter (isPackage known))).Nodup := hn.sublist (List.filter_sublist.map _)
  have hmem : ∀ p ∈ config.filter (isPackage known), Dict.get? config p.1 = some p.2 := fun p hp => Dict.get?_of_mem hn (List.mem_filter.1 hp).1
  have hpack : ∀ p ∈ config.filter (isPackage known), p.1 ∉ known → (∃ x xs, p.2 = .list (x :: xs)) ∧ PackageOK p.1 p.2 ∧ p.1 ∉ ["system", "network", "wireless"] := by
    intro p hp hk
    have hi := (List.mem_filter.1 hp).2
    have : ∃ x xs, p.2 = .list (x :: xs) := by
      unfold isPackage at hi
      rw [decide_eq_false hk, Bool.false_or] at hi
      split at hi
      · next x xs e => exact ⟨_, _, e⟩
      · cases hi
    refine ⟨this, ?_⟩
    rcases h p.1 p.2 (hmem p hp) hk with h1 | h1
    · obtain ⟨x, xs, e⟩ := this
      exact absurd e (h1 x xs)
    · exact h1
  obtain ⟨data, d1, d2, d3⟩ := default_loop env known config (config.filter (isPackage known)) hmem (fun p hp hk => (hpack p hp hk).2.1)
  have hdn : (Dict.keys (interOf data)).Nodup := by
    have : Dict.keys (interOf data) = data.map Prod.fst := by simp [interOf, Dict.keys]
    rw [this, d2]
    exact hfn.sublist List.filter_sublist
  obtain ⟨L, l1, l2⟩ := exists_map (f := fun p : String × List VDict => (p.1, Val.list (p.2.map Val.dict))) (L := sortedDict (interOf data)) (data := data)
    (fun x hx => (C33_sorting_keeps (interOf data)).mem_iff.1 hx)
  have hLk : ∀ k, k ∈ L.map Prod.fst ↔ k ∈ Dict.keys (config.filter (isPackage known)) ∧ k ∉ known := by
    intro k
    have : L.map Prod.fst = Dict.keys (sortedDict (interOf data)) := by rw [l1]; simp [Dict.keys, Function.comp_def]
    rw [this]
    show k ∈ (sortedDict (interOf data)).map Prod.fst ↔ _
    rw [((C33_sorting_keeps (interOf data)).map Prod.fst).mem_iff]
    have : (interOf data).map Prod.fst = data.map Prod.fst := by simp [interOf]
    rw [this, d2]; simp
  have hmemk : ∀ k, k ∈ Dict.keys (config.filter (isPackage known)) → k ∉ known → ∃ v, (k, v) ∈ config.filter (isPackage known) := by
    intro k hk _
    obtain ⟨p, hp, rfl⟩ := List.mem_map.1 hk
    exact ⟨p.2, hp⟩
  refine ⟨L, fun inter => ?_, ?_, fun p hp => ⟨d3 p (l2 p hp), ?_⟩, fun k => ?_⟩
  · show ((defaultLoop env known config).1, (defaultLoop env known config).2 >>= fun r => pure (sortedDict r)) = _
    rw [defaultLoop_filter, d1]
    show (_, Except.ok _) = _
    rw [l1]; rfl
  · have := sortedDict_nodup hdn
    rw [l1] at this
    simpa [Dict.keys, Function.comp_def] using this
  · obtain ⟨h1, h2⟩ := (hLk p.1).1 (List.mem_map_of_mem hp)
    obtain ⟨v, hv⟩ := hmemk _ h1 h2
    exact (hpack _ hv h2).2.2
  · show k ∈ L.map Prod.fst ↔ _
    rw [hLk]
    constructor
    · rintro ⟨h1, h2⟩
      obtain ⟨v, hv⟩ := hmemk _ h1 h2
      obtain ⟨x, xs, e⟩ := (hpack _ hv h2).1
      exact ⟨h2, x, xs, by rw [hmem _ hv]; exact congrArg some e⟩
    · rintro ⟨h1, x, xs, h2⟩
      refine ⟨?_, h1⟩
      have hm := Dict.mem_of_get? h2
      exact List.mem_map.2 ⟨(k, .list (x :: xs)), List.mem_filter.2 ⟨hm, by simp [isPackage]⟩, rfl⟩

/-- back: packages all blocks of which have been taken are skipped -/
theorem defaultBack_sparse (env : Env) (known : List String) (config : VDict) (M : Data) (hn : (Dict.keys M).Nodup)
    (h : ∀ p ∈ M, p.2 = [] ∨ ∃ bs, p.2 = bs.map (blockRead env.reprC) ∧ PackageBack env config known p.1 bs) :
    ∃ out : Data, defaultBack env (interOf M) = .ok (interOf out) ∧ (Dict.keys out).Nodup ∧
      (∀ k, k ∈ Dict.keys out ↔ blocksIn M k ≠ []) ∧
      ∀ o ∈ out, o.1 ∉ known ∧ ∃ l : List VDict, Dict.get? config o.1 = some (.list (l.map .dict)) ∧ List.Forall₂ SameItems o.2 l := by
  induction M with
  | nil => exact ⟨[], rfl, by simp [Dict.keys], fun k => by simp [Dict.keys, blocksIn], by simp⟩
  | cons p r ih =>
    rw [Dict.keys, List.map_cons, List.nodup_cons] at hn
    obtain ⟨out, i1, i2, i3, i4⟩ := ih hn.2 (fun p hp => h p (by simp [hp]))
    have hr : blocksIn r p.1 = [] := by
      unfold blocksIn
      rw [(Dict.get?_eq_none_iff _ _).2 hn.1]; rfl
    rcases h p (by simp) with hp | ⟨bs, hp, hb⟩
    · refine ⟨out, ?_, i2, fun k => ?_, i4⟩
      · obtain ⟨k, v⟩ := p
        simp only at hp
        subst hp
        show defaultBack env ((k, .list []) :: interOf r) = _
        rw [defaultBack, i1]
        rfl
      · rw [i3, blocksIn_cons]
        by_cases e : k = p.1
        · rw [if_pos e, e, hr, hp]
        · rw [if_neg e]
    · obtain ⟨l, rs, b1, b2, b3⟩ := hb.back
      have hnk : p.1 ∉ Dict.keys out := by
        intro hc
        exact (i3 _).1 hc hr
      refine ⟨(p.1, rs) :: out, ?_, ?_, fun k => ?_, ?_⟩
      · obtain ⟨b, bs', hbs⟩ := List.exists_cons_of_ne_nil hb.ne
        obtain ⟨k, v⟩ := p
        simp only at hp
        rw [map_plain_read hb.plain] at hp
        subst hp
        have e : interOf ((k, bs.map (blockBack env.reprC)) :: r) = (k, .list ((bs.map (blockBack env.reprC)).map .dict)) :: interOf r := rfl
        rw [e, hbs]
        rw [hbs] at b2
        simp only [List.map_cons] at b2 ⊢
        rw [defaultBack, i1]
        simp only [bind, Except.bind, b2]
        rfl
      · rw [Dict.keys, List.map_cons, List.nodup_cons]
        exact ⟨hnk, i2⟩
      · rw [blocksIn_cons]
        by_cases e : k = p.1
        · rw [if_pos e, e]
          simp [Dict.keys, hp, hb.ne]
        · rw [if_neg e, ← i3]
          simp [Dict.keys, e]
      · intro o ho
        rcases List.mem_cons.1 ho with rfl | ho
        · exact ⟨hb.unknown, l, b1, b3⟩
        · exact i4 o ho

end NJ
