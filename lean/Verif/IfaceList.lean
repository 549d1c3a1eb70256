import Verif.IfaceBack
import Verif.MergeIdem

/-!
# Lists of interfaces

The passes of the conversion over a list of interfaces each of which has its own blocks, whatever the kind of interface.
-/

namespace NJ

/-! ## Adding sections with new names -/

/-- the name of a block is a text -/
def Named (b : VDict) : Prop := ∃ s, Dict.get? b ".name" = some (.str s)

theorem named_ident {b : VDict} {s : String} (h : Dict.get? b ".name" = some (.str s)) : identValue [".name", ".type"] b = some (.str s) := by
  simp [identValue, h]

theorem named_key {b : VDict} {s : String} (h : Dict.get? b ".name" = some (.str s)) (sh : Val → Bool) (side i : Nat) :
    elemKey sh [".name", ".type"] side i (.dict b) = .ok (.val (.str s)) := by
  simp only [elemKey, named_ident h]
  rfl

/-- the key of a block with a name -/
def nameKey (b : VDict) : LKey := .val ((Dict.get? b ".name").getD .none)

theorem container1_named (sh : Val → Bool) (i : Nat) (acc : Dict LKey Val) (l : List VDict) (h : ∀ b ∈ l, Named b)
    (hn : (Dict.keys acc ++ l.map nameKey).Nodup) :
    container1 sh [".name", ".type"] i acc (l.map .dict) = .ok (acc ++ l.map (fun b => (nameKey b, .dict b))) := by
  induction l generalizing i acc with
  | nil => simp [container1]
  | cons b l ih =>
    obtain ⟨s, hs⟩ := h b (by simp)
    rw [List.map_cons, container1, named_key hs]
    simp only [bind, Except.bind]
    have hk : nameKey b = .val (.str s) := by simp [nameKey, hs]
    have hnot : LKey.val (.str s) ∉ Dict.keys acc := by
      intro hm
      rw [List.map_cons, hk] at hn
      exact List.nodup_append.1 hn |>.2.2 _ hm _ (by simp) rfl
    rw [Dict.set_not_mem _ _ _ hnot, ih]
    · rw [List.map_cons, hk]; simp
    · exact fun x hx => h x (by simp [hx])
    · have : Dict.keys (acc ++ [(LKey.val (.str s), Val.dict b)]) = Dict.keys acc ++ [nameKey b] := by rw [hk]; simp [Dict.keys]
      rw [this]; simpa using hn

theorem pyEq_named {a b : VDict} {s t : String} (ha : Dict.get? a ".name" = some (.str s)) (hb : Dict.get? b ".name" = some (.str t))
    (hne : s ≠ t) : Val.pyEq (.dict a) (.dict b) = false := by
  cases h : Val.pyEq (.dict a) (.dict b) with
  | false => rfl
  | true =>
    simp only [Val.pyEq, Bool.and_eq_true] at h
    obtain ⟨w, hw, hp⟩ := pyEqD_get? h.2 ha
    rw [hb] at hw
    cases hw
    simp [Val.pyEq, hne] at hp

/-- a block with a new name is added at the end -/
theorem merge_named (sh : Val → Bool) (l : List VDict) (b : VDict) (h : ∀ x ∈ l ++ [b], Named x) (hn : ((l ++ [b]).map nameKey).Nodup) :
    mergeList sh [".name", ".type"] (l.map .dict) [.dict b] = .ok ((l ++ [b]).map .dict) := by
  unfold mergeList mergeListWith
  have hn' := hn
  rw [List.map_append, List.nodup_append] at hn'
  rw [container1_named sh 0 [] l (fun x hx => h x (by simp [hx])) (by simpa [Dict.keys] using hn'.1)]
  obtain ⟨s, hs⟩ := h b (by simp)
  have hk : nameKey b = .val (.str s) := by simp [nameKey, hs]
  have hv : Dict.values (([] : Dict LKey Val) ++ l.map (fun b => (nameKey b, Val.dict b))) = l.map .dict := by
    simp [Dict.values, Function.comp_def]
  have hkeys : Dict.keys (l.map (fun b => (nameKey b, Val.dict b))) = l.map nameKey := by simp [Dict.keys, Function.comp_def]
  simp only [bind, Except.bind, closures]
  rw [hv, container2, if_neg]
  · rw [named_key hs]
    simp only [bind, Except.bind, container2]
    have hnot : LKey.val (.str s) ∉ Dict.keys (l.map (fun b => (nameKey b, Val.dict b))) := by
      rw [hkeys]
      intro hm
      exact hn'.2.2 _ hm _ (by simp) hk.symm
    simp only [Dict.set, List.nil_append, mergeContainers, bind, Except.bind]
    rw [(Dict.get?_eq_none_iff _ _).2 hnot]
    have : mergeVal sh [] (.dict b) none = .ok (.dict b) := by simp [mergeVal]
    rw [this]
    simp only [Dict.set_not_mem _ _ _ hnot, pure, Except.pure]
    simp [Dict.values, Function.comp_def]
  · rw [List.any_eq_true]
    rintro ⟨x, hx, he⟩
    obtain ⟨y, hy, rfl⟩ := List.mem_map.1 hx
    obtain ⟨t, ht⟩ := h y (by simp [hy])
    have : s ≠ t := by
      rintro rfl
      exact hn'.2.2 (nameKey y) (List.mem_map_of_mem hy) (nameKey b) (by simp) (by simp [nameKey, hs, ht])
    rw [pyEq_named hs ht this] at he
    cases he


/-! ## The blocks of an interface -/

/-- An interface in UCI and back: the name of its device, the block of the device if it has one, what is known of the device when the section
is read, the section, the DNS servers and search domains in it, and what comes back. -/
structure IUnit where
  name : String
  D : Option VDict
  R : VDict
  S : VDict
  servers : List String
  search : List String
  r : VDict

def IUnit.blocks (u : IUnit) : List VDict := match u.D with
  | none => [u.S]
  | some D => [D, u.S]

/-- the names noted at the top of the configuration -/
def withNames (k : String) (names : List String) (result : VDict) : VDict :=
  if names = [] then result else appendTo result k (names.map .str)

/-- what the section of the interface adds to the configuration -/
def IUnit.note (u : IUnit) (result : VDict) : VDict :=
  appendTo (withNames "dns_search" u.search (withNames "dns_servers" u.servers result)) "interfaces" [.dict u.r]

/-- the devices as the section needs them -/
def IUnit.Ready (u : IUnit) (dev : Dict Val VDict) : Prop :=
  (u.D ≠ none → Dict.get? dev (.str u.name) = some u.R) ∧
  (u.D = none → Dict.get? dev (.str u.name) = none ∧ Dict.get? dev .none = none ∧
    ('.' ∈ u.name.toList → Dict.get? dev (txt (beforeLastDot u.name.toList)) = none))

/-- no device has the name of the interface up to its first dot -/
def IUnit.NoParent (u : IUnit) (dev : Dict Val VDict) : Prop :=
  '.' ∈ u.name.toList → Dict.get? dev (txt ((splitOn '.' u.name.toList).headD [])) = none

/-- a device of which the options have been used -/
def consumed (R : VDict) : Bool := ((Dict.get? R "consumed").getD .none).truthy

structure IUnit.OK (env : Env) (dsa : Bool) (u : IUnit) : Prop where
  plain : ∀ b ∈ u.blocks, PlainData b
  nameRead : ∀ b ∈ u.blocks, Dict.get? (blockRead env.reprC b) ".name" = Dict.get? b ".name"
  devSkip : ∀ D, u.D = some D → ∀ x, skipNonDevice x (blockRead env.reprC D) = false
  devPass : ∀ D, u.D = some D → ∀ st : IfState, Dict.get? st.dev (.str u.name) = none →
    deviceBlock (blockRead env.reprC D) st = .ok ⟨Dict.set st.dev (.str u.name) u.R, st.result⟩
  notDev : ∀ x, skipNonDevice x (blockRead env.reprC u.S) = true
  secSkip : ∀ dev, u.NoParent dev → skipVlan dev (blockRead env.reprC u.S) = false
  secPass : ∀ st : IfState, u.Ready st.dev → ∃ R, consumed R = true ∧
    ifaceLoop env dsa (blockRead env.reprC u.S) st = .ok ⟨if u.D = none then st.dev else Dict.set st.dev (.str u.name) R, u.note st.result⟩

/-! ## Forward -/

/-- the package with the given blocks -/
def netOf (l : List VDict) : VDict := if l = [] then [] else [("network", .list (l.map .dict))]

theorem netOf_append (l : List VDict) (b : VDict) : appendTo (netOf l) "network" [.dict b] = netOf (l ++ [b]) := by
  unfold netOf
  by_cases h : l = []
  · simp [h, appendTo_nil]
  · simp [h, appendTo_one]

theorem addSection_named (sh : Val → Bool) (l : List VDict) (b : VDict) (h : ∀ x ∈ l ++ [b], Named x) (hn : ((l ++ [b]).map nameKey).Nodup) :
    addSection sh (netOf l) b = .ok (netOf (l ++ [b])) := by
  have hg : (Dict.get? (netOf l) "network").getD (.list []) = .list (l.map .dict) := by
    unfold netOf
    by_cases h : l = []
    · simp [h]
    · simp [h]
  unfold addSection
  rw [hg]
  dsimp only
  rw [merge_named sh l b h hn]
  simp only [bind, Except.bind, pure, Except.pure]
  unfold netOf
  by_cases h : l = []
  · simp [h, Dict.set]
  · simp [h, Dict.set]

theorem addUnit_named (sh : Val → Bool) (l : List VDict) (u : IUnit) (h : ∀ x ∈ l ++ u.blocks, Named x) (hn : ((l ++ u.blocks).map nameKey).Nodup) :
    addUnit sh u.D u.S (netOf l) = .ok ([], netOf (l ++ u.blocks)) := by
  unfold addUnit
  unfold IUnit.blocks at h hn ⊢
  cases hD : u.D with
  | none =>
    rw [hD] at h hn
    dsimp only at h hn ⊢
    rw [addSection_named sh l u.S h hn]; rfl
  | some D =>
    rw [hD] at h hn
    dsimp only at h hn ⊢
    have e : l ++ [D, u.S] = l ++ [D] ++ [u.S] := by simp
    rw [e] at h hn
    rw [netOf_append, addSection_named sh (l ++ [D]) u.S h hn, e]; rfl

/-- the blocks of all interfaces, one after the other -/
theorem units_forward (sh : Val → Bool) (f : List Val × VDict → Val → Except PyErr (List Val × VDict)) (ds : List VDict) (us : List IUnit)
    (hf : List.Forall₂ (fun (u : IUnit) (d : VDict) => ∀ result, f ([], result) (.dict d) = addUnit sh u.D u.S result) us ds) (l : List VDict)
    (h : ∀ x ∈ l ++ us.flatMap IUnit.blocks, Named x) (hn : ((l ++ us.flatMap IUnit.blocks).map nameKey).Nodup) :
    (ds.map Val.dict).foldlM f ([], netOf l) = .ok ([], netOf (l ++ us.flatMap IUnit.blocks)) := by
  induction hf generalizing l with
  | nil => simp only [List.map_nil, List.foldlM_nil, List.flatMap_nil, List.append_nil]; rfl
  | @cons u d us ds h1 _ ih =>
    rw [List.flatMap_cons, ← List.append_assoc] at h hn ⊢
    rw [List.map_cons, List.foldlM_cons, h1, addUnit_named sh l u (fun x hx => h x (by simp only [List.mem_append] at hx ⊢; exact .inl hx))
      (by rw [List.map_append] at hn; exact (List.nodup_append.1 hn).1)]
    exact ih (l ++ u.blocks) h hn

/-! ## Backward -/

theorem erase_mid {α : Type} [DecidableEq α] (pre t : List α) (v : α) (h : v ∉ pre) : (pre ++ v :: t).erase v = pre ++ t := by
  rw [List.erase_append_right _ h, List.erase_cons_head]

def unitRead (reprC : Val → String) (u : IUnit) : List Val := u.blocks.map (fun b => Val.dict (blockRead reprC b))

/-- the first pass: the devices -/
theorem devices_pass {env : Env} {dsa : Bool} (us : List IUnit) (hu : ∀ u ∈ us, u.OK env dsa) (hnames : (us.map IUnit.name).Nodup) (pre : List Val)
    (hn : (pre ++ us.flatMap (unitRead env.reprC)).Nodup) (dev : Dict Val VDict) (result : VDict)
    (hnew : ∀ u ∈ us, Dict.get? dev (.str u.name) = none) :
    ∃ dev', passLoop skipNonDevice deviceBlock (us.flatMap (unitRead env.reprC)) (pre ++ us.flatMap (unitRead env.reprC)) ⟨dev, result⟩ =
        (pre ++ us.map (fun u => Val.dict (blockRead env.reprC u.S)), .ok ⟨dev', result⟩) ∧
      (∀ u ∈ us, u.D ≠ none → Dict.get? dev' (.str u.name) = some u.R) ∧
      ∀ k, (∀ u ∈ us, u.D ≠ none → k ≠ .str u.name) → Dict.get? dev' k = Dict.get? dev k := by
  induction us generalizing pre dev with
  | nil => exact ⟨dev, by simp [passLoop], by simp, fun _ _ => rfl⟩
  | cons u us ih =>
    have ok := hu u (by simp)
    rw [List.map_cons, List.nodup_cons] at hnames
    have hS : ∀ st, passLoop skipNonDevice deviceBlock (Val.dict (blockRead env.reprC u.S) :: us.flatMap (unitRead env.reprC))
        (pre ++ Val.dict (blockRead env.reprC u.S) :: us.flatMap (unitRead env.reprC)) st =
        passLoop skipNonDevice deviceBlock (us.flatMap (unitRead env.reprC))
          ((pre ++ [Val.dict (blockRead env.reprC u.S)]) ++ us.flatMap (unitRead env.reprC)) st := by
      intro st
      rw [passLoop]
      simp only [ok.notDev, if_true]
      rw [List.append_assoc]; rfl
    cases hD : u.D with
    | none =>
      have hb : unitRead env.reprC u = [Val.dict (blockRead env.reprC u.S)] := by simp [unitRead, IUnit.blocks, hD]
      rw [List.flatMap_cons, hb, List.singleton_append] at hn ⊢
      obtain ⟨dev', d1, d2, d3⟩ := ih (fun w hw => hu w (by simp [hw])) hnames.2 (pre ++ [Val.dict (blockRead env.reprC u.S)])
        (by simpa using hn) dev (fun w hw => hnew w (by simp [hw]))
      refine ⟨dev', by rw [hS, d1]; simp, ?_, ?_⟩
      · intro w hw hne
        rcases List.mem_cons.1 hw with rfl | hw
        · exact absurd hD hne
        · exact d2 w hw hne
      · intro k hk
        exact d3 k (fun w hw hne => hk w (by simp [hw]) hne)
    | some D =>
      have hb : unitRead env.reprC u = [Val.dict (blockRead env.reprC D), Val.dict (blockRead env.reprC u.S)] := by simp [unitRead, IUnit.blocks, hD]
      rw [List.flatMap_cons, hb, List.cons_append, List.singleton_append] at hn ⊢
      have hnot : Val.dict (blockRead env.reprC D) ∉ pre := by
        intro hm
        exact (List.nodup_append.1 hn).2.2 _ hm _ (by simp) rfl
      have hn' : (pre ++ Val.dict (blockRead env.reprC u.S) :: us.flatMap (unitRead env.reprC)).Nodup := by
        refine hn.sublist ?_
        exact List.Sublist.append_left (List.sublist_cons_self _ _) _
      obtain ⟨dev', d1, d2, d3⟩ := ih (fun w hw => hu w (by simp [hw])) hnames.2 (pre ++ [Val.dict (blockRead env.reprC u.S)])
        (by simpa using hn') (Dict.set dev (.str u.name) u.R) (fun w hw => by
          rw [Dict.get?_set', if_neg]
          · exact hnew w (by simp [hw])
          · intro e
            exact hnames.1 (List.mem_map.2 ⟨w, hw, by injection e⟩))
      refine ⟨dev', ?_, ?_, ?_⟩
      · rw [passLoop]
        simp only [ok.devSkip D hD, Bool.false_eq_true, if_false]
        rw [ok.devPass D hD ⟨dev, result⟩ (hnew u (by simp))]
        dsimp only
        rw [erase_mid _ _ _ hnot, hS, d1]; simp
      · intro w hw hne
        rcases List.mem_cons.1 hw with rfl | hw
        · rw [d3, Dict.get?_set', if_pos rfl]
          intro x hx _ e
          exact hnames.1 (List.mem_map.2 ⟨x, hx, by injection e with e; exact e.symm⟩)
        · exact d2 w hw hne
      · intro k hk
        rw [d3 k (fun w hw hne => hk w (by simp [hw]) hne), Dict.get?_set', if_neg]
        exact hk u (by simp) (by rw [hD]; simp)

/-- No device has the name of another interface up to its first dot, or, if that interface has no device, up to its last dot. -/
def Separate (us : List IUnit) : Prop := ∀ u ∈ us, ∀ w ∈ us, w.D ≠ none → '.' ∈ u.name.toList →
  w.name.toList ≠ (splitOn '.' u.name.toList).headD [] ∧ (u.D = none → w.name.toList ≠ beforeLastDot u.name.toList)

/-- the second pass: the sections -/
theorem sections_pass {env : Env} {dsa : Bool} (us : List IUnit) (hu : ∀ u ∈ us, u.OK env dsa) (hnames : (us.map IUnit.name).Nodup)
    (hsep : Separate us) (hn : (us.map (fun u => Val.dict (blockRead env.reprC u.S))).Nodup) (dev : Dict Val VDict) (result : VDict)
    (hr : ∀ u ∈ us, u.Ready dev ∧ u.NoParent dev)
    (hc : ∀ k R, Dict.get? dev k = some R → consumed R = true ∨ ∃ u ∈ us, u.D ≠ none ∧ k = .str u.name) :
    ∃ dev', passLoop skipVlan (ifaceLoop env dsa) (us.map (fun u => Val.dict (blockRead env.reprC u.S)))
        (us.map (fun u => Val.dict (blockRead env.reprC u.S))) ⟨dev, result⟩ =
        ([], .ok ⟨dev', us.foldl (fun r u => u.note r) result⟩) ∧
      ∀ k R, Dict.get? dev' k = some R → consumed R = true := by
  induction us generalizing dev result with
  | nil =>
    refine ⟨dev, by simp [passLoop], fun k R h => ?_⟩
    rcases hc k R h with h | ⟨u, hu, _⟩
    · exact h
    · simp at hu
  | cons u us ih =>
    have ok := hu u (by simp)
    rw [List.map_cons, List.nodup_cons] at hnames
    obtain ⟨R, hR, hp⟩ := ok.secPass ⟨dev, result⟩ (hr u (by simp)).1
    rw [List.map_cons, passLoop]
    simp only [ok.secSkip dev (hr u (by simp)).2, Bool.false_eq_true, if_false, List.erase_cons_head]
    rw [hp]
    dsimp only
    refine ih (fun w hw => hu w (by simp [hw])) hnames.2 (fun x hx w hw => hsep x (by simp [hx]) w (by simp [hw])) (by
      rw [List.map_cons, List.nodup_cons] at hn; exact hn.2) _ _ ?_ ?_
    · intro w hw
      have hne : Val.str w.name ≠ .str u.name := by
        intro e
        exact hnames.1 (List.mem_map.2 ⟨w, hw, by injection e⟩)
      have hrw := hr w (by simp [hw])
      split
      · exact hrw
      · next hD =>
        have s1 := hsep w (by simp [hw]) u (by simp) hD
        refine ⟨⟨fun h => ?_, fun h => ⟨?_, ?_, fun hd => ?_⟩⟩, fun hd => ?_⟩
        · rw [Dict.get?_set', if_neg hne]; exact hrw.1.1 h
        · rw [Dict.get?_set', if_neg hne]; exact (hrw.1.2 h).1
        · rw [Dict.get?_set', if_neg (by simp)]; exact (hrw.1.2 h).2.1
        · rw [Dict.get?_set', if_neg]
          · exact (hrw.1.2 h).2.2 hd
          · intro e
            apply (s1 hd).2 h
            have := txt_inj (a := beforeLastDot w.name.toList) (b := u.name.toList) (by rw [e]; simp [txt])
            exact this.symm
        · rw [Dict.get?_set', if_neg]
          · exact hrw.2 hd
          · intro e
            apply (s1 hd).1
            have := txt_inj (a := (splitOn '.' w.name.toList).headD []) (b := u.name.toList) (by rw [e]; simp [txt])
            exact this.symm
    · intro k Q hk
      by_cases hD : u.D = none
      · rw [if_pos hD] at hk
        rcases hc k Q hk with h | ⟨w, hw, h1, h2⟩
        · exact .inl h
        · rcases List.mem_cons.1 hw with rfl | hw
          · exact absurd hD h1
          · exact .inr ⟨w, hw, h1, h2⟩
      · rw [if_neg hD, Dict.get?_set'] at hk
        by_cases e : k = .str u.name
        · rw [if_pos e] at hk
          cases hk
          exact .inl hR
        · rw [if_neg e] at hk
          rcases hc k Q hk with h | ⟨w, hw, h1, h2⟩
          · exact .inl h
          · rcases List.mem_cons.1 hw with rfl | hw
            · exact absurd h2 e
            · exact .inr ⟨w, hw, h1, h2⟩

theorem fallbacks_none {env : Env} {dsa : Bool} (ks : List Val) (st : IfState)
    (h : ∀ k ∈ ks, consumed ((Dict.get? st.dev k).getD []) = true) : fallbacks env dsa ks st = .ok st := by
  induction ks with
  | nil => rfl
  | cons k ks ih =>
    rw [fallbacks]
    have := h k (by simp)
    unfold consumed at this
    rw [if_pos this]
    exact ih (fun x hx => h x (by simp [hx]))

theorem map_nodup_inj {α β : Type} {f : α → β} {l : List α} (h : (l.map f).Nodup) {x y : α} (hx : x ∈ l) (hy : y ∈ l) (e : f x = f y) : x = y := by
  induction l with
  | nil => cases hx
  | cons a l ih =>
    rw [List.map_cons, List.nodup_cons] at h
    rcases List.mem_cons.1 hx with rfl | hx <;> rcases List.mem_cons.1 hy with rfl | hy
    · rfl
    · exact absurd (List.mem_map.2 ⟨y, hy, e.symm⟩) h.1
    · next hx' => exact absurd (List.mem_map.2 ⟨x, hx', e⟩ : f y ∈ l.map f) h.1
    · exact ih h.2 hx hy

/-- all blocks are read -/
theorem units_back {env : Env} {dsa : Bool} (us : List IUnit) (hu : ∀ u ∈ us, u.OK env dsa) (hnames : (us.map IUnit.name).Nodup)
    (hsep : Separate us) (hn : (us.flatMap (unitRead env.reprC)).Nodup) :
    ∃ dev, ifacesBack env dsa (us.flatMap (unitRead env.reprC)) = ([], .ok ⟨dev, us.foldl (fun r u => u.note r) []⟩) := by
  obtain ⟨dev1, a1, a2, a3⟩ := devices_pass us hu hnames [] (by simpa using hn) [] [] (fun _ _ => rfl)
  have hn2 : (us.map (fun u => Val.dict (blockRead env.reprC u.S))).Nodup := by
    refine hn.sublist ?_
    clear * -
    induction us with
    | nil => simp
    | cons u us ih =>
      rw [List.map_cons, List.flatMap_cons, ← List.singleton_append]
      refine List.Sublist.append ?_ ih
      unfold unitRead IUnit.blocks
      split
      · exact List.Sublist.refl _
      · exact List.sublist_cons_self _ _
  have hkeys : ∀ k, (∀ u ∈ us, u.D ≠ none → k ≠ .str u.name) → Dict.get? dev1 k = none := fun k hk => by rw [a3 k hk]; rfl
  have hnodev : ∀ u ∈ us, u.D = none → ∀ w ∈ us, w.D ≠ none → Val.str u.name ≠ .str w.name := by
    intro u hu' hD w hw hDw e
    injection e with e
    have : u = w := map_nodup_inj hnames hu' hw e
    rw [this] at hD
    exact hDw hD
  obtain ⟨dev2, b1, b2⟩ := sections_pass us hu hnames hsep hn2 dev1 [] (by
      intro u hu'
      refine ⟨⟨a2 u hu', fun hD => ⟨hkeys _ (hnodev u hu' hD), hkeys _ (by simp), fun hd => hkeys _ ?_⟩⟩, fun hd => hkeys _ ?_⟩
      · intro w hw hDw e
        exact (hsep u hu' w hw hDw hd).2 hD (txt_inj (by rw [e]; simp [txt])).symm
      · intro w hw hDw e
        exact (hsep u hu' w hw hDw hd).1 (txt_inj (by rw [e]; simp [txt])).symm)
    (by
      intro k R hk
      right
      by_contra hcon
      rw [hkeys k (fun u hu' hD e => hcon ⟨u, hu', hD, e⟩)] at hk
      cases hk)
  refine ⟨dev2, ?_⟩
  unfold ifacesBack
  rw [List.nil_append] at a1
  rw [a1]
  dsimp only
  rw [List.nil_append, b1]
  dsimp only
  rw [fallbacks_none]
  · rfl
  · intro k hk
    cases hg : Dict.get? dev2 k with
    | none => exact absurd hk ((Dict.get?_eq_none_iff _ _).1 hg)
    | some R => exact b2 k R hg


/-! ## Together -/

theorem IUnit.OK.named {env : Env} {dsa : Bool} {u : IUnit} (h : u.OK env dsa) : ∀ b ∈ u.blocks, Named b := by
  intro b hb
  obtain ⟨n, hn, _⟩ := (h.plain b hb).name
  exact ⟨n, hn⟩

theorem nodup_of_map {α β : Type} (f : α → β) {l : List α} (h : (l.map f).Nodup) : l.Nodup := by
  unfold List.Nodup at h ⊢
  rw [List.pairwise_map] at h
  exact h.imp (fun hne e => hne (by rw [e]))

/-- Interfaces that each come back on their own come back together. -/
theorem units_round {env : Env} {dsa : Bool} (sh : Val → Bool) {config : VDict} {ds : List VDict} (us : List IUnit) (hne : ds ≠ [])
    (hk : Dict.get? config "interfaces" = some (.list (ds.map .dict)))
    (hf : List.Forall₂ (fun (u : IUnit) (d : VDict) => ∀ result, ifaceFwd sh env dsa config ([], result) (.dict d) = addUnit sh u.D u.S result) us ds)
    (hu : ∀ u ∈ us, u.OK env dsa) (hnames : (us.map IUnit.name).Nodup) (hsep : Separate us)
    (hn : ((us.flatMap IUnit.blocks).map nameKey).Nodup) :
    viaText env.reprC (ifacesConv sh env dsa) (ifacesBConv env dsa) config = .ok (us.foldl (fun r u => u.note r) []) := by
  have hblocks : us.flatMap IUnit.blocks ≠ [] := by
    intro e
    cases hf with
    | nil => exact hne rfl
    | @cons u d us ds _ _ =>
      rw [List.flatMap_cons] at e
      have := (List.append_eq_nil_iff.1 e).1
      unfold IUnit.blocks at this
      split at this <;> cases this
  have hplain : ∀ b ∈ us.flatMap IUnit.blocks, PlainData b := by
    intro b hb
    obtain ⟨u, hu', hb⟩ := List.mem_flatMap.1 hb
    exact (hu u hu').plain b hb
  obtain ⟨t, t1, t2⟩ := text_read env.reprC [("network", us.flatMap IUnit.blocks)] (by simp) (by intro p hp; simp at hp; subst hp; exact (by decide : IsWord "network".toList))
    (by intro p hp; simp at hp; subst hp; exact hplain)
  have hread : (us.flatMap IUnit.blocks).map (fun b => Val.dict (blockRead env.reprC b)) = us.flatMap (unitRead env.reprC) := by
    rw [List.map_flatMap]; rfl
  have hnread : (us.flatMap (unitRead env.reprC)).Nodup := by
    rw [← hread]
    apply nodup_of_map (fun v => match v with
      | Val.dict b => nameKey b
      | _ => .obj .none)
    rw [List.map_map]
    have : (us.flatMap IUnit.blocks).map ((fun v => match v with
      | Val.dict b => nameKey b
      | _ => .obj .none) ∘ (fun b => Val.dict (blockRead env.reprC b))) = (us.flatMap IUnit.blocks).map nameKey := by
      apply List.map_congr_left
      intro b hb
      obtain ⟨u, hu', hb⟩ := List.mem_flatMap.1 hb
      simp only [Function.comp, nameKey, (hu u hu').nameRead b hb]
    rw [this]
    exact hn
  obtain ⟨dev, hb⟩ := units_back us hu hnames hsep hnread
  refine viaText_eq (inter := interOf [("network", us.flatMap IUnit.blocks)]) (by
      simp [ifacesConv, pureConv, Dict.has, hk]) ?_ t1 t2 (by simp [ifacesBConv, interOf, Dict.has, Dict.get?]) ?_
  · show ifacesRun sh env dsa config = _
    unfold ifacesRun
    rw [hk]
    simp only [Option.getD_some]
    have := units_forward sh (ifaceFwd sh env dsa config) ds us hf [] (by
      intro b hb
      obtain ⟨u, hu', hb⟩ := List.mem_flatMap.1 (by simpa using hb)
      exact (hu u hu').named b hb) (by simpa using hn)
    have e0 : netOf [] = [] := rfl
    rw [e0] at this
    rw [this]
    simp only [bind, Except.bind, pure, Except.pure, List.nil_append, netOf, hblocks, if_false, interOf, List.map_cons, List.map_nil]
  · unfold ifacesBConv
    simp only [interOf, List.map_cons, List.map_nil, List.map_map, Dict.get?_cons_self, Option.getD_some]
    have hread' : (us.flatMap IUnit.blocks).map (Val.dict ∘ blockRead env.reprC) = us.flatMap (unitRead env.reprC) := hread
    rw [hread', hb]

/-! ## What the configuration says in the end -/

theorem appendTo_get (result : VDict) (k x : String) (v l : List Val)
    (h : Dict.get? result k = none ∧ l = [] ∨ Dict.get? result k = some (.list l)) :
    Dict.get? (appendTo result k v) x = if x = k then some (.list (l ++ v)) else Dict.get? result x := by
  unfold appendTo
  rcases h with ⟨h, rfl⟩ | h
  · rw [h]; dsimp only; rw [Dict.get?_set']; rfl
  · rw [h]; dsimp only; rw [Dict.get?_set']

/-- a list in the configuration, that is not there when it would be empty -/
def listItem (l : List Val) : Option Val := if l = [] then none else some (.list l)

theorem listItem_or (l : List Val) {o : Option Val} (h : o = listItem l) : o = none ∧ l = [] ∨ o = some (.list l) := by
  unfold listItem at h
  split at h
  · next e => exact .inl ⟨h, e⟩
  · exact .inr h

theorem withNames_get (result : VDict) (k x : String) (names : List String) (l : List Val) (h : Dict.get? result k = listItem l) :
    Dict.get? (withNames k names result) x = if x = k then listItem (l ++ names.map .str) else Dict.get? result x := by
  unfold withNames
  by_cases hn : names = []
  · subst hn
    rw [if_pos rfl]
    by_cases hx : x = k
    · rw [if_pos hx, hx, h]; simp
    · rw [if_neg hx]
  · rw [if_neg hn, appendTo_get result k x _ l (listItem_or l h)]
    by_cases hx : x = k
    · rw [if_pos hx, if_pos hx]
      unfold listItem
      rw [if_neg (by simp [hn])]
    · rw [if_neg hx, if_neg hx]

theorem note_get (us : List IUnit) (result : VDict) (a b c : List Val) (h1 : Dict.get? result "interfaces" = listItem a)
    (h2 : Dict.get? result "dns_servers" = listItem b) (h3 : Dict.get? result "dns_search" = listItem c) (x : String) :
    Dict.get? (us.foldl (fun r u => u.note r) result) x =
      if x = "interfaces" then listItem (a ++ us.map (fun u => Val.dict u.r))
      else if x = "dns_servers" then listItem (b ++ (us.flatMap IUnit.servers).map .str)
      else if x = "dns_search" then listItem (c ++ (us.flatMap IUnit.search).map .str)
      else Dict.get? result x := by
  induction us generalizing result a b c with
  | nil =>
    simp only [List.foldl_nil, List.map_nil, List.append_nil, List.flatMap_nil]
    split
    · next e => rw [e, h1]
    split
    · next e => rw [e, h2]
    split
    · next e => rw [e, h3]
    rfl
  | cons u us ih =>
    have g1 := fun x => withNames_get result "dns_servers" x u.servers b h2
    have g2 := fun x => withNames_get (withNames "dns_servers" u.servers result) "dns_search" x u.search c (by rw [g1, if_neg (by decide), h3])
    have g3 : ∀ x, Dict.get? (u.note result) x = if x = "interfaces" then some (.list (a ++ [.dict u.r])) else if x = "dns_search" then
        listItem (c ++ u.search.map .str) else if x = "dns_servers" then listItem (b ++ u.servers.map .str) else Dict.get? result x := by
      intro x
      unfold IUnit.note
      rw [appendTo_get _ _ _ _ a (listItem_or a (by rw [g2, if_neg (by decide), g1, if_neg (by decide), h1])), g2, g1]
    rw [List.foldl_cons, ih (u.note result) (a ++ [.dict u.r]) (b ++ u.servers.map .str) (c ++ u.search.map .str)
      (by rw [g3, if_pos rfl]; simp [listItem]) (by rw [g3]; simp) (by rw [g3]; simp), g3]
    simp only [List.map_cons, List.flatMap_cons, List.map_append, List.append_assoc, List.singleton_append]
    by_cases e1 : x = "interfaces"
    · simp [e1]
    by_cases e2 : x = "dns_servers"
    · simp [e2]
    by_cases e3 : x = "dns_search"
    · simp [e3]
    simp [e1, e2, e3]

end NJ
