import Verif.Compose
import Verif.PropsIfaces

/-!
# The interfaces among the other blocks of the network package

The passes over the network package when it begins with the globals block, if there is one, and has blocks of other converters at its end.
-/

namespace NJ

theorem pass_skip {skip : Dict Val VDict → VDict → Bool} {handler : VDict → IfState → Except PyErr IfState} {suf : List VDict} {rest : List Val}
    {st : IfState} (hs : ∀ b ∈ suf, ∀ dev, skip dev b = true) : passLoop skip handler (suf.map .dict) rest st = (rest, .ok st) := by
  induction suf with
  | nil => rfl
  | cons b suf ih =>
    rw [List.map_cons, passLoop]
    simp only [hs b (by simp), if_true]
    exact ih (fun x hx => hs x (by simp [hx]))

/-- blocks that are skipped do not change a pass -/
theorem pass_suffix {skip : Dict Val VDict → VDict → Bool} {handler : VDict → IfState → Except PyErr IfState} {l rest rest' : List Val} {suf : List VDict}
    {st st' : IfState} (hn : l.Nodup) (hl : ∀ v ∈ l, v ∈ rest) (hs : ∀ b ∈ suf, ∀ dev, skip dev b = true)
    (h : passLoop skip handler l rest st = (rest', .ok st')) :
    passLoop skip handler (l ++ suf.map .dict) (rest ++ suf.map .dict) st = (rest' ++ suf.map .dict, .ok st') := by
  induction l generalizing rest st with
  | nil =>
    rw [passLoop] at h
    cases h
    rw [List.nil_append]
    exact pass_skip hs
  | cons v l ih =>
    rw [List.nodup_cons] at hn
    rw [List.cons_append]
    cases v with
    | dict b =>
      rw [passLoop] at h ⊢
      split at h
      · next e =>
        rw [if_pos e]
        exact ih hn.2 (fun x hx => hl x (by simp [hx])) h
      · next e =>
        rw [if_neg e]
        cases hh : handler b st with
        | error e => rw [hh] at h; cases h
        | ok s =>
          rw [hh] at h
          dsimp only at h ⊢
          rw [List.erase_append_left _ (hl _ (by simp))]
          refine ih hn.2 (fun x hx => ?_) h
          rw [List.mem_erase_of_ne]
          · exact hl x (by simp [hx])
          · rintro rfl; exact hn.1 hx
    | _ => simp [passLoop] at h

/-- the block with the globals and the configuration it begins with -/
structure GlobalsBlock (env : Env) (dsa : Bool) (G : VDict) (result : VDict) : Prop where
  notDev : ∀ dev, skipNonDevice dev G = true
  notVlan : ∀ dev, skipVlan dev G = false
  run : ∀ st, ifaceLoop env dsa G st = .ok ⟨st.dev, result⟩

/-- at most one block with globals -/
def GlobalsBlocks (env : Env) (dsa : Bool) (gs : List VDict) (result : VDict) : Prop :=
  gs = [] ∧ result = [] ∨ ∃ G, gs = [G] ∧ GlobalsBlock env dsa G result

theorem units_back_among {env : Env} {dsa : Bool} (us : List IUnit) (hu : ∀ u ∈ us, u.OK env dsa) (hnames : (us.map IUnit.name).Nodup)
    (hsep : Separate us) {gs others : List VDict} {result : VDict} (hg : GlobalsBlocks env dsa gs result)
    (ho : ∀ b ∈ others, skipBlock ifaceTypes b = true)
    (hn : (gs.map Val.dict ++ us.flatMap (unitRead env.reprC)).Nodup) :
    ∃ dev, ifacesBack env dsa (gs.map Val.dict ++ us.flatMap (unitRead env.reprC) ++ others.map .dict) =
      (others.map .dict, .ok ⟨dev, us.foldl (fun r u => u.note r) result⟩) := by
  obtain ⟨dev1, a1, a2, a3⟩ := devices_pass us hu hnames (gs.map Val.dict) hn [] [] (fun _ _ => rfl)
  have hn2 : (gs.map Val.dict ++ us.map (fun u => Val.dict (blockRead env.reprC u.S))).Nodup := by
    refine hn.sublist (List.Sublist.append (List.Sublist.refl _) ?_)
    clear * -
    induction us with
    | nil => simp
    | cons u us ih =>
      rw [List.map_cons, List.flatMap_cons, ← List.singleton_append]
      refine List.Sublist.append ?_ ih
      unfold unitRead IUnit.blocks
      split
      · exact List.Sublist.refl _
      · exact List.sublist_cons_self _ _
  have hkeys : ∀ k, (∀ u ∈ us, u.D ≠ none → k ≠ .str u.name) → Dict.get? dev1 k = none := fun k hk => by rw [a3 k hk]; rfl
  have hnodev : ∀ u ∈ us, u.D = none → ∀ w ∈ us, w.D ≠ none → Val.str u.name ≠ .str w.name := by
    intro u hu' hD w hw hDw e
    injection e with e
    have : u = w := map_nodup_inj hnames hu' hw e
    rw [this] at hD
    exact hDw hD
  obtain ⟨dev2, b1, b2⟩ := sections_pass us hu hnames hsep (List.nodup_append.1 hn2).2.1 dev1 result (by
      intro u hu'
      refine ⟨⟨a2 u hu', fun hD => ⟨hkeys _ (hnodev u hu' hD), hkeys _ (by simp), fun hd => hkeys _ ?_⟩⟩, fun hd => hkeys _ ?_⟩
      · intro w hw hDw e
        exact (hsep u hu' w hw hDw hd).2 hD (txt_inj (by rw [e]; simp [txt])).symm
      · intro w hw hDw e
        exact (hsep u hu' w hw hDw hd).1 (txt_inj (by rw [e]; simp [txt])).symm)
    (by
      intro k R hk
      right
      by_contra hcon
      rw [hkeys k (fun u hu' hD e => hcon ⟨u, hu', hD, e⟩)] at hk
      cases hk)
  refine ⟨dev2, ?_⟩
  have c1 : passLoop skipNonDevice deviceBlock (gs.map Val.dict ++ us.flatMap (unitRead env.reprC)) (gs.map Val.dict ++ us.flatMap (unitRead env.reprC)) ⟨[], []⟩ =
      (gs.map Val.dict ++ us.map (fun u => Val.dict (blockRead env.reprC u.S)), .ok ⟨dev1, []⟩) := by
    rcases hg with ⟨rfl, rfl⟩ | ⟨G, rfl, hG⟩
    · exact a1
    · rw [List.map_cons, List.map_nil, List.singleton_append, passLoop]
      simp only [hG.notDev, if_true]
      exact a1
  have c2 : passLoop skipVlan (ifaceLoop env dsa) (gs.map Val.dict ++ us.map (fun u => Val.dict (blockRead env.reprC u.S)))
      (gs.map Val.dict ++ us.map (fun u => Val.dict (blockRead env.reprC u.S))) ⟨dev1, []⟩ =
      ([], .ok ⟨dev2, us.foldl (fun r u => u.note r) result⟩) := by
    rcases hg with ⟨rfl, rfl⟩ | ⟨G, rfl, hG⟩
    · exact b1
    · rw [List.map_cons, List.map_nil, List.singleton_append, passLoop]
      simp only [hG.notVlan, Bool.false_eq_true, if_false, hG.run, List.erase_cons_head]
      exact b1
  have s1 : ∀ b ∈ others, ∀ dev, skipNonDevice dev b = true := fun b hb dev => by unfold skipNonDevice; rw [ho b hb]; rfl
  have s2 : ∀ b ∈ others, ∀ dev, skipVlan dev b = true := fun b hb dev => by unfold skipVlan; rw [ho b hb]; rfl
  unfold ifacesBack
  rw [pass_suffix hn (fun _ h => h) s1 c1]
  dsimp only
  rw [pass_suffix hn2 (fun _ h => h) s2 c2]
  dsimp only
  rw [fallbacks_none]
  · exact pass_skip (fun b hb _ => ho b hb)
  · intro k hk
    cases hg : Dict.get? dev2 k with
    | none => exact absurd hk ((Dict.get?_eq_none_iff _ _).1 hg)
    | some R => exact b2 k R hg

end NJ
