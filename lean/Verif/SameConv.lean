import Verif.Same

/-!
# The converters do not look at the order of the options
-/

namespace NJ

set_option linter.unusedVariables false
variable {env : Env} {X : Spec} {d e : VDict}

@[same_rule] theorem same_ulaBlock (h : SameD flat d e) : RelE (RelP Eq (SameD flat)) (ulaBlock d) (ulaBlock e) := by
  unfold ulaBlock popOr
  dsimp only
  same

@[same_rule] theorem same_systemBlock (h : SameD flat d e) : RelE Eq (systemBlock env d) (systemBlock env e) := by
  unfold systemBlock popOr
  dsimp only
  same

@[same_rule] theorem same_generalFwd {i : Option Nat} {v w : Val} {r : VDict} (h : Blk flat v w) : RelE Eq (generalFwd env i v r) (generalFwd env i w r) := by
  unfold generalFwd
  same

@[same_rule] theorem same_ntpFwd {i : Option Nat} {v w : Val} {r : VDict} (h : Blk flat v w) : RelE Eq (ntpFwd i v r) (ntpFwd i w r) := by
  unfold ntpFwd popOr
  dsimp only
  rw [h.truthy]
  same

@[same_rule] theorem same_ledAutoName (h : SameD flat d e) : RelE Eq (ledAutoName env d) (ledAutoName env e) := by
  unfold ledAutoName
  same

@[same_rule] theorem same_ledBlock (h : SameD flat d e) : RelE Eq (ledBlock env d) (ledBlock env e) := by
  unfold ledBlock
  dsimp only
  same

@[same_rule] theorem same_ledFwd {i : Option Nat} {v w : Val} {r : VDict} (h : Blk flat v w) : RelE Eq (ledFwd env i v r) (ledFwd env i w r) := by
  unfold ledFwd
  same

@[same_rule] theorem same_routeBlock {n : Nat} (h : SameD flat d e) : RelE Eq (routeBlock env n d) (routeBlock env n e) := by
  unfold routeBlock
  dsimp only
  same

@[same_rule] theorem same_routeFwd {i : Option Nat} {v w : Val} {r : VDict} (h : Blk flat v w) : RelE Eq (routeFwd env i v r) (routeFwd env i w r) := by
  unfold routeFwd
  same

@[same_rule] theorem same_ruleNet {k : String} (h : SameD flat d e) : RelE Eq (ruleNet env d k) (ruleNet env e k) := by
  unfold ruleNet
  rw [h.get_flat]
  exact relE_refl _

@[same_rule] theorem same_ruleBlock {n : Nat} (h : SameD flat d e) : RelE Eq (ruleBlock env n d) (ruleBlock env n e) := by
  unfold ruleBlock
  dsimp only
  same

@[same_rule] theorem same_ruleFwd {i : Option Nat} {v w : Val} {r : VDict} (h : Blk flat v w) : RelE Eq (ruleFwd env i v r) (ruleFwd env i w r) := by
  unfold ruleFwd
  same

@[same_rule] theorem same_vlanBlock {s : Val} {n : Nat} (h : SameD flat d e) : RelE Eq (vlanBlock env s n d) (vlanBlock env s n e) := by
  unfold vlanBlock
  dsimp only
  same

@[same_rule] theorem same_vlanBlocks {s : Val} {n : Nat} {l m : List Val} (h : List.Forall₂ (Blk flat) l m) :
    RelE Eq (vlanBlocks env s n l) (vlanBlocks env s n m) := by
  induction h generalizing n with
  | nil => exact .ok rfl
  | cons h _ ih =>
    rw [vlanBlocks, vlanBlocks]
    have ih := @ih (n + 1)
    refine relE_bind h.asDict fun d e hd => relE_bind (same_vlanBlock hd) fun a b hab => relE_bind ih fun as bs q => ?_
    rw [hab, q]
    exact .ok rfl

/-- VLANs of a switch -/
def switchSpec : Spec := ⟨["vlan"], fun _ => Sec flat⟩

theorem sameD_dropped {k : String} {R : String → Val → Val → Prop} (h : SameD ⟨[k], R⟩ d e) (hd : Dict.get? d k = none) : SameD flat d e :=
  sameD_shrink h (fun q hq _ => by
    cases List.mem_singleton.1 hq
    have := h.special k (List.mem_singleton.2 rfl)
    rw [hd] at this ⊢
    revert this
    generalize Dict.get? e k = b
    intro this
    cases this with
    | none => rfl) fun _ q => nomatch q

theorem sameD_erased {k : String} {R : String → Val → Val → Prop} (h : SameD ⟨[k], R⟩ d e) : SameD flat (Dict.erase d k) (Dict.erase e k) :=
  sameD_dropped (sameD_erase h) (by rw [Dict.get?_erase', if_pos rfl])

theorem relE_getRel {k : String} (h : SameD X d e) (hk : k ∈ X.keys) : RelE (X.rel k) (getKey d k) (getKey e k) := by
  unfold getKey
  have := h.special k hk
  revert this
  generalize Dict.get? d k = a
  generalize Dict.get? e k = b
  intro this
  cases this with
  | none => exact .error _
  | some q => exact .ok q

theorem relE_popRel {k : String} (h : SameD X d e) (hk : k ∈ X.keys) : RelE (RelP (X.rel k) (SameD X)) (popKey d k) (popKey e k) := by
  unfold popKey
  have := h.special k hk
  revert this
  generalize Dict.get? d k = a
  generalize Dict.get? e k = b
  intro this
  cases this with
  | none => exact .error _
  | some q => exact .ok ⟨q, sameD_erase h⟩

@[same_rule] theorem same_switchBlocks (h : SameD switchSpec d e) : RelE Eq (switchBlocks env d) (switchBlocks env e) := by
  unfold switchBlocks
  refine relE_bind (relE_popOrElse h (by decide) fun _ _ h => relE_getKey h (by decide)) ?_
  rintro ⟨n, s⟩ ⟨n', s'⟩ ⟨hn, hs⟩
  dsimp only at hn hs ⊢
  subst hn
  have hs := sameD_update (l := [(".type", .str "switch"), (".name", n)]) hs rfl (by simp only [Dict.keys, List.map_cons, List.map_nil]; decide)
  refine relE_bind (relE_getRel hs (by decide)) fun v w hv => relE_bind (relE_getKey hs (by decide)) fun a b hab => ?_
  subst hab
  cases hv with
  | same _ h1 h2 => cases v <;> first | exact .error _ | exact absurd rfl (h2 _)
  | dict h => exact .error _
  | list h =>
    refine relE_bind (same_vlanBlocks h) fun as bs q => ?_
    rw [q, sorted_eq (sameD_erased hs)]
    exact .ok rfl

@[same_rule] theorem same_switchFwd {i : Option Nat} {v w : Val} {r : VDict} (h : Blk switchSpec v w) : RelE Eq (switchFwd env i v r) (switchFwd env i w r) := by
  unfold switchFwd
  same

@[same_rule] theorem same_peerBlock {n : Nat} (h : SameD flat d e) : RelE Eq (peerBlock n d) (peerBlock n e) := by
  unfold peerBlock
  dsimp only
  same

@[same_rule] theorem same_peerFwd {i : Option Nat} {v w : Val} {r : VDict} (h : Blk flat v w) : RelE Eq (peerFwd i v r) (peerFwd i w r) := by
  unfold peerFwd
  same

@[same_rule] theorem same_defaultBlock {n : Nat} (h : SameD flat d e) : RelE (SameD flat) (defaultBlock env n d) (defaultBlock env n e) := by
  unfold defaultBlock popOr
  dsimp only
  same

theorem same_radioBand (h : SameD flat d e) : RelP Eq (SameD flat) (radioBand d) (radioBand e) := by
  unfold radioBand popOr
  dsimp only
  same

@[same_rule] theorem same_hwmodeFromProtocol (h : SameD flat d e) : RelE Eq (hwmodeFromProtocol d) (hwmodeFromProtocol e) := by
  unfold hwmodeFromProtocol
  refine relE_bind (relE_getKey h (by decide)) fun a b hab => ?_
  subst hab
  split <;> first | exact relE_refl _ | skip
  refine relE_bind (relE_getKey h (by decide)) fun a b hab => ?_
  subst hab
  exact relE_refl _

@[same_rule] theorem same_radioHwmode (h : SameD flat d e) : RelE (RelP Eq (SameD flat)) (radioHwmode d) (radioHwmode e) := by
  unfold radioHwmode popOr
  dsimp only
  same

@[same_rule] theorem same_setBand {b : Bool} (h : SameD flat d e) : RelE (SameD flat) (setBand b d) (setBand b e) := by
  unfold setBand
  have h1 := same_radioBand h
  have h2 := same_radioHwmode h
  generalize radioBand d = x at h1 ⊢
  generalize radioBand e = x' at h1 ⊢
  generalize radioHwmode d = y at h2 ⊢
  generalize radioHwmode e = y' at h2 ⊢
  refine relE_ite Iff.rfl (fun _ => .ok (sameD_set h1.snd (by decide) h1.fst)) fun _ => relE_bind h2 fun a b hab => .ok (sameD_set hab.snd (by decide) hab.fst)

@[same_rule] theorem same_setHtmode (h : SameD flat d e) : RelE (SameD flat) (setHtmode env d) (setHtmode env e) := by
  unfold setHtmode
  dsimp only
  same

@[same_rule] theorem same_renameTxPower (h : SameD flat d e) : SameD flat (renameTxPower d) (renameTxPower e) := by
  unfold renameTxPower
  same

@[same_rule] theorem same_autoChannel (h : SameD flat d e) : RelE (SameD flat) (autoChannel d) (autoChannel e) := by
  unfold autoChannel
  same

@[same_rule] theorem same_radioWidth (h : SameD flat d e) : RelE (SameD flat) (radioWidth env d) (radioWidth env e) := by
  unfold radioWidth
  same

@[same_rule] theorem same_upperCountry (h : SameD flat d e) : RelE (SameD flat) (upperCountry env d) (upperCountry env e) := by
  unfold upperCountry
  same

@[same_rule] theorem same_radioBlock {b : Bool} (h : SameD flat d e) : RelE Eq (radioBlock env b d) (radioBlock env b e) := by
  unfold radioBlock popOr
  dsimp only
  refine relE_bind (relE_popKey h (by decide)) ?_
  rintro ⟨n, s⟩ ⟨n', s'⟩ ⟨hn, hs⟩
  dsimp only at hn hs ⊢
  subst hn
  have hs := same_renameTxPower (sameD_update_flat (l := [(".type", .str "wifi-device"), (".name", n)]) hs rfl)
  generalize renameTxPower _ = x at hs ⊢
  generalize renameTxPower _ = x' at hs ⊢
  same

@[same_rule] theorem same_radioFwd {b : Bool} {i : Option Nat} {v w : Val} {r : VDict} (h : Blk flat v w) : RelE Eq (radioFwd env b i v r) (radioFwd env b i w r) := by
  unfold radioFwd
  same

end NJ
