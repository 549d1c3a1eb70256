import Verif.Safe

/-!
# No internal errors: the converters of Conv.lean

For each section, what its values have to be (`…Fit`), and that the converter then raises nothing but a `ValidationError` and makes
sections with names that are texts.
-/

namespace NJ

theorem safe_fwdList {loop : Option Nat → Val → VDict → Except PyErr VDict} {Q : Val → Prop}
    (h : ∀ i v r, Q v → IsPkgs r → Safe IsPkgs (loop i v r)) {l : List Val} (hl : ∀ v ∈ l, Q v) (i : Nat) {r : VDict} (hr : IsPkgs r) :
    Safe IsPkgs (fwdList loop i r l) := by
  induction l generalizing i r with
  | nil => exact hr
  | cons v vs ih =>
    rw [fwdList]
    exact safe_bind (h _ _ _ (hl v List.mem_cons_self) hr) fun r' hr' => ih (fun w hw => hl w (List.mem_cons_of_mem _ hw)) _ hr'

theorem safe_fwd_list {key : String} {loop : Option Nat → Val → VDict → Except PyErr VDict} {Q : Val → Prop} {config : VDict}
    (h : ∀ i v r, Q v → IsPkgs r → Safe IsPkgs (loop i v r)) (hc : Key config key (IsLst Q)) : Safe IsPkgs (fwd key loop config) := by
  obtain ⟨v, hv, l, rfl, hl⟩ := hc
  unfold fwd
  rw [hv]
  exact safe_fwdList h hl 1 pkgs_nil

theorem safe_fwd_obj {key : String} {loop : Option Nat → Val → VDict → Except PyErr VDict} {Q : VDict → Prop} {config : VDict}
    (h : ∀ i v r, IsObj Q v → IsPkgs r → Safe IsPkgs (loop i v r)) (hc : Key config key (IsObj Q)) : Safe IsPkgs (fwd key loop config) := by
  obtain ⟨v, hv, d, rfl, hd⟩ := hc
  unfold fwd
  rw [hv]
  exact h _ _ _ ⟨d, rfl, hd⟩ pkgs_nil

/-- the value taken, or the default -/
theorem popOr_prop {d : VDict} {k : String} {x : Val} {P : Val → Prop} (h : Opt d k P) (hx : P x) : P (popOr d k x).1 := by
  unfold popOr
  cases hv : Dict.get? d k with
  | none => exact hx
  | some v => exact h v hv

theorem safe_popOrElse {d : VDict} {k : String} {f : VDict → Except PyErr Val} {P : Val → Prop} (h : Opt d k P)
    (hf : Safe P (f (Dict.erase d k))) : Safe (fun r => P r.1 ∧ r.2 = Dict.erase d k) (popOrElse d k f) := by
  unfold popOrElse
  cases hv : Dict.get? d k with
  | none => exact safe_bind hf fun n hn => ⟨hn, rfl⟩
  | some v =>
    dsimp only
    split
    · exact ⟨h v hv, rfl⟩
    · exact safe_bind hf fun n hn => ⟨hn, rfl⟩

/-! ## general, ntp -/

/-- names are texts, the time zone is known -/
def GeneralFit (env : Env) (d : VDict) : Prop :=
  (Dict.keys d).Nodup ∧ Opt d "id" IsTxt ∧ Opt d "globals_id" IsTxt ∧ Opt d "timezone" (fun z => ∃ s, z = .str s ∧ (env.tz s).isSome = true)

theorem ulaBlock_safe {env : Env} {d : VDict} (h : GeneralFit env d) :
    Safe (fun r => (∀ u, r.1 = some u → IsBlock u) ∧ GeneralFit env r.2) (ulaBlock d) := by
  unfold ulaBlock
  split
  · rename_i hu
    dsimp only [popOr]
    refine safe_bind (safe_popKey (P := fun _ => True) (key_erase (by decide) (key_of hu fun _ _ => trivial))) ?_
    rintro ⟨ula, g⟩ ⟨-, hg⟩
    dsimp only at hg
    subst hg
    refine ⟨?_, Dict.nodup_erase (Dict.nodup_erase h.1 _) _, opt_erase (opt_erase h.2.1), opt_erase (opt_erase h.2.2.1),
      opt_erase (opt_erase h.2.2.2)⟩
    intro u hu
    have hu := Option.some.inj hu
    subst hu
    refine block_sorted (d := [(".type", .str "globals"), (".name", (Dict.get? d "globals_id").getD (.str "globals")), ("ula_prefix", ula)]) ?_
    have hg : IsTxt ((Dict.get? d "globals_id").getD (.str "globals")) := popOr_prop h.2.2.1 (isTxt_str _)
    generalize (Dict.get? d "globals_id").getD (.str "globals") = w at hg
    exact ⟨by simp [Dict.keys], w, by simp [Dict.get?_cons], hg⟩
  · exact ⟨fun u hu => (nomatch hu), h⟩

theorem systemBlock_safe {env : Env} {d : VDict} (h : GeneralFit env d) :
    Safe (fun r => ∀ u, r = some u → IsBlock u) (systemBlock env d) := by
  unfold systemBlock
  split
  · exact fun u hu => by cases hu
  · dsimp only [popOr]
    have hb : IsBlock (Dict.update (Dict.erase d "id") [(".type", .str "system"), (".name", (Dict.get? d "id").getD (.str "system")),
        ("hostname", (Dict.get? (Dict.erase d "id") "hostname").getD (.str "OpenWRT"))]) := by
      refine block_update (Dict.nodup_erase h.1 _) (by simp [Dict.keys]) ?_
      intro p hp hn
      simp only [List.mem_cons, List.not_mem_nil, or_false] at hp
      rcases hp with rfl | rfl | rfl
      · exact absurd hn (by simp)
      · exact popOr_prop h.2.1 (isTxt_str _)
      · exact absurd hn (by simp)
    have ht : Opt (Dict.update (Dict.erase d "id") [(".type", .str "system"), (".name", (Dict.get? d "id").getD (.str "system")),
        ("hostname", (Dict.get? (Dict.erase d "id") "hostname").getD (.str "OpenWRT"))]) "timezone"
        (fun z => ∃ s, z = .str s ∧ (env.tz s).isSome = true) := by
      refine opt_update (opt_erase h.2.2.2) ?_
      intro p hp hn
      simp only [List.mem_cons, List.not_mem_nil, or_false] at hp
      rcases hp with rfl | rfl | rfl <;> exact absurd hn (by simp)
    generalize Dict.update (Dict.erase d "id") _ = g at hb ht
    split
    · rintro u ⟨⟩
      exact block_sorted hb
    · rename_i zone hz
      obtain ⟨s, e, hs⟩ := ht _ hz
      cases e
      cases ht' : env.tz zone with
      | none => rw [ht'] at hs; cases hs
      | some posix =>
        rintro u ⟨⟩
        exact block_sorted (block_set (block_set hb (by decide)) (by decide))
    · rename_i hz hn
      obtain ⟨s, e, -⟩ := ht _ hn
      exact absurd e (hz s)

theorem generalFwd_safe {env : Env} {i : Option Nat} {v : Val} {r : VDict} (h : IsObj (GeneralFit env) v) (hr : IsPkgs r) :
    Safe IsPkgs (generalFwd env i v r) := by
  unfold generalFwd
  refine safe_bind (safe_asDict h) fun d hd => ?_
  refine safe_bind (ulaBlock_safe hd) ?_
  rintro ⟨ula, g⟩ ⟨hu, hg⟩
  refine safe_bind (systemBlock_safe hg) fun sys hs => ?_
  cases sys with
  | none =>
    cases ula with
    | none => exact hr
    | some u => exact pkgs_set hr (obj_block (hu u rfl))
  | some s =>
    have h1 := pkgs_set (k := "system") hr (obj_block (hs s rfl))
    cases ula with
    | none => exact h1
    | some u => exact pkgs_set h1 (obj_block (hu u rfl))

theorem general_safe {env : Env} {config : VDict} (h : Key config "general" (IsObj (GeneralFit env))) :
    Safe IsPkgs (fwd "general" (generalFwd env) config) := safe_fwd_obj (fun _ _ _ hv hr => generalFwd_safe hv hr) h

/-- the name is a text -/
def NtpFit (d : VDict) : Prop := (Dict.keys d).Nodup ∧ Opt d "id" IsTxt

theorem ntpFwd_safe {i : Option Nat} {v : Val} {r : VDict} (h : IsObj NtpFit v) (hr : IsPkgs r) : Safe IsPkgs (ntpFwd i v r) := by
  unfold ntpFwd
  split
  · refine safe_bind (safe_asDict h) fun d hd => ?_
    dsimp only [popOr]
    refine pkgs_set hr (obj_block (block_sorted (block_update (Dict.nodup_erase hd.1 _) (by simp [Dict.keys]) ?_)))
    intro p hp hn
    simp only [List.mem_cons, List.not_mem_nil, or_false] at hp
    rcases hp with rfl | rfl
    · exact absurd hn (by simp)
    · exact popOr_prop hd.2 (isTxt_str _)
  · exact hr

theorem ntp_safe {config : VDict} (h : Key config "ntp" (IsObj NtpFit)) : Safe IsPkgs (fwd "ntp" ntpFwd config) :=
  safe_fwd_obj (fun _ _ _ hv hr => ntpFwd_safe hv hr) h

/-! ## led -/

def LedFit (d : VDict) : Prop := (Dict.keys d).Nodup ∧ Opt d "id" IsTxt ∧ Key d "name" IsTxt

theorem ledFwd_safe {env : Env} {i : Option Nat} {v : Val} {r : VDict} (h : IsObj LedFit v) (hr : IsPkgs r) :
    Safe IsPkgs (ledFwd env i v r) := by
  unfold ledFwd
  refine safe_bind (safe_asDict h) fun d hd => ?_
  refine safe_bind (Q := IsBlock) ?_ fun b hb => pkgs_append hr (obj_block hb)
  unfold ledBlock
  refine safe_bind (safe_popOrElse hd.2.1 ?_) ?_
  · unfold ledAutoName
    refine safe_bind (safe_getKey (key_erase (by decide) hd.2.2)) fun n hn => ?_
    exact safe_bind (safe_asText hn) fun t _ => isTxt_txt _
  · rintro ⟨n, e⟩ ⟨hn, he⟩
    dsimp only at hn he
    subst he
    refine block_sorted (block_update (Dict.nodup_erase hd.1 _) (by simp [Dict.keys]) ?_)
    intro p hp hk
    simp only [List.mem_cons, List.not_mem_nil, or_false] at hp
    rcases hp with rfl | rfl
    · exact absurd hk (by simp)
    · exact hn

theorem led_safe {env : Env} {config : VDict} (h : Key config "led" (IsLst (IsObj LedFit))) : Safe IsPkgs (fwd "led" (ledFwd env) config) :=
  safe_fwd_list (fun _ _ _ hv hr => ledFwd_safe hv hr) h

/-! ## routes, ip_rules -/

/-- the destination is an address -/
def RouteFit (env : Env) (d : VDict) : Prop :=
  (Dict.keys d).Nodup ∧ Opt d "name" IsTxt ∧ Key d "device" (fun _ => True) ∧ Key d "next" (fun _ => True) ∧ Key d "cost" (fun _ => True) ∧
  Key d "destination" (fun v => ∃ s, v = .str s ∧ (ipInterface env.ip6 s.toList).isSome = true)

theorem safe_ipInterface {env : Env} {v : Val} (h : ∃ s, v = .str s ∧ (ipInterface env.ip6 s.toList).isSome = true) :
    Safe (fun _ => True) (ipInterfaceV env v) := by
  obtain ⟨s, rfl, hs⟩ := h
  unfold ipInterfaceV
  dsimp only
  cases hi : ipInterface env.ip6 s.toList with
  | none => rw [hi] at hs; cases hs
  | some i => trivial

theorem routeFwd_safe {env : Env} {i : Option Nat} {v : Val} {r : VDict} (h : IsObj (RouteFit env) v) (hr : IsPkgs r) :
    Safe IsPkgs (routeFwd env i v r) := by
  unfold routeFwd
  refine safe_bind (safe_asDict h) ?_
  rintro d ⟨hnd, hname, hdev, hnext, hcost, hdest⟩
  refine safe_bind (Q := IsBlock) ?_ fun b hb => pkgs_append hr (obj_block hb)
  unfold routeBlock
  refine safe_bind (safe_popKey hdest) ?_
  rintro ⟨dest, d1⟩ ⟨hdest', e⟩
  dsimp only at e
  subst e
  refine safe_bind (safe_ipInterface hdest') fun net _ => ?_
  refine safe_bind (safe_popOrElse (P := IsTxt) (opt_erase hname) (safe_ok (isTxt_txt _))) ?_
  rintro ⟨n, d2⟩ ⟨hn, e⟩
  dsimp only at hn e
  subst e
  refine safe_bind (safe_popKey (key_erase (by decide) (key_erase (by decide) hdev))) ?_
  rintro ⟨dev, d3⟩ ⟨-, e⟩
  dsimp only at e
  subst e
  refine safe_bind (safe_popKey (key_erase (by decide) (key_erase (by decide) (key_erase (by decide) hnext)))) ?_
  rintro ⟨next, d4⟩ ⟨-, e⟩
  dsimp only at e
  subst e
  refine safe_bind (safe_popKey (key_erase (by decide) (key_erase (by decide) (key_erase (by decide) (key_erase (by decide) hcost))))) ?_
  rintro ⟨cost, d5⟩ ⟨-, e⟩
  dsimp only at e
  subst e
  refine block_sorted ?_
  have hb : ∀ (ty : String) (dev' target next' cost' : Val), IsBlock (Dict.update (Dict.erase (Dict.erase (Dict.erase (Dict.erase (Dict.erase d "destination") "name") "device") "next") "cost")
      [(".type", .str ty), (".name", n), ("interface", dev'), ("target", target), ("gateway", next'), ("metric", cost')]) := by
    intro ty dev' target next' cost'
    refine block_update (Dict.nodup_erase (Dict.nodup_erase (Dict.nodup_erase (Dict.nodup_erase (Dict.nodup_erase hnd _) _) _) _) _) (by simp [Dict.keys]) ?_
    intro p hp hk
    simp only [List.mem_cons, List.not_mem_nil, or_false] at hp
    rcases hp with rfl | rfl | rfl | rfl | rfl | rfl
    · exact absurd hk (by simp)
    · exact hn
    all_goals exact absurd hk (by simp)
  split
  · exact hb _ _ _ _ _
  · exact block_set (hb _ _ _ _ _) (by decide)

theorem routes_safe {env : Env} {config : VDict} (h : Key config "routes" (IsLst (IsObj (RouteFit env)))) :
    Safe IsPkgs (fwd "routes" (routeFwd env) config) := safe_fwd_list (fun _ _ _ hv hr => routeFwd_safe hv hr) h

/-- source and destination are networks -/
def RuleFit (env : Env) (d : VDict) : Prop :=
  (Dict.keys d).Nodup ∧ Opt d "name" IsTxt ∧ Opt d "src" (fun v => ∃ s, v = .str s ∧ (ipNetwork env.ip6 s.toList).isSome = true) ∧
  Opt d "dest" (fun v => ∃ s, v = .str s ∧ (ipNetwork env.ip6 s.toList).isSome = true)

theorem safe_ruleNet {env : Env} {d : VDict} {k : String} (h : Opt d k (fun v => ∃ s, v = .str s ∧ (ipNetwork env.ip6 s.toList).isSome = true)) :
    Safe (fun _ => True) (ruleNet env d k) := by
  unfold ruleNet
  cases hv : Dict.get? d k with
  | none => trivial
  | some v =>
    obtain ⟨s, rfl, hs⟩ := h v hv
    dsimp only
    cases hi : ipNetwork env.ip6 s.toList with
    | none => rw [hi] at hs; cases hs
    | some i => trivial

theorem ruleFwd_safe {env : Env} {i : Option Nat} {v : Val} {r : VDict} (h : IsObj (RuleFit env) v) (hr : IsPkgs r) :
    Safe IsPkgs (ruleFwd env i v r) := by
  unfold ruleFwd
  refine safe_bind (safe_asDict h) ?_
  rintro d ⟨hnd, hname, hsrc, hdest⟩
  refine safe_bind (Q := IsBlock) ?_ fun b hb => pkgs_append hr (obj_block hb)
  unfold ruleBlock
  refine safe_bind (safe_ruleNet hsrc) fun src _ => ?_
  refine safe_bind (safe_ruleNet hdest) fun dest _ => ?_
  refine safe_bind (safe_popOrElse (P := IsTxt) hname (safe_ok (isTxt_txt _))) ?_
  rintro ⟨n, d2⟩ ⟨hn, e⟩
  dsimp only at hn e
  subst e
  refine block_sorted (block_update (Dict.nodup_erase hnd _) (by simp [Dict.keys]) ?_)
  intro p hp hk
  simp only [List.mem_cons, List.not_mem_nil, or_false] at hp
  rcases hp with rfl | rfl
  · exact absurd hk (by simp)
  · exact hn

theorem rules_safe {env : Env} {config : VDict} (h : Key config "ip_rules" (IsLst (IsObj (RuleFit env)))) :
    Safe IsPkgs (fwd "ip_rules" (ruleFwd env) config) := safe_fwd_list (fun _ _ _ hv hr => ruleFwd_safe hv hr) h

/-! ## switch -/

def SwitchVlanFit (d : VDict) : Prop := (Dict.keys d).Nodup ∧ Opt d "id" IsTxt ∧ Key d "vlan" (fun _ => True)

def SwitchFit (d : VDict) : Prop :=
  (Dict.keys d).Nodup ∧ Opt d "id" IsTxt ∧ Key d "name" IsTxt ∧ Key d "vlan" (IsLst (IsObj SwitchVlanFit))

theorem vlanBlock_safe {env : Env} {n : Val} {i : Nat} {d : VDict} (h : SwitchVlanFit d) : Safe IsBlock (vlanBlock env n i d) := by
  unfold vlanBlock
  refine safe_bind (safe_popOrElse (P := IsTxt) h.2.1 (safe_ok (isTxt_txt _))) ?_
  rintro ⟨nm, e⟩ ⟨hn, he⟩
  dsimp only at hn he
  subst he
  have hmem : ∀ p ∈ ([(".type", Val.str "switch_vlan"), (".name", nm)] : VDict), p.1 = ".name" → IsTxt p.2 := by
    intro p hp hk
    simp only [List.mem_cons, List.not_mem_nil, or_false] at hp
    rcases hp with rfl | rfl
    · exact absurd hk (by simp)
    · exact hn
  have hb := block_update (Dict.nodup_erase h.1 "id") (by simp [Dict.keys]) hmem
  have hv : Key (Dict.update (Dict.erase d "id") [(".type", Val.str "switch_vlan"), (".name", nm)]) "vlan" (fun _ => True) :=
    key_update (key_erase (by decide) h.2.2) fun _ _ _ => trivial
  dsimp only
  split
  · exact block_sorted hb
  · exact safe_bind (safe_getKey hv) fun x _ => block_sorted (block_set hb (by decide))

theorem vlanBlocks_safe {env : Env} {n : Val} {l : List Val} (h : ∀ v ∈ l, IsObj SwitchVlanFit v) (i : Nat) :
    Safe (fun r => ∀ v ∈ r, IsObj IsBlock v) (vlanBlocks env n i l) := by
  induction l generalizing i with
  | nil => exact fun v hv => nomatch hv
  | cons v vs ih =>
    rw [vlanBlocks]
    refine safe_bind (safe_asDict (h v List.mem_cons_self)) fun d hd => ?_
    refine safe_bind (vlanBlock_safe hd) fun b hb => ?_
    refine safe_bind (ih (fun w hw => h w (List.mem_cons_of_mem _ hw)) _) fun bs hbs => ?_
    intro w hw
    rcases List.mem_cons.1 hw with rfl | hw
    · exact ⟨b, rfl, hb⟩
    · exact hbs w hw

theorem switchFwd_safe {env : Env} {i : Option Nat} {v : Val} {r : VDict} (h : IsObj SwitchFit v) (hr : IsPkgs r) :
    Safe IsPkgs (switchFwd env i v r) := by
  unfold switchFwd
  refine safe_bind (safe_asDict h) ?_
  rintro d ⟨hnd, hid, hname, hvlan⟩
  refine safe_bind (Q := fun bs => ∀ v ∈ bs, IsObj IsBlock v) ?_ fun b hb => pkgs_append hr hb
  unfold switchBlocks
  refine safe_bind (safe_popOrElse hid (safe_getKey (key_erase (by decide) hname))) ?_
  rintro ⟨nm, e⟩ ⟨hn, he⟩
  dsimp only at hn he
  subst he
  have hmem : ∀ (P : Val → Prop) k, k ≠ ".type" → k ≠ ".name" → ∀ p ∈ ([(".type", Val.str "switch"), (".name", nm)] : VDict), p.1 = k → P p.2 := by
    intro P k h1 h2 p hp hk
    simp only [List.mem_cons, List.not_mem_nil, or_false] at hp
    rcases hp with rfl | rfl
    · exact absurd hk.symm h1
    · exact absurd hk.symm h2
  refine safe_bind (safe_getKey (key_update (key_erase (by decide) hvlan) (hmem _ "vlan" (by decide) (by decide)))) ?_
  rintro vs ⟨l, rfl, hl⟩
  refine safe_bind (safe_getKey (key_update (key_erase (by decide) hname) (hmem _ "name" (by decide) (by decide)))) fun nm2 _ => ?_
  refine safe_bind (vlanBlocks_safe hl 1) fun bs hbs => ?_
  intro w hw
  rcases List.mem_cons.1 hw with rfl | hw
  · refine ⟨_, rfl, block_sorted (block_erase (block_update (Dict.nodup_erase hnd _) (by simp [Dict.keys]) ?_) (by decide))⟩
    intro p hp hk
    simp only [List.mem_cons, List.not_mem_nil, or_false] at hp
    rcases hp with rfl | rfl
    · exact absurd hk (by simp)
    · exact hn
  · exact hbs w hw

theorem switch_safe {env : Env} {config : VDict} (h : Key config "switch" (IsLst (IsObj SwitchFit))) :
    Safe IsPkgs (fwd "switch" (switchFwd env) config) := safe_fwd_list (fun _ _ _ hv hr => switchFwd_safe hv hr) h

/-! ## wireguard_peers -/

theorem block_if {c : Prop} [Decidable c] {d e : VDict} (hd : IsBlock d) (he : IsBlock e) : IsBlock (if c then e else d) := by
  split
  · exact he
  · exact hd

def PeerFit (d : VDict) : Prop := (Dict.keys d).Nodup ∧ Key d "interface" IsTxt

theorem peerFwd_safe {i : Option Nat} {v : Val} {r : VDict} (h : IsObj PeerFit v) (hr : IsPkgs r) : Safe IsPkgs (peerFwd i v r) := by
  unfold peerFwd
  refine safe_bind (safe_asDict h) ?_
  rintro d ⟨hnd, hif⟩
  refine safe_bind (Q := IsBlock) ?_ fun b hb => pkgs_append hr (obj_block hb)
  unfold peerBlock
  refine safe_bind (safe_popKey hif) ?_
  rintro ⟨n, e⟩ ⟨hn, he⟩
  dsimp only at hn he
  subst he
  refine safe_bind (safe_asText hn) fun t _ => ?_
  have hb : ∀ a b : Chars, IsBlock (Dict.update (Dict.erase d "interface") [(".type", txt a), (".name", txt b)]) := by
    intro a b
    refine block_update (Dict.nodup_erase hnd _) (by simp [Dict.keys]) ?_
    intro p hp hk
    simp only [List.mem_cons, List.not_mem_nil, or_false] at hp
    rcases hp with rfl | rfl
    · exact absurd hk (by simp)
    · exact isTxt_txt _
  exact block_sorted (block_if (hb _ _) (block_erase (hb _ _) (by decide)))

theorem peers_safe {config : VDict} (h : Key config "wireguard_peers" (IsLst (IsObj PeerFit))) :
    Safe IsPkgs (fwd "wireguard_peers" peerFwd config) := safe_fwd_list (fun _ _ _ hv hr => peerFwd_safe hv hr) h

/-! ## custom packages -/

/-- a section of a custom package: the name is a text -/
def CustomFit (v : Val) : Prop := ∀ d, v = .dict d → (Dict.keys d).Nodup ∧ (Dict.has d "config_name" = true → Opt d "config_value" IsTxt)

theorem defaultBlock_safe {env : Env} {i : Nat} {d : VDict} (h : (Dict.keys d).Nodup) (hn : Dict.has d "config_name" = true) (hv : Opt d "config_value" IsTxt) :
    Safe IsBlock (defaultBlock env i d) := by
  unfold defaultBlock
  refine safe_bind (safe_popKey (key_of (P := fun _ => True) hn fun _ _ => trivial)) ?_
  rintro ⟨ty, e⟩ ⟨-, he⟩
  dsimp only at he
  subst he
  dsimp only [popOr]
  refine safe_bind (safe_asText ?_) fun t _ => ?_
  · exact popOr_prop (opt_set_ne (by decide) (opt_erase hv)) (isTxt_txt _)
  · exact ⟨Dict.nodup_set (Dict.nodup_erase (Dict.nodup_set (Dict.nodup_erase h _) _ _) _) _ _, key_set_self (isTxt_txt _)⟩

theorem defaultBlocks_safe {env : Env} {l : List Val} (h : ∀ v ∈ l, CustomFit v) (i : Nat) :
    Safe (fun r => ∀ v ∈ r, IsObj IsBlock v) (defaultBlocks env i l).2 := by
  induction l generalizing i with
  | nil => exact fun v hv => nomatch hv
  | cons v vs ih =>
    have ih := ih fun w hw => h w (List.mem_cons_of_mem _ hw)
    rw [defaultBlocks.eq_def]
    dsimp only
    split
    · rename_i d
      split
      · rename_i hn
        obtain ⟨hnd, hv⟩ := h _ List.mem_cons_self d rfl
        have hb := defaultBlock_safe (env := env) (i := i) hnd hn (hv hn)
        split
        · rename_i e he
          rw [he] at hb
          exact hb
        · rename_i b he
          rw [he] at hb
          refine safe_bind (ih _) fun bs hbs => ?_
          intro w hw
          rcases List.mem_cons.1 hw with rfl | hw
          · exact ⟨_, rfl, block_sorted hb⟩
          · exact hbs w hw
      · exact ih _
    · exact ih _

/-- the keys of the configuration the other converters do not know -/
def CustomsFit (known : List String) (config : VDict) : Prop := ∀ k l, (k, Val.list l) ∈ config → k ∉ known → ∀ v ∈ l, CustomFit v

theorem defaultLoop_safe {env : Env} {known : List String} {config : VDict} (h : CustomsFit known config) :
    Safe IsPkgs (defaultLoop env known config).2 := by
  induction config with
  | nil => exact pkgs_nil
  | cons p r ih =>
    obtain ⟨k, v⟩ := p
    have ih := ih fun k l hm hk => h k l (List.mem_cons_of_mem _ hm) hk
    rw [defaultLoop.eq_def]
    dsimp only
    split
    · rename_i l
      split
      · exact ih
      · rename_i hk
        have hb := defaultBlocks_safe (env := env) (h k l List.mem_cons_self hk) 1
        split
        · rename_i l' e he
          rw [he] at hb
          exact hb
        · rename_i l' bs he
          rw [he] at hb
          refine safe_bind ih fun rest hrest => ?_
          split
          · exact hrest
          · intro q hq
            rcases List.mem_cons.1 hq with rfl | hq
            · exact ⟨bs, rfl, hb⟩
            · exact hrest q hq
    · exact ih

theorem default_safe {env : Env} {known : List String} {config inter : VDict} (h : CustomsFit known config) :
    Safe IsPkgs ((defaultConv env known).run config inter).2 := by
  refine safe_bind (defaultLoop_safe h) fun r hr => ?_
  intro p hp
  exact hr p ((C33_sorting_keeps r).mem_iff.1 hp)

end NJ
