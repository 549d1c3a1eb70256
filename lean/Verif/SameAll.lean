import Verif.SameRun

/-!
# The conversion of an OpenWrt configuration does not look at the order of the options
-/

namespace NJ

set_option linter.unusedVariables false
variable {env : Env} {X : Spec} {d e : VDict} {dsa : Bool} {c c' : VDict}

/-! ## Files -/

theorem TopSame.files (h : TopSame dsa c c') : OptRel (Sec flat) (Dict.get? c "files") (Dict.get? c' "files") := h.at' "files"

theorem TopSame.setFiles (h : TopSame dsa c c') {v w : Val} (hv : Sec flat v w) : TopSame dsa (Dict.set c "files" v) (Dict.set c' "files" w) := by
  refine ⟨Dict.nodup_set h.left _ _, Dict.nodup_set h.right _ _, fun k => ?_⟩
  rw [Dict.get?_set, Dict.get?_set]
  split
  · rename_i e
    subst e
    exact .some hv
  · exact h.at' k

theorem TopSame.addFile (h : TopSame dsa c c') {f : Option VDict} (hf : ∀ d, f = some d → (Dict.keys d).Nodup) :
    TopSame dsa (addVpnFile c f) (addVpnFile c' f) := by
  cases f with
  | none => exact h
  | some d =>
    have hd : Blk flat (.dict d) (.dict d) := .dict (sameD_refl (hf d rfl))
    show TopSame dsa (appendTo c "files" [.dict d]) (appendTo c' "files" [.dict d])
    unfold appendTo
    have := h.files
    generalize Dict.get? c "files" = a at this ⊢
    generalize Dict.get? c' "files" = b at this ⊢
    have hn : Sec flat (.list [.dict d]) (.list [.dict d]) := .list (.cons hd .nil)
    cases this with
    | none => exact h.setFiles hn
    | some q =>
      cases q with
      | same _ h1 h2 =>
        rename_i v
        cases v <;> first | exact h.setFiles hn | exact absurd rfl (h2 _)
      | dict _ => exact h.setFiles hn
      | list hl => exact h.setFiles (.list (List.rel_append hl (.cons hd .nil)))

theorem tlsFile_nodup {d b : VDict} {f : Option VDict} (h : tlsAuth env d = .ok (b, f)) : ∀ x, f = some x → (Dict.keys x).Nodup := by
  unfold tlsAuth at h
  dsimp only at h
  split at h
  · cases h
    exact fun x q => nomatch q
  · obtain ⟨t, _, h⟩ := bind_ok_iff.1 h
    split at h
    · cases h
      exact fun x q => nomatch q
    · obtain ⟨ca, _, h⟩ := bind_ok_iff.1 h
      cases h
      intro x q
      cases q
      simp only [Dict.keys, List.map_cons, List.map_nil]
      decide

theorem uciVpnFile_nodup {d b : VDict} {f : Option VDict} (h : uciVpnBlock env d = .ok (b, f)) : ∀ x, f = some x → (Dict.keys x).Nodup := by
  unfold uciVpnBlock at h
  dsimp only at h
  obtain ⟨_, _, h⟩ := bind_ok_iff.1 h
  obtain ⟨_, _, h⟩ := bind_ok_iff.1 h
  unfold vpnBlock at h
  obtain ⟨_, _, h⟩ := bind_ok_iff.1 h
  obtain ⟨_, _, h⟩ := bind_ok_iff.1 h
  obtain ⟨⟨_, g⟩, e1, h⟩ := bind_ok_iff.1 h
  cases h
  exact tlsFile_nodup e1

/-! ## OpenVPN and ZeroTier -/

theorem sameRun_map {α β : Type} {x y : VDict × Except PyErr α} (h : SameRun dsa x y) (f : α → β) :
    SameRun dsa (x.1, x.2 >>= fun a => pure (f a)) (y.1, y.2 >>= fun a => pure (f a)) := by
  cases h with
  | ok r h => exact .ok (f r) h
  | error c c' e e' => exact .error _ _ _ _

theorem same_vpnBlocks {l m : List Val} (hl : List.Forall₂ (Blk vpnSpec) l m) (h : TopSame dsa c c') :
    SameRun dsa (vpnBlocks (uciVpnBlock env) c l) (vpnBlocks (uciVpnBlock env) c' m) := by
  induction hl generalizing c c' with
  | nil => exact .ok [] h
  | cons hv _ ih =>
    rename_i v w l m _
    rw [vpnBlocks, vpnBlocks]
    have hx : RelE Eq (asDict v >>= uciVpnBlock env) (asDict w >>= uciVpnBlock env) := relE_bind hv.asDict fun _ _ => same_uciVpnBlock
    rw [relE_eq hx]
    cases hb : asDict w >>= uciVpnBlock env with
    | error e => exact .error _ _ _ _
    | ok p =>
      obtain ⟨b, f⟩ := p
      obtain ⟨d, hd, hb⟩ := bind_ok_iff.1 hb
      exact sameRun_map (ih (h.addFile (uciVpnFile_nodup hb))) _

theorem convSame_vpn : ConvSame dsa (uciVpnConv env) := by
  refine ⟨fun h => h.has _, fun {c c'} inter hc => ?_⟩
  show SameRun dsa (vpnRun (uciVpnBlock env) c inter) (vpnRun (uciVpnBlock env) c' inter)
  unfold vpnRun
  have hs := hc.sec (k := "openvpn") (X := vpnSpec) rfl
  generalize (Dict.get? c "openvpn").getD .none = v at hs ⊢
  generalize (Dict.get? c' "openvpn").getD .none = w at hs ⊢
  cases hs with
  | same _ h1 h2 => cases v <;> first | exact .error _ _ _ _ | exact absurd rfl (h2 _)
  | dict _ => exact .error _ _ _ _
  | list hl => exact sameRun_map (same_vpnBlocks hl hc) _

theorem same_netjsonFiles (h : TopSame dsa c c') : RelE (List.Forall₂ (Blk flat)) (netjsonFiles c) (netjsonFiles c') := by
  unfold netjsonFiles
  have := h.files
  generalize Dict.get? c "files" = a at this ⊢
  generalize Dict.get? c' "files" = b at this ⊢
  cases this with
  | none => exact .ok .nil
  | some q =>
    cases q with
    | same _ h1 h2 =>
      rename_i v
      cases v <;> first | exact .error _ | exact absurd rfl (h2 _)
    | dict _ => exact .error _
    | list hl => exact .ok hl

theorem same_ztConfig (hd : SameD ztSpec d e) (h : TopSame dsa c c') : RelE (TopSame dsa) (ztConfig env c d) (ztConfig env c' e) := by
  unfold ztConfig
  exact relE_bind (same_netjsonFiles h) fun a b hab => relE_bind (same_ztFiles hd hab) fun a b hab => .ok (h.setFiles (.list hab))

theorem same_ztAll {l m : List Val} (hl : List.Forall₂ (Blk ztSpec) l m) (h : TopSame dsa c c') :
    SameRun dsa (ztAll env c l) (ztAll env c' m) := by
  induction hl generalizing c c' with
  | nil => exact .ok [] h
  | cons hv _ ih =>
    rename_i v w l m _
    rw [ztAll, ztAll]
    have h1 := hv.asDict
    generalize asDict v = a at h1 ⊢
    generalize asDict w = b at h1 ⊢
    cases h1 with
    | error e => exact .error _ _ _ _
    | ok hd =>
      rename_i d e
      dsimp only
      have h2 := same_ztConfig (env := env) hd h
      generalize ztConfig env c d = a at h2 ⊢
      generalize ztConfig env c' e = b at h2 ⊢
      cases h2 with
      | error e => exact .error _ _ _ _
      | ok hc =>
        dsimp only
        rw [relE_eq (same_ztBlocks hd)]
        cases ztBlocks e with
        | error e => exact .error _ _ _ _
        | ok bs => exact sameRun_map (ih hc) _

theorem convSame_zt : ConvSame dsa (ztConv env) := by
  refine ⟨fun h => h.has _, fun {c c'} inter hc => ?_⟩
  show SameRun dsa (ztRun env c inter) (ztRun env c' inter)
  unfold ztRun
  have hs := hc.sec (k := "zerotier") (X := ztSpec) rfl
  generalize (Dict.get? c "zerotier").getD .none = v at hs ⊢
  generalize (Dict.get? c' "zerotier").getD .none = w at hs ⊢
  cases hs with
  | same _ h1 h2 => cases v <;> first | exact .error _ _ _ _ | exact absurd rfl (h2 _)
  | dict _ => exact .error _ _ _ _
  | list hl => exact sameRun_map (same_ztAll hl hc) _

/-! ## The default converter -/

/-- what becomes of an entry of the configuration, and its part of the result -/
def entryRun (env : Env) (known : List String) (p : String × Val) : (String × Val) × Except PyErr (List (String × Val)) :=
  match p.2 with
  | .list l =>
    if p.1 ∈ known then (p, .ok [])
    else ((p.1, .list (defaultBlocks env 1 l).1), do
      let bs ← (defaultBlocks env 1 l).2
      pure (if bs.isEmpty then [] else [(p.1, .list bs)]))
  | _ => (p, .ok [])

theorem defaultLoop_cons {known : List String} (p : String × Val) (r : VDict) :
    (∃ e, (entryRun env known p).2 = .error e ∧ (defaultLoop env known (p :: r)).2 = .error e) ∨
      (∃ x, (entryRun env known p).2 = .ok x ∧
        defaultLoop env known (p :: r) = ((entryRun env known p).1 :: (defaultLoop env known r).1, (defaultLoop env known r).2 >>= fun rest => pure (x ++ rest))) := by
  obtain ⟨k, v⟩ := p
  have hp : (defaultLoop env known r).2 = (defaultLoop env known r).2 >>= fun rest => pure ([] ++ rest) := by
    cases (defaultLoop env known r).2 <;> rfl
  rw [defaultLoop.eq_def, entryRun]
  cases v with
  | list l =>
    dsimp only
    by_cases hk : k ∈ known
    · rw [if_pos hk, if_pos hk]
      exact .inr ⟨[], rfl, by rw [← hp]⟩
    · rw [if_neg hk, if_neg hk]
      generalize defaultBlocks env 1 l = y
      obtain ⟨l', bs⟩ := y
      cases bs with
      | error e => exact .inl ⟨e, rfl, rfl⟩
      | ok bs =>
        refine .inr ⟨if bs.isEmpty then [] else [(k, .list bs)], rfl, ?_⟩
        cases bs with
        | nil => cases (defaultLoop env known r).2 <;> rfl
        | cons _ _ => rfl
  | _ => exact .inr ⟨[], rfl, by dsimp only; rw [← hp]⟩

/-- the loop is done entry by entry -/
theorem defaultLoop_parts {known : List String} {r : VDict} {x : VDict} (h : (defaultLoop env known r).2 = .ok x) :
    (defaultLoop env known r).1 = r.map (fun p => (entryRun env known p).1) ∧
      ∃ l, r.mapM (fun p => (entryRun env known p).2) = .ok l ∧ x = l.flatten := by
  induction r generalizing x with
  | nil =>
    cases h
    exact ⟨rfl, [], rfl, rfl⟩
  | cons p r ih =>
    rcases defaultLoop_cons (env := env) (known := known) p r with ⟨e, _, h1⟩ | ⟨y, h1, h2⟩
    · rw [h1] at h; cases h
    · rw [h2] at h ⊢
      obtain ⟨rest, e1, h⟩ := bind_ok_iff.1 h
      obtain ⟨i1, l, i2, i3⟩ := ih e1
      refine ⟨by rw [i1]; rfl, y :: l, ?_, ?_⟩
      · rw [List.mapM_cons, h1, i2]; rfl
      · rw [← pure_ok_iff.1 h, i3]; rfl

theorem defaultLoop_ok_of {known : List String} {r : VDict} (h : ∀ p ∈ r, ∃ x, (entryRun env known p).2 = .ok x) :
    ∃ x, (defaultLoop env known r).2 = .ok x := by
  induction r with
  | nil => exact ⟨[], rfl⟩
  | cons p r ih =>
    obtain ⟨z, hz⟩ := h p (List.mem_cons_self ..)
    obtain ⟨rest, e1⟩ := ih fun q hq => h q (List.mem_cons_of_mem _ hq)
    rcases defaultLoop_cons (env := env) (known := known) p r with ⟨e, h0, h1⟩ | ⟨y, h1, h2⟩
    · rw [hz] at h0; cases h0
    · rw [h2]
      dsimp only
      rw [e1]
      exact ⟨_, rfl⟩

theorem entries_ok {known : List String} {r : VDict} {x : VDict} (h : (defaultLoop env known r).2 = .ok x) :
    ∀ p ∈ r, ∃ x, (entryRun env known p).2 = .ok x := by
  obtain ⟨l, h1, h2⟩ := (defaultLoop_parts h).2
  clear h h2
  induction r generalizing l with
  | nil => exact fun _ q => nomatch q
  | cons p r ih =>
    rw [List.mapM_cons] at h1
    obtain ⟨y, e1, h1⟩ := bind_ok_iff.1 h1
    obtain ⟨l', e2, h1⟩ := bind_ok_iff.1 h1
    intro q hq
    rcases List.mem_cons.1 hq with rfl | hq
    · exact ⟨y, e1⟩
    · exact ih l' e2 q hq

theorem mem_flatten_mapM {α β : Type} {f : α → Except PyErr (List β)} {r : List α} {l : List (List β)} (h : r.mapM f = .ok l) {x : β} :
    x ∈ l.flatten ↔ ∃ p ∈ r, ∃ y, f p = .ok y ∧ x ∈ y := by
  induction r generalizing l with
  | nil => cases h; simp
  | cons p r ih =>
    rw [List.mapM_cons] at h
    obtain ⟨y, e1, h⟩ := bind_ok_iff.1 h
    obtain ⟨l', e2, h⟩ := bind_ok_iff.1 h
    rw [← pure_ok_iff.1 h, List.flatten_cons, List.mem_append, ih e2]
    constructor
    · rintro (q | ⟨p', hp, z, hz⟩)
      · exact ⟨p, List.mem_cons_self .., y, e1, q⟩
      · exact ⟨p', List.mem_cons_of_mem _ hp, z, hz⟩
    · rintro ⟨p', hp, z, hz, hx⟩
      rcases List.mem_cons.1 hp with rfl | hp
      · rw [e1] at hz
        cases hz
        exact .inl hx
      · exact .inr ⟨p', hp, z, hz, hx⟩

theorem entry_keys {known : List String} {p : String × Val} {y : List (String × Val)} (h : (entryRun env known p).2 = .ok y) : (Dict.keys y).Sublist [p.1] := by
  rw [entryRun] at h
  split at h
  · split at h
    · cases h; exact List.nil_sublist _
    · obtain ⟨bs, _, h⟩ := bind_ok_iff.1 h
      rw [← pure_ok_iff.1 h]
      split
      · exact List.nil_sublist _
      · exact List.Sublist.refl _
  · cases h; exact List.nil_sublist _

theorem result_keys {known : List String} {r : VDict} {l : List (List (String × Val))} (h : r.mapM (fun p => (entryRun env known p).2) = .ok l) :
    (Dict.keys l.flatten).Sublist (Dict.keys r) := by
  induction r generalizing l with
  | nil => cases h; exact List.Sublist.refl _
  | cons p r ih =>
    rw [List.mapM_cons] at h
    obtain ⟨y, e1, h⟩ := bind_ok_iff.1 h
    obtain ⟨l', e2, h⟩ := bind_ok_iff.1 h
    rw [← pure_ok_iff.1 h]
    show (List.map _ (y ++ l'.flatten)).Sublist _
    rw [List.map_append]
    exact (entry_keys e1).append (ih e2)

theorem entry_key {known : List String} {p : String × Val} : (entryRun env known p).1.1 = p.1 := by
  rw [entryRun]
  split
  · split <;> rfl
  · rfl

/-- the blocks of a package -/
theorem same_defaultBlocks {i : Nat} {l m : List Val} (h : List.Forall₂ (Blk flat) l m) :
    (defaultBlocks env i l).2 = (defaultBlocks env i m).2 ∧
      ((∃ bs, (defaultBlocks env i l).2 = .ok bs) → List.Forall₂ (Blk flat) (defaultBlocks env i l).1 (defaultBlocks env i m).1) := by
  induction h generalizing i with
  | nil => exact ⟨rfl, fun _ => .nil⟩
  | cons h hl ih =>
    rename_i v w l m
    rw [defaultBlocks.eq_def, defaultBlocks.eq_def env i (w :: m)]
    dsimp only
    cases h with
    | same _ hn =>
      cases v <;> first | exact absurd rfl (hn _) | exact ⟨(ih (i := i)).1, fun q => .cons (.same _ hn) ((ih (i := i)).2 q)⟩
    | dict hd =>
      rename_i d e
      dsimp only
      rw [hd.has "config_name"]
      split
      · have h1 := same_defaultBlock (env := env) (n := i) hd
        generalize defaultBlock env i d = a at h1 ⊢
        generalize defaultBlock env i e = b at h1 ⊢
        cases h1 with
        | error e => exact ⟨rfl, fun q => by obtain ⟨_, q⟩ := q; cases q⟩
        | ok hb =>
          dsimp only
          rw [(ih (i := i + 1)).1, sorted_eq hb]
          refine ⟨rfl, fun q => .cons (.dict hb) ((ih (i := i + 1)).2 ?_)⟩
          obtain ⟨_, q⟩ := q
          obtain ⟨bs, e1, _⟩ := bind_ok_iff.1 q
          exact ⟨bs, (ih (i := i + 1)).1.trans e1⟩
      · exact ⟨(ih (i := i)).1, fun q => .cons (.dict hd) ((ih (i := i)).2 q)⟩

theorem unknown_rel {k : String} (h : k ∉ knownKeys) : topRel dsa k = Sec flat := by
  unfold topRel
  have : ∀ s ∈ knownKeys, k ≠ s := fun s hs q => h (q ▸ hs)
  rw [if_neg, if_neg, if_neg, if_neg, if_neg]
  · exact this _ (by decide)
  · exact this _ (by decide)
  · exact this _ (by decide)
  · exact this _ (by decide)
  · rintro (q | q)
    · exact this _ (by decide) q
    · exact this _ (by decide) q

theorem same_entry {k : String} {v w : Val} (h : topRel dsa k v w) :
    (entryRun env knownKeys (k, v)).2 = (entryRun env knownKeys (k, w)).2 ∧
      ((∃ bs, (entryRun env knownKeys (k, v)).2 = .ok bs) → topRel dsa k (entryRun env knownKeys (k, v)).1.2 (entryRun env knownKeys (k, w)).1.2) := by
  by_cases hk : k ∈ knownKeys
  · have : ∀ v, entryRun env knownKeys (k, v) = ((k, v), .ok []) := by
      intro v
      rw [entryRun]
      split
      · rw [if_pos hk]
      · rfl
    rw [this, this]
    exact ⟨rfl, fun _ => h⟩
  · rw [unknown_rel hk] at h ⊢
    cases h with
    | same _ h1 h2 => cases v <;> first | exact absurd rfl (h1 _) | exact absurd rfl (h2 _) | exact ⟨rfl, fun _ => .same _ h1 h2⟩
    | dict h => exact ⟨rfl, fun _ => .dict h⟩
    | list hl =>
      rw [entryRun, entryRun]
      dsimp only
      rw [if_neg hk, if_neg hk]
      dsimp only
      rw [(same_defaultBlocks hl).1]
      refine ⟨rfl, fun ⟨bs, q⟩ => .list ((same_defaultBlocks hl).2 ?_)⟩
      obtain ⟨bs, e1, _⟩ := bind_ok_iff.1 q
      exact ⟨bs, (same_defaultBlocks hl).1.trans e1⟩

theorem get?_mapEntry {known : List String} {r : VDict} {k : String} :
    Dict.get? (r.map fun p => (entryRun env known p).1) k = (Dict.get? r k).map fun v => (entryRun env known (k, v)).1.2 := by
  induction r with
  | nil => rfl
  | cons p r ih =>
    rw [List.map_cons, Dict.get?_cons, Dict.get?_cons, entry_key]
    by_cases h : p.1 = k
    · subst h
      rw [if_pos rfl, if_pos rfl]
      rfl
    · rw [if_neg h, if_neg h, ih]

theorem TopSame.symm_ok (h : TopSame dsa c c') : (∀ p ∈ c, ∃ x, (entryRun env knownKeys p).2 = .ok x) ↔ ∀ p ∈ c', ∃ x, (entryRun env knownKeys p).2 = .ok x := by
  constructor
  · intro hc p hp
    have h1 := Dict.get?_of_mem (k := p.1) (v := p.2) h.right hp
    have h2 := h.at' p.1
    rw [h1] at h2
    generalize hg : Dict.get? c p.1 = a at h2
    cases h2 with
    | some q =>
      rw [← (same_entry (env := env) q).1]
      exact hc _ (Dict.mem_of_get? hg)
  · intro hc p hp
    have h1 := Dict.get?_of_mem (k := p.1) (v := p.2) h.left hp
    have h2 := h.at' p.1
    rw [h1] at h2
    generalize hg : Dict.get? c' p.1 = a at h2
    cases h2 with
    | some q =>
      have := (same_entry (env := env) q).1
      obtain ⟨x, hx⟩ := hc _ (Dict.mem_of_get? hg)
      exact ⟨x, this.trans hx⟩

theorem same_results {k : String} {l l' : List (List (String × Val))} (h : TopSame dsa c c') (h1 : c.mapM (fun p => (entryRun env knownKeys p).2) = .ok l)
    (h2 : c'.mapM (fun p => (entryRun env knownKeys p).2) = .ok l') : l.flatten.Perm l'.flatten := by
  refine (List.perm_ext_iff_of_nodup (nodup_pairs (h.left.sublist (result_keys h1))) (nodup_pairs (h.right.sublist (result_keys h2)))).2 fun x => ?_
  rw [mem_flatten_mapM h1, mem_flatten_mapM h2]
  constructor
  · rintro ⟨p, hp, y, hy, hx⟩
    have q := h.at' p.1
    rw [Dict.get?_of_mem (k := p.1) (v := p.2) h.left hp] at q
    generalize hg : Dict.get? c' p.1 = a at q
    cases q with
    | some q => exact ⟨_, Dict.mem_of_get? hg, y, ((same_entry (env := env) q).1).symm.trans hy, hx⟩
  · rintro ⟨p, hp, y, hy, hx⟩
    have q := h.at' p.1
    rw [Dict.get?_of_mem (k := p.1) (v := p.2) h.right hp] at q
    generalize hg : Dict.get? c p.1 = a at q
    cases q with
    | some q => exact ⟨_, Dict.mem_of_get? hg, y, ((same_entry (env := env) q).1).trans hy, hx⟩

theorem sameD_of_perm (h : d.Perm e) (hd : (Dict.keys d).Nodup) : SameD flat d e :=
  have he : (Dict.keys e).Nodup := (h.map Prod.fst).nodup_iff.1 hd
  sameD_flat hd he fun k => by
    cases hk : Dict.get? e k with
    | some v => exact Dict.get?_of_mem hd (h.symm.subset (Dict.mem_of_get? hk))
    | none =>
      refine (Dict.get?_eq_none_iff _ _).2 fun q => (Dict.get?_eq_none_iff _ _).1 hk ?_
      exact (h.map Prod.fst).subset q

theorem convSame_default : ConvSame dsa (defaultConv env knownKeys) := by
  refine ⟨fun _ => rfl, fun {c c'} inter hc => ?_⟩
  show SameRun dsa ((defaultLoop env knownKeys c).1, _) ((defaultLoop env knownKeys c').1, _)
  cases h1 : (defaultLoop env knownKeys c).2 with
  | error e =>
    cases h2 : (defaultLoop env knownKeys c').2 with
    | error e' => exact .error _ _ _ _
    | ok x =>
      obtain ⟨y, hy⟩ := defaultLoop_ok_of (hc.symm_ok.2 (entries_ok h2))
      rw [h1] at hy; cases hy
  | ok x =>
    obtain ⟨y, h2⟩ := defaultLoop_ok_of (hc.symm_ok.1 (entries_ok h1))
    rw [h2]
    obtain ⟨a1, l, a2, a3⟩ := defaultLoop_parts h1
    obtain ⟨b1, m, b2, b3⟩ := defaultLoop_parts h2
    have hp : sortedDict x = sortedDict y := by
      subst a3 b3
      exact sorted_eq (sameD_of_perm (same_results (k := "") hc a2 b2) (hc.left.sublist (result_keys a2)))
    show SameRun dsa (_, .ok (sortedDict x)) (_, .ok (sortedDict y))
    rw [hp, a1, b1]
    have hk : ∀ r : VDict, Dict.keys (r.map fun p => (entryRun env knownKeys p).1) = Dict.keys r := by
      intro r
      rw [Dict.keys, List.map_map]
      exact List.map_congr_left fun p _ => entry_key
    refine .ok _ ⟨by rw [hk]; exact hc.left, by rw [hk]; exact hc.right, fun k => ?_⟩
    rw [get?_mapEntry, get?_mapEntry]
    have q := hc.at' k
    have hok := entries_ok h1
    generalize hg : Dict.get? c k = a at q ⊢
    generalize Dict.get? c' k = b at q ⊢
    cases q with
    | none => exact .none
    | some q => exact .some ((same_entry q).2 (hok _ (Dict.mem_of_get? hg)))

/-! ## All converters -/

theorem openwrt_convs_same {sh : Val → Bool} : ∀ conv ∈ openwrtConvs env sh dsa, ConvSame dsa conv := by
  intro conv hc
  simp only [openwrtConvs, List.mem_cons, List.not_mem_nil, or_false] at hc
  rcases hc with rfl | rfl | rfl | rfl | rfl | rfl | rfl | rfl | rfl | rfl | rfl | rfl | rfl
  · exact convSame_fwd rfl fun _ _ _ _ => same_generalFwd
  · exact convSame_fwd rfl fun _ _ _ _ => same_ntpFwd
  · exact convSame_fwd rfl fun _ _ _ _ => same_ledFwd
  · exact convSame_ifaces
  · exact convSame_fwd rfl fun _ _ _ _ => same_routeFwd
  · exact convSame_fwd rfl fun _ _ _ _ => same_ruleFwd
  · exact convSame_fwd rfl fun _ _ _ _ => same_switchFwd
  · exact convSame_fwd rfl fun _ _ _ _ => same_radioFwd
  · exact convSame_wireless
  · exact convSame_vpn
  · exact convSame_fwd rfl fun _ _ _ _ => same_peerFwd
  · exact convSame_zt
  · exact convSame_default

/-- both fail, or both succeed with the same result, the same intermediate data and configurations with the same data -/
inductive SameSt {α : Type} (dsa : Bool) : BState × Except PyErr α → BState × Except PyErr α → Prop
  | ok {c c' : VDict} (i : Option VDict) (r : α) : TopSame dsa c c' → SameSt dsa (⟨c, i⟩, .ok r) (⟨c', i⟩, .ok r)
  | error (s s' : BState) (e e' : PyErr) : SameSt dsa (s, .error e) (s', .error e')

theorem convLoop_same {cls : Class} {convs : List Conv} (hall : ∀ conv ∈ convs, ConvSame dsa conv) {i : VDict} (h : TopSame dsa c c') :
    SameSt dsa (convLoop cls convs c i) (convLoop cls convs c' i) := by
  induction convs generalizing c c' i with
  | nil => exact .ok _ _ h
  | cons conv convs ih =>
    have hc := hall conv (List.mem_cons_self ..)
    have ih := fun {c c' i} (h : TopSame dsa c c') => @ih c c' (fun q hq => hall q (List.mem_cons_of_mem _ hq)) i h
    rw [convLoop, convLoop, hc.should h]
    split
    · exact ih h
    · have hr := hc.run i h
      generalize conv.run c i = x at hr ⊢
      generalize conv.run c' i = y at hr ⊢
      cases hr with
      | error => exact .error _ _ _ _
      | ok r h =>
        dsimp only
        split
        · exact ih h
        · cases mergeConfig cls.sh [".name"] i r with
          | error e => exact .error _ _ _ _
          | ok j => exact ih h

end NJ
