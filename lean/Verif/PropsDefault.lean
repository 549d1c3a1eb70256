import Verif.PropsPeers

/-!
# C52: packages the schema does not know; C53: `type_cast`; C54: names
-/

namespace NJ

/-! ## C53 -/

/-- what a value becomes when its option is declared with a type in the schema -/
inductive CastTo : Option JType → Val → Val → Prop
  /-- booleans: the text `1` is true, any other value that is not a boolean is false -/
  | boolKept (b : Bool) : CastTo (some .boolean) (.bool b) (.bool b)
  | boolRead (v : Val) (h : ∀ b, v ≠ .bool b) : CastTo (some .boolean) v (.bool (decide (v = .str "1")))
  /-- integers: a text is read as `int()` does -/
  | intKept (i : Int) : CastTo (some .integer) (.int i) (.int i)
  | intBool (b : Bool) : CastTo (some .integer) (.bool b) (.bool b)
  | intRead (s : String) (i : Int) (h : parseInt s.toList = some i) : CastTo (some .integer) (.str s) (.int i)
  /-- anything else is left alone -/
  | other (t : Option JType) (v : Val) (h1 : t ≠ some .boolean) (h2 : t ≠ some .integer) : CastTo t v v

theorem castValue_to {t : Option JType} {v w : Val} (h : castValue t v = .ok w) : CastTo t v w := by
  match t with
  | none => cases h; exact .other _ _ (by simp) (by simp)
  | some .other => cases h; exact .other _ _ (by simp) (by simp)
  | some .boolean =>
    cases v with
    | bool b => cases h; exact .boolKept b
    | _ => cases h; exact .boolRead _ (by simp)
  | some .integer =>
    cases v with
    | int i => cases h; exact .intKept i
    | bool b => cases h; exact .intBool b
    | str s =>
      simp only [castValue, pyInt] at h
      split at h
      · next i hi => cases h; exact .intRead s i hi
      · cases h
    | _ => simp [castValue, pyInt] at h

theorem castTo_value {t : Option JType} {v w : Val} (h : CastTo t v w) : castValue t v = .ok w := by
  cases h with
  | boolKept b => rfl
  | boolRead _ h => cases v <;> first | rfl | exact absurd rfl (h _)
  | intKept i => rfl
  | intBool b => rfl
  | intRead s i h => simp [castValue, pyInt, h]
  | other _ _ h1 h2 => exact castValue_other h2 h1 v

/-- C53: `type_cast` gives the same keys in the same order, each value converted according to the declared type. -/
theorem C53_type_cast (props : Dict String JType) (item out : VDict) :
    typeCast props item = .ok out ↔
      List.Forall₂ (fun a b : String × Val => b.1 = a.1 ∧ CastTo (Dict.get? props a.1) a.2 b.2) item out := by
  unfold typeCast
  induction item generalizing out with
  | nil =>
    constructor
    · intro h; cases h; exact .nil
    · intro h; cases h; rfl
  | cons p r ih =>
    constructor
    · intro h
      obtain ⟨a, rest, h1, h2, h3⟩ := (mapM_ok_cons _ _ _ _).1 h
      obtain ⟨v, h4, h5⟩ := bind_ok_iff.1 h1
      cases h5; subst h3
      exact .cons ⟨rfl, castValue_to h4⟩ ((ih rest).1 h2)
    · intro h
      cases h with
      | cons h1 h2 =>
        rename_i b bs
        refine (mapM_ok_cons _ _ _ _).2 ⟨b, bs, ?_, (ih bs).2 h2, rfl⟩
        obtain ⟨b1, b2⟩ := b
        obtain ⟨e, c⟩ := h1
        simp only at e
        rw [castTo_value c, ← e]; rfl

/-- C53: it fails exactly when an option declared integer has a value that is neither a number nor a text that reads as one. -/
theorem C53_failure (props : Dict String JType) (item : VDict) :
    (∃ e, typeCast props item = .error e) ↔
      ∃ p ∈ item, Dict.get? props p.1 = some .integer ∧ ∀ w, ¬ CastTo (some .integer) p.2 w := by
  have hone : ∀ p : String × Val, (∃ e, castValue (Dict.get? props p.1) p.2 = .error e) →
      Dict.get? props p.1 = some .integer := by
    intro p ⟨e, he⟩
    cases ht : Dict.get? props p.1 with
    | none => rw [ht] at he; cases he
    | some t =>
      rw [ht] at he
      cases t with
      | integer => rfl
      | boolean => cases hv : p.2 <;> rw [hv] at he <;> simp [castValue] at he
      | other => cases he
  constructor
  · rintro ⟨e, he⟩
    by_contra hno
    have hall : ∀ p ∈ item, ∃ w, castValue (Dict.get? props p.1) p.2 = .ok w := by
      intro p hp
      cases hc : castValue (Dict.get? props p.1) p.2 with
      | ok w => exact ⟨w, rfl⟩
      | error e =>
        have ht := hone p ⟨e, hc⟩
        exact absurd ⟨p, hp, ht, fun w hw => by rw [← ht] at hw; rw [castTo_value hw] at hc; cases hc⟩ hno
    have : ∃ f : String × Val → Val, ∀ p ∈ item, castValue (Dict.get? props p.1) p.2 = .ok (f p) := by
      refine ⟨fun p => match castValue (Dict.get? props p.1) p.2 with | .ok w => w | .error _ => .none, fun p hp => ?_⟩
      obtain ⟨w, hw⟩ := hall p hp
      simp only [hw]
    obtain ⟨f, hf⟩ := this
    rw [typeCast_ok props f item hf] at he; cases he
  · rintro ⟨p, hp, ht, hno⟩
    cases hc : typeCast props item with
    | error e => exact ⟨e, rfl⟩
    | ok out =>
      exfalso
      have := (C53_type_cast props item out).1 hc
      clear hc
      induction this with
      | nil => cases hp
      | cons h1 _ ih =>
        rcases List.mem_cons.1 hp with rfl | hp
        · rw [ht] at h1; exact hno _ h1.2
        · exact ih hp

/-- C53: an integer written in decimal is read as itself. -/
theorem C53_integers (i : Int) (w : Val) : CastTo (some .integer) (.str (String.ofList (showInt i))) w ↔ w = .int i := by
  constructor
  · intro h
    cases h with
    | intRead s j h => rw [String.toList_ofList, parseInt_showInt] at h; cases h; rfl
    | other _ _ h1 h2 => exact absurd rfl h2
  · rintro rfl
    exact .intRead _ _ (by rw [String.toList_ofList]; exact parseInt_showInt i)

example : typeCast ledProps [("interval", .str "50"), ("default", .str "0"), ("foo", .str "1"), ("mode", .str "1")] =
    .ok [("interval", .int 50), ("default", .bool false), ("foo", .str "1"), ("mode", .str "1")] := by decide +kernel

example : ∃ e, typeCast ledProps [("interval", .str "fast")] = .error e := ⟨.valueError, by decide +kernel⟩

/-! ## C54 -/

/-- C54: a name for UCI has no dots and no dashes; other characters are kept, and the length. -/
theorem C54_uciName (s : Chars) :
    '.' ∉ uciName s ∧ '-' ∉ uciName s ∧ (uciName s).length = s.length ∧
      ∀ (i : Nat) (c : Char), s[i]? = some c → (uciName s)[i]? = some (if c = '.' ∨ c = '-' then '_' else c) := by
  refine ⟨?_, ?_, by simp [uciName], ?_⟩
  · intro h
    obtain ⟨c, _, hc⟩ := List.mem_map.1 h
    split at hc
    · revert hc; decide
    · split at hc
      · revert hc; decide
      · next h1 _ => exact h1 hc
  · intro h
    obtain ⟨c, _, hc⟩ := List.mem_map.1 h
    split at hc
    · revert hc; decide
    · split at hc
      · revert hc; decide
      · next _ h2 => exact h2 hc
  · intro i c hc
    simp only [uciName, List.getElem?_map, hc, Option.map_some, Option.some.injEq]
    by_cases h1 : c = '.' <;> by_cases h2 : c = '-' <;> simp [h1, h2]

theorem uciName_id {s : Chars} (h1 : '.' ∉ s) (h2 : '-' ∉ s) : uciName s = s := by
  unfold uciName
  conv_rhs => rw [← List.map_id s]
  apply List.map_congr_left
  intro c hc
  have e1 : c ≠ '.' := fun e => h1 (e ▸ hc)
  have e2 : c ≠ '-' := fun e => h2 (e ▸ hc)
  simp [e1, e2]

example : uciName "br-lan.1".toList = "br_lan_1".toList := by decide +kernel

/-! ## C52 -/

/-- the blocks of a package that are recognised: dictionaries with a key `config_name` -/
def recognised : List Val → List VDict
  | [] => []
  | .dict b :: vs => if Dict.has b "config_name" then b :: recognised vs else recognised vs
  | _ :: vs => recognised vs

/-- the name of the block number `i` before it is made valid for UCI: `config_value`, or else the type and the position -/
def defaultName (env : Env) (i : Nat) (b : VDict) (ty : Val) : Val :=
  (Dict.get? b "config_value").getD (txt ((pyStr env.reprC ty).toList ++ '_' :: showNat i))

/-- the block number `i`, item by item -/
def defaultItem (b : VDict) (ty : Val) (nm : Chars) (k : String) : Option Val :=
  if k = ".name" then some (txt (uciName nm)) else if k = ".type" then some ty
  else if k = "config_name" ∨ k = "config_value" then none else Dict.get? b k

/-- what a recognised block number `i` becomes -/
def IsDefaultBlock (env : Env) (i : Nat) (d b : VDict) : Prop :=
  ∃ ty nm, Dict.get? d "config_name" = some ty ∧ defaultName env i d ty = txt nm ∧ ∀ k, Dict.get? b k = defaultItem d ty nm k

theorem txt_toList (s : String) : txt s.toList = .str s := by simp [txt]

theorem defaultBlock_ok {env : Env} {i : Nat} {d b : VDict} (h : defaultBlock env i d = .ok b) :
    ∃ ty nm, Dict.get? d "config_name" = some ty ∧ defaultName env i d ty = txt nm ∧ ((Dict.keys d).Nodup → (Dict.keys b).Nodup) ∧
      ∀ k, Dict.get? b k = defaultItem d ty nm k := by
  unfold defaultBlock popKey at h
  cases hc : Dict.get? d "config_name" with
  | none => rw [hc] at h; cases h
  | some ty =>
    rw [hc] at h
    simp only [bind, Except.bind, popOr] at h
    have hcv : Dict.get? (Dict.set (Dict.erase d "config_name") ".type" ty) "config_value" = Dict.get? d "config_value" := by
      simp [Dict.get?_set', Dict.get?_erase']
    rw [hcv] at h
    refine ⟨ty, ?_⟩
    unfold defaultName
    cases hn : (Dict.get? d "config_value").getD (txt ((pyStr env.reprC ty).toList ++ '_' :: showNat i)) with
    | str s =>
      rw [hn] at h
      simp only [asText, pure, Except.pure] at h
      cases h
      refine ⟨s.toList, rfl, (txt_toList s).symm, fun hd => ?_, fun k => ?_⟩
      · exact Dict.nodup_set (Dict.nodup_erase (Dict.nodup_set (Dict.nodup_erase hd _) _ _) _) _ _
      · simp only [Dict.get?_set', Dict.get?_erase', defaultItem]
        by_cases h1 : k = ".name"
        · simp [h1]
        · by_cases h2 : k = "config_value"
          · subst h2; rfl
          · by_cases h3 : k = ".type"
            · simp [h3]
            · by_cases h4 : k = "config_name" <;> simp [h1, h2, h3, h4]
    | none => rw [hn] at h; cases h
    | bool x => rw [hn] at h; cases h
    | int x => rw [hn] at h; cases h
    | list x => rw [hn] at h; cases h
    | dict x => rw [hn] at h; cases h

/-- `p` on the elements of two lists of the same length, with the position -/
def Forall2Idx {α β : Type} (p : Nat → α → β → Prop) : Nat → List α → List β → Prop
  | _, [], [] => True
  | i, x :: xs, y :: ys => p i x y ∧ Forall2Idx p (i + 1) xs ys
  | _, _, _ => False

theorem defaultBlocks_ok (env : Env) (i : Nat) (l bs : List Val) (hn : ∀ d ∈ recognised l, (Dict.keys d).Nodup)
    (h : (defaultBlocks env i l).2 = .ok bs) :
    ∃ cs : List VDict, bs = cs.map .dict ∧ Forall2Idx (IsDefaultBlock env) i (recognised l) cs := by
  induction l generalizing i bs with
  | nil => cases h; exact ⟨[], rfl, trivial⟩
  | cons v vs ih =>
    have skip : ∀ j, (defaultBlocks env j vs).2 = .ok bs → recognised (v :: vs) = recognised vs → j = i →
        ∃ cs : List VDict, bs = cs.map .dict ∧ Forall2Idx (IsDefaultBlock env) i (recognised (v :: vs)) cs := by
      intro j hj hr e
      subst e
      rw [hr] at hn ⊢
      exact ih j bs hn hj
    cases v with
    | dict b =>
      cases hb : Dict.has b "config_name" with
      | false =>
        refine skip i ?_ (by simp [recognised, hb]) rfl
        unfold defaultBlocks at h
        simpa [hb] using h
      | true =>
        unfold defaultBlocks at h
        simp only [hb, if_true] at h
        have hr : recognised (.dict b :: vs) = b :: recognised vs := by simp [recognised, hb]
        rw [hr] at hn ⊢
        split at h
        · cases h
        · next b' hb' =>
          obtain ⟨r, h1, h2⟩ := bind_ok_iff.1 h
          cases h2
          obtain ⟨ty, nm, d1, d2, d3, d4⟩ := defaultBlock_ok hb'
          obtain ⟨cs, c1, c2⟩ := ih (i + 1) r (fun d hd => hn d (by simp [hd])) h1
          have hnb := d3 (hn b (by simp))
          exact ⟨sortedDict b' :: cs, by simp [c1], ⟨ty, nm, d1, d2, fun k => by rw [get?_sortedDict hnb]; exact d4 k⟩, c2⟩
    | none => exact skip i (by simpa [defaultBlocks] using h) rfl rfl
    | bool x => exact skip i (by simpa [defaultBlocks] using h) rfl rfl
    | int x => exact skip i (by simpa [defaultBlocks] using h) rfl rfl
    | str x => exact skip i (by simpa [defaultBlocks] using h) rfl rfl
    | list x => exact skip i (by simpa [defaultBlocks] using h) rfl rfl

/-- what the output has for a key of the configuration -/
def IsDefaultPackage (env : Env) (known : List String) (k : String) (v : Option Val) (o : Option Val) : Prop :=
  match v with
  | some (.list l) =>
    if k ∈ known ∨ recognised l = [] then o = none
    else ∃ bs : List VDict, o = some (.list (bs.map .dict)) ∧ Forall2Idx (IsDefaultBlock env) 1 (recognised l) bs
  | _ => o = none

theorem forall2Idx_nil {α β : Type} {p : Nat → α → β → Prop} {i : Nat} {xs : List α} {ys : List β} (h : Forall2Idx p i xs ys) : xs = [] ↔ ys = [] := by
  cases xs <;> cases ys <;> simp [Forall2Idx] at h ⊢

theorem defaultLoop_ok (env : Env) (known : List String) (config : VDict) (out : VDict) (hn : (Dict.keys config).Nodup)
    (hb : ∀ k l, Dict.get? config k = some (.list l) → k ∉ known → ∀ d ∈ recognised l, (Dict.keys d).Nodup)
    (h : (defaultLoop env known config).2 = .ok out) :
    (Dict.keys out).Sublist (Dict.keys config) ∧ ∀ k, IsDefaultPackage env known k (Dict.get? config k) (Dict.get? out k) := by
  induction config generalizing out with
  | nil => cases h; exact ⟨.slnil, fun k => rfl⟩
  | cons p r ih =>
    obtain ⟨k0, v⟩ := p
    have hn' : (Dict.keys r).Nodup := (List.nodup_cons.1 hn).2
    have hk0 : Dict.get? r k0 = none := by
      rw [Dict.get?_eq_none_iff]; exact (List.nodup_cons.1 hn).1
    have hb' : ∀ k l, Dict.get? r k = some (.list l) → k ∉ known → ∀ d ∈ recognised l, (Dict.keys d).Nodup := by
      intro k l hk
      apply hb k l
      rw [Dict.get?]
      split
      · next e => subst e; rw [hk0] at hk; cases hk
      · exact hk
    -- the entry is left out
    have skip : ∀ o, (defaultLoop env known r).2 = .ok o → out = o → IsDefaultPackage env known k0 (some v) none →
        (Dict.keys out).Sublist (Dict.keys ((k0, v) :: r)) ∧ ∀ k, IsDefaultPackage env known k (Dict.get? ((k0, v) :: r) k) (Dict.get? out k) := by
      intro o ho e hv
      subst e
      obtain ⟨i1, i2⟩ := ih out hn' hb' ho
      refine ⟨i1.cons _, fun k => ?_⟩
      rw [Dict.get?]
      split
      · next e =>
        subst e
        have : Dict.get? out k0 = none := by
          have := i2 k0
          rw [hk0] at this; exact this
        rw [this]; exact hv
      · exact i2 k
    cases v with
    | list l =>
      unfold defaultLoop at h
      simp only at h
      split at h
      · next hkn =>
        exact skip out h rfl (by simp [IsDefaultPackage, hkn])
      · next hkn =>
        split at h
        · cases h
        · next l' bs hbs =>
          obtain ⟨rest, h1, h2⟩ := bind_ok_iff.1 h
          have hblocks := defaultBlocks_ok env 1 l bs (hb k0 l (by simp [Dict.get?]) hkn) (by rw [hbs])
          obtain ⟨cs, c1, c2⟩ := hblocks
          by_cases he : bs.isEmpty = true
          · rw [if_pos he] at h2
            cases h2
            have : cs = [] := by rw [c1] at he; simpa using he
            refine skip _ h1 rfl ?_
            have := (forall2Idx_nil c2).2 this
            simp [IsDefaultPackage, this]
          · rw [if_neg he] at h2
            cases h2
            obtain ⟨i1, i2⟩ := ih rest hn' hb' h1
            refine ⟨i1.cons_cons _, fun k => ?_⟩
            rw [Dict.get?, Dict.get?]
            split
            · next e =>
              subst e
              have hne : recognised l ≠ [] := fun e => by
                have := (forall2Idx_nil c2).1 e
                rw [this] at c1; simp [c1] at he
              simp only [IsDefaultPackage, hkn, hne, or_self, if_false]
              exact ⟨cs, by rw [c1], c2⟩
            · exact i2 k
    | none => exact skip out (by simpa [defaultLoop] using h) rfl rfl
    | bool x => exact skip out (by simpa [defaultLoop] using h) rfl rfl
    | int x => exact skip out (by simpa [defaultLoop] using h) rfl rfl
    | str x => exact skip out (by simpa [defaultLoop] using h) rfl rfl
    | dict x => exact skip out (by simpa [defaultLoop] using h) rfl rfl

/-- C52: the output has exactly the packages of the configuration that the schema does not know and that are lists with at least
one recognised block; their recognised blocks, in order, each with the type `config_name`, the name `config_value` (or type and
position) made valid for UCI, and all the other options. -/
theorem C52_packages (env : Env) (known : List String) (config inter out : VDict) (hn : (Dict.keys config).Nodup)
    (hb : ∀ k l, Dict.get? config k = some (.list l) → k ∉ known → ∀ d ∈ recognised l, (Dict.keys d).Nodup)
    (h : ((defaultConv env known).run config inter).2 = .ok out) (k : String) :
    IsDefaultPackage env known k (Dict.get? config k) (Dict.get? out k) := by
  unfold defaultConv at h
  obtain ⟨r, h1, h2⟩ := bind_ok_iff.1 h
  cases h2
  obtain ⟨i1, i2⟩ := defaultLoop_ok env known config r hn hb h1
  rw [get?_sortedDict (hn.sublist i1)]
  exact i2 k

/-- C54: the names of these sections have no dots and no dashes. -/
theorem C54_sections (env : Env) (i : Nat) (d b : VDict) (h : IsDefaultBlock env i d b) :
    ∃ s : String, Dict.get? b ".name" = some (.str s) ∧ '.' ∉ s.toList ∧ '-' ∉ s.toList := by
  obtain ⟨ty, nm, _, _, h3⟩ := h
  refine ⟨String.ofList (uciName nm), by rw [h3]; rfl, ?_, ?_⟩
  · rw [String.toList_ofList]; exact (C54_uciName nm).1
  · rw [String.toList_ofList]; exact (C54_uciName nm).2.1

/-! ### Round trip -/

/-- A block, the one number `i` of its package, whose settings survive: the type is a word; the name is a word without dots and
dashes other than the automatic one, or missing, and then the type has no dots and dashes; the other options are texts or lists
of texts that survive. -/
structure DefaultOK (i : Nat) (d : VDict) : Prop where
  options : OptionsOK [] ["config_name", "config_value"] d
  type : ∃ t : String, Dict.get? d "config_name" = some (.str t) ∧ IsWord t.toList ∧ t ≠ "device" ∧ t ≠ "bridge-vlan" ∧
    ((Dict.get? d "config_value" = none ∧ '.' ∉ t.toList ∧ '-' ∉ t.toList) ∨
     ∃ n : String, Dict.get? d "config_value" = some (.str n) ∧ IsWord n.toList ∧ '.' ∉ n.toList ∧ '-' ∉ n.toList ∧
      n.toList ≠ t.toList ++ '_' :: showNat i)

theorem default_item (env : Env) (i : Nat) (d : VDict) (h : DefaultOK i d) :
    ∃ b' r, defaultBlock env i d = .ok b' ∧ PlainBlock (sortedDict b') ∧
      defaultBlockBack env i (blockBack env.reprC (sortedDict b')) = .ok r ∧ SameItems r d := by
  obtain ⟨t, ht, htw, htd, htb, hname⟩ := h.type
  -- the name
  obtain ⟨nm, hnm, hdn, hcv⟩ : ∃ nm : String, IsWord nm.toList ∧ defaultName env i d (.str t) = .str nm ∧ uciName nm.toList = nm.toList ∧
      ((Dict.get? d "config_value" = none ∧ Val.str nm = txt (t.toList ++ '_' :: showNat i)) ∨
       (Dict.get? d "config_value" = some (.str nm) ∧ Val.str nm ≠ txt (t.toList ++ '_' :: showNat i))) := by
    rcases hname with ⟨c1, c2, c3⟩ | ⟨n, c1, c2, c3, c4, c5⟩
    · refine ⟨String.ofList (t.toList ++ '_' :: showNat i), ?_, ?_, ?_, .inl ⟨c1, rfl⟩⟩
      · rw [String.toList_ofList]
        refine isWord_append htw ?_
        intro c hc
        rcases List.mem_cons.1 hc with rfl | hc
        · decide
        · exact (autoName_word ['x'] (by decide) i).2 c (by simp [hc])
      · unfold defaultName; rw [c1]; rfl
      · rw [String.toList_ofList]
        have hd : ∀ c, isDigit c = false → c ≠ '_' → c ∉ t.toList → c ∉ t.toList ++ '_' :: showNat i := by
          intro c h1 h2 h3 h4
          rcases List.mem_append.1 h4 with h4 | h4
          · exact h3 h4
          · rcases List.mem_cons.1 h4 with h4 | h4
            · exact h2 h4
            · exact showNat_noSep i c h1 h4
        exact uciName_id (hd _ (by decide) (by decide) c2) (hd _ (by decide) (by decide) c3)
    · refine ⟨n, c2, ?_, uciName_id c3 c4, .inr ⟨c1, fun e => c5 ?_⟩⟩
      · unfold defaultName; rw [c1]; rfl
      · simp only [txt, Val.str.injEq] at e
        rw [e]; simp
  obtain ⟨huci, hcv⟩ := hcv
  -- the block
  obtain ⟨b', hb'⟩ : ∃ b', defaultBlock env i d = .ok b' := by
    unfold defaultBlock
    rw [popKey_ok ht]
    simp only [bind, Except.bind, popOr]
    have : Dict.get? (Dict.set (Dict.erase d "config_name") ".type" (.str t)) "config_value" = Dict.get? d "config_value" := by
      simp [Dict.get?_set', Dict.get?_erase']
    rw [this]
    unfold defaultName at hdn
    rw [hdn]
    exact ⟨_, rfl⟩
  obtain ⟨ty, nm', d1, d2, d3, d4⟩ := defaultBlock_ok hb'
  rw [ht] at d1; cases d1
  rw [hdn] at d2
  have hnm' : nm' = nm.toList := by
    simp only [txt, Val.str.injEq] at d2
    rw [d2]; simp
  subst hnm'
  have hnod := d3 h.options.nodup
  generalize hs : sortedDict b' = b
  have hbn : (Dict.keys b).Nodup := by rw [← hs]; exact sortedDict_nodup hnod
  have hb : ∀ k, Dict.get? b k = defaultItem d (.str t) nm.toList k := by
    intro k; rw [← hs, get?_sortedDict hnod]; exact d4 k
  have hbname : Dict.get? b ".name" = some (.str nm) := by
    rw [hb]; simp only [defaultItem, if_true, huci, txt_toList]
  have hplain : PlainBlock b := by
    refine ⟨hbn, ⟨t, by rw [hb]; rfl, htw, htd, htb⟩, ⟨nm, hbname, hnm⟩, ?_⟩
    intro k v hk h1 h2
    rw [hb] at hk
    unfold defaultItem at hk
    rw [if_neg h2, if_neg h1] at hk
    split at hk
    · cases hk
    · next h3 =>
      obtain ⟨o1, o2, o3⟩ := h.options.options k v hk (by simpa using h3)
      exact ⟨o1, o2, survives_plain o3⟩
  generalize hx : blockBack env.reprC b = x
  have hget : ∀ k, Dict.get? x k = if k = ".type" ∨ k = ".name" then Dict.get? b k else (Dict.get? b k).bind readVal := by
    intro k; rw [← hx, get?_blockBack _ hplain]
  have gname : Dict.get? x ".name" = some (.str nm) := by rw [hget, if_pos (.inr rfl)]; exact hbname
  have gtype : Dict.get? x ".type" = some (.str t) := by rw [hget, hb]; rfl
  refine ⟨b', Dict.set (if Val.str nm = txt (t.toList ++ '_' :: showNat i) then Dict.erase (Dict.erase x ".name") ".type"
    else Dict.set (Dict.erase (Dict.erase x ".name") ".type") "config_value" (.str nm)) "config_name" (.str t), hb', by rw [hs]; exact hplain, ?_, ?_⟩
  · rw [hs, hx]; unfold defaultBlockBack
    rw [popKey_ok gname]
    simp only [bind, Except.bind]
    rw [popKey_ok (v := .str t) (by rw [Dict.get?_erase', if_neg (by decide)]; exact gtype)]
    rfl
  · intro k
    rw [Dict.get?_set']
    by_cases e1 : k = "config_name"
    · subst e1; rw [if_pos rfl, ht]
    rw [if_neg e1]
    have hrest : k ≠ "config_value" → Dict.get? (Dict.erase (Dict.erase x ".name") ".type") k = Dict.get? d k := by
      intro e2
      rw [Dict.get?_erase', Dict.get?_erase']
      by_cases e3 : k = ".type"
      · subst e3; rw [if_pos rfl]; exact (h.options.dotless (by decide) (by decide)).symm
      rw [if_neg e3]
      by_cases e4 : k = ".name"
      · subst e4; rw [if_pos rfl]; exact (h.options.dotless (by decide) (by decide)).symm
      rw [if_neg e4, hget, if_neg (by simp [e3, e4]), hb]
      unfold defaultItem
      rw [if_neg e4, if_neg e3, if_neg (by simp [e1, e2])]
      cases hv : Dict.get? d k with
      | none => rfl
      | some v => exact (readVal_of_survives (h.options.options k v hv (by simp [e1, e2])).2.2).1
    have hxcv : Dict.get? (Dict.erase (Dict.erase x ".name") ".type") "config_value" = none := by
      rw [Dict.get?_erase', if_neg (by decide), Dict.get?_erase', if_neg (by decide), hget, if_neg (by decide), hb]; rfl
    rcases hcv with ⟨c1, c2⟩ | ⟨c1, c2⟩
    · rw [if_pos c2]
      by_cases e2 : k = "config_value"
      · subst e2; rw [hxcv, c1]
      · exact hrest e2
    · rw [if_neg c2, Dict.get?_set']
      by_cases e2 : k = "config_value"
      · subst e2; rw [if_pos rfl, c1]
      · rw [if_neg e2]; exact hrest e2

theorem default_items (env : Env) (i : Nat) (l : List VDict) (h : AllIdx DefaultOK i l) :
    ∃ (bs rs : List VDict) (l' : List Val), defaultBlocks env i (l.map .dict) = (l', .ok (bs.map Val.dict)) ∧ bs.length = l.length ∧ (∀ b ∈ bs, PlainBlock b) ∧
      defaultBlocksBack env i ((bs.map (blockBack env.reprC)).map .dict) = .ok (rs.map .dict) ∧ List.Forall₂ SameItems rs l := by
  induction l generalizing i with
  | nil => exact ⟨[], [], [], rfl, rfl, by simp, rfl, .nil⟩
  | cons d ds ih =>
    obtain ⟨h1, h2⟩ := h
    obtain ⟨b', r, d1, d2, d3, d4⟩ := default_item env i d h1
    obtain ⟨bs, rs, l', i1, i2, i3, i4, i5⟩ := ih (i + 1) h2
    obtain ⟨t, ht, _⟩ := h1.type
    refine ⟨sortedDict b' :: bs, r :: rs, .dict b' :: l', ?_, by simp [i2], ?_, ?_, .cons d4 i5⟩
    · rw [List.map_cons, defaultBlocks]
      simp only [Dict.has, ht, Option.isSome_some, if_true, d1, i1]
      rfl
    · intro b hb
      rcases List.mem_cons.1 hb with rfl | hb
      · exact d2
      · exact i3 b hb
    · rw [List.map_cons, List.map_cons, defaultBlocksBack]
      simp only [asDict, bind, Except.bind, d3, i4]
      rfl

/-- An unknown package whose blocks survive. -/
def PackageOK (k : String) (v : Val) : Prop :=
  IsWord k.toList ∧ ∃ l : List VDict, v = .list (l.map .dict) ∧ l ≠ [] ∧ ∀ i d, l[i]? = some d → DefaultOK (i + 1) d

/-- the blocks of a package of the configuration, and what they come back as -/
structure PackageBack (env : Env) (config : VDict) (known : List String) (k : String) (bs : List VDict) : Prop where
  unknown : k ∉ known
  word : IsWord k.toList
  ne : bs ≠ []
  plain : ∀ b ∈ bs, PlainBlock b
  back : ∃ l rs : List VDict, Dict.get? config k = some (.list (l.map .dict)) ∧
    defaultBlocksBack env 1 ((bs.map (blockBack env.reprC)).map .dict) = .ok (rs.map .dict) ∧ List.Forall₂ SameItems rs l

theorem default_loop (env : Env) (known : List String) (all : VDict) (config : VDict)
    (hsub : ∀ p ∈ config, Dict.get? all p.1 = some p.2) (h : ∀ p ∈ config, p.1 ∉ known → PackageOK p.1 p.2) :
    ∃ data : List (String × List VDict), (defaultLoop env known config).2 = .ok (interOf data) ∧
      data.map Prod.fst = (Dict.keys config).filter (fun k => decide (k ∉ known)) ∧ ∀ p ∈ data, PackageBack env all known p.1 p.2 := by
  induction config with
  | nil => exact ⟨[], rfl, rfl, by simp⟩
  | cons p r ih =>
    obtain ⟨k, v⟩ := p
    obtain ⟨data, i1, i2, i3⟩ := ih (fun p hp => hsub p (by simp [hp])) (fun p hp => h p (by simp [hp]))
    by_cases hk : k ∈ known
    · refine ⟨data, ?_, ?_, i3⟩
      · cases v <;> simp only [defaultLoop, hk, if_true] <;> exact i1
      · rw [i2]; simp [Dict.keys, hk]
    · obtain ⟨hw, l, rfl, hl, hd⟩ := h (k, v) (by simp) hk
      obtain ⟨bs, rs, l', e1, e2, e3, e4, e5⟩ := default_items env 1 l (allIdx_of_getElem (fun j d hj => by rw [Nat.add_comm]; exact hd j d hj))
      have hbne : bs ≠ [] := by
        rintro rfl
        cases l with
        | nil => exact hl rfl
        | cons x xs => simp at e2
      refine ⟨(k, bs) :: data, ?_, ?_, ?_⟩
      · simp only [defaultLoop, hk, if_false, e1]
        rw [i1]
        show Except.ok _ = _
        rw [if_neg (by simpa using hbne)]
        rfl
      · simp [Dict.keys, hk, i2]
      · intro p hp
        rcases List.mem_cons.1 hp with rfl | hp
        · exact ⟨hk, hw, hbne, e3, l, rs, hsub (k, _) (by simp), e4, e5⟩
        · exact i3 p hp

theorem exists_map {α β : Type} {f : α → β} {L : List β} {data : List α} (h : ∀ x ∈ L, x ∈ data.map f) :
    ∃ L' : List α, L = L'.map f ∧ ∀ y ∈ L', y ∈ data := by
  induction L with
  | nil => exact ⟨[], rfl, by simp⟩
  | cons x xs ih =>
    obtain ⟨L', h1, h2⟩ := ih (fun y hy => h y (by simp [hy]))
    obtain ⟨y, hy1, hy2⟩ := List.mem_map.1 (h x (by simp))
    exact ⟨y :: L', by simp [h1, hy2], by
      intro z hz
      rcases List.mem_cons.1 hz with rfl | hz
      · exact hy1
      · exact h2 z hz⟩

theorem defaultBack_ok (env : Env) (known : List String) (config : VDict) (L : List (String × List VDict))
    (h : ∀ p ∈ L, PackageBack env config known p.1 p.2) :
    ∃ out : List (String × List VDict), defaultBack env (interOf (L.map (fun p => (p.1, p.2.map (blockBack env.reprC))))) = .ok (interOf out) ∧
      out.map Prod.fst = L.map Prod.fst ∧
      ∀ o ∈ out, o.1 ∉ known ∧ ∃ l : List VDict, Dict.get? config o.1 = some (.list (l.map .dict)) ∧ List.Forall₂ SameItems o.2 l := by
  induction L with
  | nil => exact ⟨[], rfl, rfl, by simp⟩
  | cons p r ih =>
    obtain ⟨out, i1, i2, i3⟩ := ih (fun p hp => h p (by simp [hp]))
    have hp := h p (by simp)
    obtain ⟨l, rs, b1, b2, b3⟩ := hp.back
    refine ⟨(p.1, rs) :: out, ?_, by simp [i2], ?_⟩
    · obtain ⟨b, bs, hb⟩ := List.exists_cons_of_ne_nil hp.ne
      rw [hb] at b2
      have e : interOf (((p.1, b :: bs) :: r).map (fun p => (p.1, p.2.map (blockBack env.reprC)))) =
        (p.1, .list (.dict (blockBack env.reprC b) :: (bs.map (blockBack env.reprC)).map .dict)) ::
          interOf (r.map (fun p => (p.1, p.2.map (blockBack env.reprC)))) := rfl
      obtain ⟨p1, p2⟩ := p
      simp only at hb b2
      subst hb
      rw [e, defaultBack, i1]
      simp only [List.map_cons] at b2
      simp only [bind, Except.bind, b2]
      rfl
    · intro o ho
      rcases List.mem_cons.1 ho with rfl | ho
      · exact ⟨hp.unknown, l, b1, b3⟩
      · exact i3 o ho

/-- C52: a configuration all unknown packages of which survive, converted to UCI text and back, has the same unknown packages
with the same blocks in the same order. -/
theorem C52_round_trip (env : Env) (known : List String) (config : VDict) (hn : (Dict.keys config).Nodup)
    (h : ∀ k v, Dict.get? config k = some v → k ∉ known → PackageOK k v) :
    ∃ out : VDict, viaText env.reprC (defaultConv env known) (defaultBConv env) config = .ok out ∧
      ∀ k, (k ∈ known ∨ Dict.get? config k = none → Dict.get? out k = none) ∧
        ∀ l : List VDict, k ∉ known → Dict.get? config k = some (.list (l.map .dict)) →
          ∃ rs : List VDict, Dict.get? out k = some (.list (rs.map .dict)) ∧ List.Forall₂ SameItems rs l := by
  obtain ⟨data, d1, d2, d3⟩ := default_loop env known config config (fun p hp => Dict.get?_of_mem hn hp)
    (fun p hp => h p.1 p.2 (Dict.get?_of_mem hn hp))
  have hdn : (Dict.keys (interOf data)).Nodup := by
    have : Dict.keys (interOf data) = data.map Prod.fst := by simp [interOf, Dict.keys]
    rw [this, d2]
    exact hn.sublist List.filter_sublist
  obtain ⟨L, l1, l2⟩ := exists_map (f := fun p : String × List VDict => (p.1, Val.list (p.2.map Val.dict))) (L := sortedDict (interOf data)) (data := data)
    (fun x hx => (C33_sorting_keeps (interOf data)).mem_iff.1 hx)
  have hLn : (L.map Prod.fst).Nodup := by
    have := sortedDict_nodup hdn
    rw [l1] at this
    simpa [Dict.keys, Function.comp_def] using this
  have hLk : ∀ k, k ∈ L.map Prod.fst ↔ k ∈ Dict.keys config ∧ k ∉ known := by
    intro k
    have : L.map Prod.fst = Dict.keys (sortedDict (interOf data)) := by rw [l1]; simp [Dict.keys, Function.comp_def]
    rw [this]
    show k ∈ (sortedDict (interOf data)).map Prod.fst ↔ _
    rw [((C33_sorting_keeps (interOf data)).map Prod.fst).mem_iff]
    have : (interOf data).map Prod.fst = data.map Prod.fst := by simp [interOf]
    rw [this, d2]; simp
  obtain ⟨t, t1, t2⟩ := text_back env.reprC L hLn (fun p hp => (d3 p (l2 p hp)).word) (fun p hp => (d3 p (l2 p hp)).plain)
  obtain ⟨out, o1, o2, o3⟩ := defaultBack_ok env known config L (fun p hp => d3 p (l2 p hp))
  have hrun : ((defaultConv env known).run config []).2 = .ok (interOf L) := by
    show ((defaultLoop env known config).2 >>= fun r => pure (sortedDict r)) = _
    rw [d1]
    show Except.ok _ = _
    rw [l1]; rfl
  refine ⟨interOf out, viaText_eq (inter := interOf L) (text := t) rfl hrun t1 t2 rfl o1, fun k => ⟨?_, ?_⟩⟩
  · intro hk
    rw [Dict.get?_eq_none_iff]
    have e : Dict.keys (interOf out) = L.map Prod.fst := by rw [← o2]; simp [interOf, Dict.keys]
    rw [e, hLk]
    rcases hk with hk | hk
    · exact fun x => x.2 hk
    · rw [Dict.get?_eq_none_iff] at hk
      exact fun x => hk x.1
  · intro l hk hl
    have hin : k ∈ out.map Prod.fst := by
      rw [o2, hLk]
      refine ⟨?_, hk⟩
      by_contra hno
      rw [← Dict.get?_eq_none_iff, hl] at hno; cases hno
    obtain ⟨o, ho, rfl⟩ := List.mem_map.1 hin
    obtain ⟨_, l', g1, g2⟩ := o3 o ho
    rw [hl] at g1
    have : l = l' := by
      have := Val.list.inj (Option.some.inj g1)
      exact List.map_injective_iff.2 (fun a b e => Val.dict.inj e) this
    subst this
    have hon : (Dict.keys (interOf out)).Nodup := by
      have e : Dict.keys (interOf out) = L.map Prod.fst := by rw [← o2]; simp [interOf, Dict.keys]
      rw [e]; exact hLn
    exact ⟨o.2, Dict.get?_of_mem hon (List.mem_map.2 ⟨o, ho, rfl⟩), g2⟩

/-! ### The hypotheses are met -/

def samplePackages : VDict :=
  [("luci", .list [.dict [("config_name", .str "core"), ("config_value", .str "main"), ("lang", .str "auto"), ("resourcebase", .str "/luci-static")],
      .dict [("config_name", .str "extern"), ("files", .list [.str "/etc/a", .str "/etc/b"])]]),
   ("general", .dict []),
   ("firewall", .list [.dict [("config_name", .str "rule"), ("target", .str "ACCEPT")]])]

theorem samplePackages_ok (k : String) (v : Val) (h : Dict.get? samplePackages k = some v) (hk : k ∉ ["general"]) : PackageOK k v := by
  simp only [samplePackages, Dict.get?] at h
  split at h
  · next e =>
    subst e; cases h
    refine ⟨by decide +kernel, [[("config_name", .str "core"), ("config_value", .str "main"), ("lang", .str "auto"), ("resourcebase", .str "/luci-static")],
      [("config_name", .str "extern"), ("files", .list [.str "/etc/a", .str "/etc/b"])]], rfl, by decide, ?_⟩
    intro i d hd
    match i with
    | 0 => cases hd; exact ⟨optionsB_sound (by decide +kernel), "core", rfl, by decide +kernel, by decide, by decide,
        .inr ⟨"main", rfl, by decide +kernel, by decide +kernel, by decide +kernel, by decide +kernel⟩⟩
    | 1 => cases hd; exact ⟨optionsB_sound (by decide +kernel), "extern", rfl, by decide +kernel, by decide, by decide,
        .inl ⟨rfl, by decide +kernel, by decide +kernel⟩⟩
  · split at h
    · next e => exact absurd (by simp [← e]) hk
    · split at h
      · next e =>
        subst e; cases h
        refine ⟨by decide +kernel, [[("config_name", .str "rule"), ("target", .str "ACCEPT")]], rfl, by decide, ?_⟩
        intro i d hd
        match i with
        | 0 => cases hd; exact ⟨optionsB_sound (by decide +kernel), "rule", rfl, by decide +kernel, by decide, by decide,
            .inl ⟨rfl, by decide +kernel, by decide +kernel⟩⟩
      · cases h

example : ∃ out, viaText sampleEnv.reprC (defaultConv sampleEnv ["general"]) (defaultBConv sampleEnv) samplePackages = .ok out ∧
    Dict.get? out "general" = none := by
  obtain ⟨out, h1, h2⟩ := C52_round_trip sampleEnv ["general"] samplePackages (by decide) samplePackages_ok
  exact ⟨out, h1, (h2 "general").1 (.inl (by decide))⟩

end NJ
