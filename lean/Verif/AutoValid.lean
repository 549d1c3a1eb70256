import Verif.HistoryValid
import Verif.PropsVpnMore
import Verif.PropsVpnBelow

/-!
# Pieces for C92: schemas of tunnels, texts without white space
-/

namespace NJ

/-! ## Schemas without parts -/

/-- a schema whose keywords look at the value only -/
def flatSchema : Val → Bool
  | .dict s => s.all fun p => ["type", "enum", "pattern", "minimum", "maximum", "minLength", "maxLength", "format"].contains p.1
  | _ => false

theorem flat_valid {ip6 : Ip6} {root root' : VDict} {n m : Nat} {s v : Val} (hs : flatSchema s = true) (h : valid ip6 root (n + 1) s v = true) :
    valid ip6 root' (m + 1) s v = true := by
  cases s with
  | dict s =>
    have hs : ∀ p ∈ s, p.1 ∈ ["type", "enum", "pattern", "minimum", "maximum", "minLength", "maxLength", "format"] := by
      intro p hp
      have := List.all_eq_true.1 hs p hp
      exact List.contains_iff_mem.1 this
    have hr : Dict.get? s "$ref" = none := by
      cases e : Dict.get? s "$ref" with
      | none => rfl
      | some x =>
        have : "$ref" ∈ ["type", "enum", "pattern", "minimum", "maximum", "minLength", "maxLength", "format"] := hs _ (Dict.mem_of_get? e)
        exact absurd this (by decide)
    rw [valid_plain hr, List.all_eq_true] at h ⊢
    intro p hp
    have h := h p hp
    have hk := hs p hp
    obtain ⟨k, a⟩ := p
    simp only [List.mem_cons, List.not_mem_nil, or_false] at hk
    rcases hk with rfl | rfl | rfl | rfl | rfl | rfl | rfl | rfl <;>
      · cases a <;> first | rfl | exact h
  | _ => cases hs

/-! ## Texts without white space -/

/-- a text without white space, but for a line break at the end: what `^(\S*)$` accepts -/
def SolidText (s : Chars) : Prop := ∃ a b, s = a ++ b ∧ (∀ c ∈ a, isSpace c = false) ∧ (b = [] ∨ b = ['\n'])

theorem solid_star {a : Chars} (h : ∀ c ∈ a, isSpace c = false) : Rx.Matches (.star (.chr fun c => !isSpace c)) a := by
  induction a with
  | nil => exact .none _
  | cons c a ih =>
    have := Rx.Matches.more (.chr fun c => !isSpace c) [c] a (.chr _ c (by rw [h c (List.mem_cons_self ..)]; rfl)) (ih fun x hx => h x (List.mem_cons_of_mem _ hx))
    exact this

theorem solid_pattern {s : Chars} : patternOk "^(\\S*)$" s = true ↔ SolidText s := by
  have e : patternOk "^(\\S*)$" s = (Rx.seq (.star (.chr fun c => !isSpace c)) Rx.atEnd).run s := rfl
  rw [e, Rx.run_iff]
  constructor
  · intro h
    cases h with
    | seq _ _ a b h1 h2 =>
      refine ⟨a, b, rfl, fun c hc => by simpa using star_chars h1 c hc, ?_⟩
      unfold Rx.atEnd at h2
      cases h2 with
      | left _ _ _ h => cases h; exact Or.inl rfl
      | right _ _ _ h =>
        cases h with
        | chr _ c hc =>
          have : c = '\n' := by simpa using hc
          exact Or.inr (by rw [this])
  · rintro ⟨a, b, rfl, h1, h2⟩
    refine .seq _ _ a b (solid_star h1) ?_
    unfold Rx.atEnd
    rcases h2 with rfl | rfl
    · exact .left _ _ _ .eps
    · exact .right _ _ _ (.chr _ _ (by decide))

theorem solid_replace {old new : Chars} (hne : old ≠ []) (ho : ∀ c ∈ old, isSpace c = false) (hw : ∀ c ∈ new, isSpace c = false) :
    ∀ (n : Nat) (s : Chars), s.length ≤ n → SolidText s → SolidText (replaceAll old new s)
  | 0, s, hs, h => by
    cases s with
    | nil => exact ⟨[], [], rfl, fun _ h => (by cases h), Or.inl rfl⟩
    | cons c s => simp at hs
  | n + 1, s, hs, h => by
    by_cases hp : old <+: s
    · obtain ⟨t, rfl⟩ := hp
      rw [replaceAll_match old new hne]
      obtain ⟨a, b, e, h1, h2⟩ := h
      have hl : 0 < old.length := List.length_pos_iff.2 hne
      have : SolidText t := by
        rcases List.append_eq_append_iff.1 e with ⟨x, hx, ht⟩ | ⟨x, hx, ht⟩
        · exact ⟨x, b, ht, fun c hc => h1 c (by rw [hx]; exact List.mem_append_right _ hc), h2⟩
        · rcases h2 with rfl | rfl
          · have hx' := List.append_eq_nil_iff.1 ht.symm
            exact ⟨[], [], by rw [hx'.2]; rfl, fun _ h => (by cases h), Or.inl rfl⟩
          · cases x with
            | nil => exact ⟨[], ['\n'], ht.symm, fun _ h => (by cases h), Or.inr rfl⟩
            | cons c x =>
              have hc : c = '\n' := (List.cons.inj ht).1.symm
              have := ho c (by rw [hx]; simp)
              rw [hc] at this
              exact absurd this (by decide)
      obtain ⟨a', b', e', h1', h2'⟩ := solid_replace hne ho hw n t (by rw [List.length_append] at hs; omega) this
      refine ⟨new ++ a', b', by rw [e', List.append_assoc], fun c hc => ?_, h2'⟩
      rcases List.mem_append.1 hc with hc | hc
      · exact hw c hc
      · exact h1' c hc
    · cases s with
      | nil => exact ⟨[], [], rfl, fun _ h => (by cases h), Or.inl rfl⟩
      | cons c s =>
        rw [replaceAll_nomatch old new hne c s hp]
        obtain ⟨a, b, e, h1, h2⟩ := h
        cases a with
        | nil =>
          rcases h2 with rfl | rfl
          · cases e
          · obtain ⟨rfl, rfl⟩ := List.cons.inj e
            exact ⟨[], ['\n'], rfl, fun _ h => (by cases h), Or.inr rfl⟩
        | cons d a =>
          obtain ⟨rfl, rfl⟩ := List.cons.inj e
          obtain ⟨a', b', e', h1', h2'⟩ := solid_replace hne ho hw n (a ++ b) (by simpa using hs)
            ⟨a, b, rfl, fun x hx => h1 x (List.mem_cons_of_mem _ hx), h2⟩
          refine ⟨c :: a', b', by change c :: replaceAll old new (a ++ b) = _; rw [e']; rfl, fun x hx => ?_, h2'⟩
          rcases List.mem_cons.1 hx with rfl | hx
          · exact h1 x (List.mem_cons_self ..)
          · exact h1' x hx

/-! ## Tunnels -/

/-- the properties of a schema of an object -/
def propsOf : Val → VDict
  | .dict d => match Dict.get? d "properties" with
    | some (.dict p) => p
    | _ => []
  | _ => []

theorem ow_tunnel_props : propsOf owSchema_def_tunnel = propsOf vpnSchema_def_tunnel ++ [("disabled", .dict [("type", .str "boolean")])] := rfl

theorem tunnel_nodup : (Dict.keys (propsOf owSchema_def_tunnel)).Nodup := by decide +kernel

/-- keys that `auto_client` copies have schemas that look at the value only, and every OpenVPN backend has them -/
theorem copied_flat : ∀ p ∈ propsOf owSchema_def_tunnel, p.1 ∈ copyKeys → flatSchema p.2 = true ∧ p ∈ propsOf vpnSchema_def_tunnel := by
  have h : (propsOf vpnSchema_def_tunnel).all (fun p => !copyKeys.contains p.1 || flatSchema p.2) = true := by decide +kernel
  intro p hp hk
  rw [ow_tunnel_props] at hp
  rcases List.mem_append.1 hp with hp | hp
  · refine ⟨?_, hp⟩
    have := List.all_eq_true.1 h p hp
    rw [List.contains_iff_mem.2 hk] at this
    exact this
  · rw [List.mem_singleton] at hp
    subst hp
    exact absurd hk (by decide)

theorem tunnel_prop {k : String} {s : Val} (h : Dict.get? (propsOf owSchema_def_tunnel) k = some s) :
    ∀ p ∈ propsOf owSchema_def_tunnel, p.1 = k → p.2 = s := by
  rintro ⟨k', s'⟩ hp rfl
  rw [Dict.get?_of_mem tunnel_nodup hp] at h
  exact Option.some.inj h

/-! ## Validity of objects, unfolded -/

section
variable {ip6 : Ip6} {root : VDict} {n : Nat}

theorem props_iff {ps d : VDict} {s : VDict} : keywordOk ip6 (valid ip6 root n) s "properties" (.dict ps) (.dict d) = true ↔
    ∀ p ∈ ps, ∀ x, Dict.get? d p.1 = some x → valid ip6 root n p.2 x = true := by
  change (ps.all fun p => match Dict.get? d p.1 with
      | some x => valid ip6 root n p.2 x
      | none => true) = true ↔ _
  rw [List.all_eq_true]
  refine forall_congr' fun p => forall_congr' fun _ => ?_
  cases Dict.get? d p.1 with
  | none => simp
  | some x => simp

/-- what a schema of tunnels asks -/
theorem tunnel_iff {P : VDict} {d : VDict} :
    valid ip6 root (n + 1) (.dict [("type", .str "object"), ("required", .list [.str "name", .str "mode", .str "proto", .str "dev"]), ("properties", .dict P)])
      (.dict d) = true ↔ (∀ k ∈ ["name", "mode", "proto", "dev"], Dict.has d k = true) ∧
      ∀ p ∈ P, ∀ x, Dict.get? d p.1 = some x → valid ip6 root n p.2 x = true := by
  rw [valid_plain rfl, ← props_iff]
  simp only [List.all_cons, List.all_nil, Bool.and_true, Bool.and_eq_true]
  have h1 : keywordOk ip6 (valid ip6 root n) [("type", .str "object"), ("required", .list [.str "name", .str "mode", .str "proto", .str "dev"]),
      ("properties", .dict P)] "type" (.str "object") (.dict d) = true := rfl
  have h2 : keywordOk ip6 (valid ip6 root n) [("type", .str "object"), ("required", .list [.str "name", .str "mode", .str "proto", .str "dev"]),
      ("properties", .dict P)] "required" (.list [.str "name", .str "mode", .str "proto", .str "dev"]) (.dict d) = true ↔
      ∀ k ∈ ["name", "mode", "proto", "dev"], Dict.has d k = true := by
    change ((["name", "mode", "proto", "dev"] : List String).all fun k => Dict.has d k) = true ↔ _
    rw [List.all_eq_true]
  rw [h1, h2]
  exact ⟨fun h => h.2, fun h => ⟨rfl, h⟩⟩

theorem ref_valid {r : String} {t v : Val} (h : resolveRef root r = some t) : valid ip6 root (n + 1) (.dict [("$ref", .str r)]) v = valid ip6 root n t v := by
  rw [valid]
  simp only [show Dict.get? ([("$ref", .str r)] : VDict) "$ref" = some (.str r) from rfl, h]

theorem allOf_iff {l : List Val} {v : Val} : valid ip6 root (n + 1) (.dict [("allOf", .list l)]) v = true ↔ ∀ s ∈ l, valid ip6 root n s v = true := by
  rw [valid_plain rfl]
  change ((l.all fun s => valid ip6 root n s v) && true) = true ↔ _
  rw [Bool.and_true, List.all_eq_true]

end

end NJ
