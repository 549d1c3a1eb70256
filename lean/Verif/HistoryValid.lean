import Verif.PropsHistory
import Verif.PropsValidOwisp
import Verif.PropsLocal

/-!
# What rendering leaves in an object is valid, but for the paths of files made by converters
-/

namespace NJ

/-! ## What converters do to a configuration -/

/-- the files made by converters: inline keys (openvpn/converters.py l.97-104) and device maps (openwrt/converters/zerotier.py l.95-121) -/
def MadeFile (f : Val) : Prop :=
  ∃ (p t : Chars) (mode : String), 2 ≤ p.length ∧ (mode = "0600" ∨ mode = "0644") ∧
    f = .dict [("path", txt p), ("mode", .str mode), ("contents", txt t)]

/-- sections `P` are kept, nothing disappears, and every file is one of those there were, or satisfies `K` -/
structure Kept (K : Val → Prop) (P : List String) (c c' : VDict) : Prop where
  same : ∀ k ∈ P, k ≠ "files" → Dict.get? c' k = Dict.get? c k
  has : ∀ k, Dict.has c k = true → Dict.has c' k = true
  files : Dict.get? c' "files" = Dict.get? c "files" ∨ ∃ l, Dict.get? c' "files" = some (.list l)
  added : ∀ f ∈ filesOf c', f ∈ filesOf c ∨ K f

section
variable {K : Val → Prop} {P : List String}

theorem Kept.refl (c : VDict) : Kept K P c c := ⟨fun _ _ _ => rfl, fun _ h => h, Or.inl rfl, fun _ h => Or.inl h⟩

theorem Kept.trans {a b c : VDict} (h : Kept K P a b) (h' : Kept K P b c) : Kept K P a c := by
  refine ⟨fun k hk hf => (h'.same k hk hf).trans (h.same k hk hf), fun k hk => h'.has k (h.has k hk), ?_, ?_⟩
  · rcases h'.files with e | e
    · rcases h.files with e' | ⟨l, e'⟩
      · exact Or.inl (e.trans e')
      · exact Or.inr ⟨l, e.trans e'⟩
    · exact Or.inr e
  · intro f hf
    rcases h'.added f hf with hf | hf
    · exact h.added f hf
    · exact Or.inr hf

/-- a loop of such converters -/
theorem convLoop_rel {cls : Class} {R : VDict → VDict → Prop} (hr : ∀ c, R c c) (ht : ∀ a b c, R a b → R b c → R a c) :
    ∀ (cs : List Conv) (_ : ∀ v ∈ cs, ∀ config inter, R config (v.run config inter).1) (config inter : VDict),
      R config (convLoop cls cs config inter).1.config
  | [], _, config, inter => hr config
  | v :: vs, h, config, inter => by
    have ih := convLoop_rel (cls := cls) hr ht vs fun w hw => h w (List.mem_cons_of_mem _ hw)
    have hv := h v (List.mem_cons_self ..) config inter
    unfold convLoop
    split
    · exact ih config inter
    · cases he : v.run config inter with
      | mk config' r =>
        rw [he] at hv
        cases r with
        | error e => exact hv
        | ok value =>
          dsimp only at hv ⊢
          split
          · exact ht _ _ _ hv (ih config' inter)
          · cases hm : mergeConfig cls.sh [".name"] inter value with
            | error e => exact hv
            | ok i => exact ht _ _ _ hv (ih config' i)

theorem addVpnFile_kept (c : VDict) {f : Option VDict} (hf : ∀ g, f = some g → K (.dict g)) : Kept K P c (addVpnFile c f) := by
  obtain ⟨h1, h2⟩ := addVpnFile_get c f
  cases f with
  | none => exact .refl c
  | some g =>
    have hl : ∃ l, Dict.get? (addVpnFile c (some g)) "files" = some (.list l) := by
      change ∃ l, Dict.get? (appendTo c "files" [.dict g]) "files" = some (.list l)
      unfold appendTo
      split <;> exact ⟨_, by rw [Dict.get?_set', if_pos rfl]⟩
    refine ⟨fun k _ hk => h2 k hk, ?_, Or.inr hl, ?_⟩
    · intro k hk
      by_cases e : k = "files"
      · subst e
        obtain ⟨l, hl⟩ := hl
        rw [Dict.has_eq, hl]; rfl
      · rw [Dict.has_eq] at hk ⊢
        rw [h2 k e]; exact hk
    · intro x hx
      change x ∈ filesList _ at hx
      rw [h1] at hx
      rcases List.mem_append.1 hx with hx | hx
      · exact Or.inl hx
      · rw [show (some g).toList.map Val.dict = [Val.dict g] from rfl, List.mem_singleton] at hx
        subst hx
        exact Or.inr (hf g rfl)

theorem vpnBlocks_kept {conv1 : VDict → Except PyErr (VDict × Option VDict)} (vs : List Val)
    (h : ∀ v ∈ vs, ∀ b g, (asDict v >>= conv1) = .ok (b, some g) → K (.dict g)) (c : VDict) :
    Kept K P c (vpnBlocks conv1 c vs).1 := by
  induction vs generalizing c with
  | nil => exact .refl c
  | cons v vs ih =>
    unfold vpnBlocks
    cases he : (asDict v >>= conv1) with
    | error e => exact .refl c
    | ok r =>
      obtain ⟨b, f⟩ := r
      refine (addVpnFile_kept c ?_).trans (ih (fun w hw => h w (List.mem_cons_of_mem _ hw)) _)
      rintro g rfl
      exact h v (List.mem_cons_self ..) b g he

theorem vpnRun_kept {conv1 : VDict → Except PyErr (VDict × Option VDict)} {c : VDict} (inter : VDict)
    (h : ∀ l, Dict.get? c "openvpn" = some (.list l) → ∀ v ∈ l, ∀ b g, (asDict v >>= conv1) = .ok (b, some g) → K (.dict g)) :
    Kept K P c (vpnRun conv1 c inter).1 := by
  unfold vpnRun
  split
  · next l hl =>
    refine vpnBlocks_kept l ?_ c
    refine h l ?_
    cases e : Dict.get? c "openvpn" with
    | none => rw [e] at hl; cases hl
    | some v => rw [e] at hl; exact congrArg some hl
  · exact .refl c

theorem joinWith_last (sep : Chars) (xs : List Chars) (y : Chars) : y.length ≤ (joinWith sep (xs ++ [y])).length := by
  induction xs with
  | nil => exact Nat.le_refl _
  | cons x xs ih =>
    cases xs with
    | nil =>
      rw [show joinWith sep ([x] ++ [y]) = x ++ sep ++ y from rfl, List.length_append]
      exact Nat.le_add_left ..
    | cons z zs =>
      rw [show joinWith sep (x :: z :: zs ++ [y]) = x ++ sep ++ joinWith sep (z :: zs ++ [y]) from rfl, List.length_append]
      exact Nat.le_trans ih (Nat.le_add_left ..)

theorem tlsAuthPath_length (ca dev : Chars) : 2 ≤ (tlsAuthPath ca dev).length := by
  unfold tlsAuthPath
  refine Nat.le_trans ?_ (joinWith_last _ _ _)
  rw [List.length_append]
  exact Nat.le_trans (by decide) (Nat.le_add_left "_tls_auth.key".toList.length _)

theorem tlsAuth_file {env : Env} {c b g : VDict} (h : tlsAuth env c = .ok (b, some g)) : MadeFile (.dict g) := by
  unfold tlsAuth at h
  dsimp only at h
  split at h
  · cases h
  · obtain ⟨t, _, h⟩ := bind_ok_iff.1 h
    split at h
    · cases h
    · obtain ⟨ca, _, h⟩ := bind_ok_iff.1 h
      cases h
      exact ⟨_, _, _, tlsAuthPath_length _ _, Or.inl rfl, rfl⟩

theorem vpnBlock_file {env : Env} {remove : Val → Bool} {c b g : VDict} (h : vpnBlock env remove c = .ok (b, some g)) : MadeFile (.dict g) := by
  unfold vpnBlock at h
  obtain ⟨_, _, h⟩ := bind_ok_iff.1 h
  obtain ⟨_, _, h⟩ := bind_ok_iff.1 h
  obtain ⟨r, h1, h⟩ := bind_ok_iff.1 h
  obtain ⟨c', f⟩ := r
  cases h
  exact tlsAuth_file h1

theorem uciVpnBlock_file {env : Env} {c b g : VDict} (h : uciVpnBlock env c = .ok (b, some g)) : MadeFile (.dict g) := by
  unfold uciVpnBlock at h
  dsimp only at h
  obtain ⟨_, _, h⟩ := bind_ok_iff.1 h
  obtain ⟨_, _, h⟩ := bind_ok_iff.1 h
  exact vpnBlock_file h

theorem file_of_bind {v : Val} {conv1 : VDict → Except PyErr (VDict × Option VDict)} {b g : VDict}
    (h : (asDict v >>= conv1) = .ok (b, some g)) : ∃ d, v = .dict d ∧ conv1 d = .ok (b, some g) := by
  obtain ⟨d, h1, h2⟩ := bind_ok_iff.1 h
  refine ⟨d, ?_, h2⟩
  unfold asDict at h1
  split at h1
  · cases h1; rfl
  · cases h1

theorem defaultLoop_has {env : Env} {known : List String} (c : VDict) : Dict.keys (defaultLoop env known c).1 = Dict.keys c := by
  induction c with
  | nil => rfl
  | cons p r ih =>
    obtain ⟨k, v⟩ := p
    have step : ∀ x : Val, Dict.keys ((k, x) :: (defaultLoop env known r).1) = Dict.keys ((k, v) :: r) := by
      intro x
      change k :: Dict.keys _ = k :: Dict.keys r
      rw [ih]
    rw [defaultLoop.eq_def]
    dsimp only
    split
    · split
      · exact step _
      · split
        · rfl
        · exact step _
    · exact step _

theorem default_kept {env : Env} {known : List String} (hP : ∀ k ∈ P, k ∈ known) (hf : "files" ∈ known) (c inter : VDict) :
    Kept K P c ((defaultConv env known).run c inter).1 := by
  change Kept K P c (defaultLoop env known c).1
  have e := defaultLoop_files (env := env) hf c
  refine ⟨fun k hk _ => defaultLoop_keeps (hP k hk) c, fun k hk => ?_, Or.inl e, fun f hf => Or.inl ?_⟩
  · rw [Dict.has_eq, Option.isSome_iff_ne_none, ne_eq, Dict.get?_eq_none_iff] at hk ⊢
    rw [defaultLoop_has]; exact hk
  · unfold filesOf at hf ⊢
    rw [e] at hf; exact hf

theorem ztMerge_mem {path : Chars} {fs : List Val} {r : List Val × Chars} (h : ztMerge path fs = .ok r) : ∀ f ∈ r.1, f ∈ fs := by
  induction fs generalizing r with
  | nil => cases h; intro f hf; cases hf
  | cons v vs ih =>
    unfold ztMerge at h
    obtain ⟨d, _, h⟩ := bind_ok_iff.1 h
    split at h
    · obtain ⟨_, _, h⟩ := bind_ok_iff.1 h
      obtain ⟨_, _, h⟩ := bind_ok_iff.1 h
      obtain ⟨r', hr, h⟩ := bind_ok_iff.1 h
      cases h
      exact fun f hf => List.mem_cons_of_mem _ (ih hr f hf)
    · obtain ⟨r', hr, h⟩ := bind_ok_iff.1 h
      cases h
      intro f hf
      rcases List.mem_cons.1 hf with rfl | hf
      · exact List.mem_cons_self ..
      · exact List.mem_cons_of_mem _ (ih hr f hf)

/-- the path of the device map -/
def mapPath (env : Env) (vpn : VDict) : Chars := (pyStr env.reprC ((Dict.get? vpn "config_path").getD ztPath)).toList ++ "/devicemap".toList

theorem ztConfig_kept {env : Env} {c c' vpn : VDict} (h : ztConfig env c vpn = .ok c')
    (hK : ∀ t, K (.dict [("path", txt (mapPath env vpn)), ("mode", .str "0644"), ("contents", txt t)])) : Kept K P c c' := by
  unfold ztConfig at h
  obtain ⟨fs, h1, h⟩ := bind_ok_iff.1 h
  obtain ⟨gs, h2, h⟩ := bind_ok_iff.1 h
  cases h
  have hfs : filesOf c = fs := by
    unfold netjsonFiles at h1
    unfold filesOf
    split at h1 <;> cases h1
    · next e => rw [e]
    · next e => rw [e]
  refine ⟨fun k _ hf => by rw [Dict.get?_set', if_neg hf], fun k hk => ?_, Or.inr ⟨gs, by rw [Dict.get?_set', if_pos rfl]⟩, ?_⟩
  · rw [Dict.has_eq] at hk ⊢
    rw [Dict.get?_set']
    split
    · rfl
    · exact hk
  · have e : filesOf (Dict.set c "files" (.list gs)) = gs := by unfold filesOf; rw [Dict.get?_set', if_pos rfl]
    rw [e, hfs]
    unfold ztFiles at h2
    dsimp only at h2
    obtain ⟨_, _, h2⟩ := bind_ok_iff.1 h2
    obtain ⟨_, _, h2⟩ := bind_ok_iff.1 h2
    obtain ⟨⟨others, more⟩, h3, h2⟩ := bind_ok_iff.1 h2
    cases h2
    intro f hf
    rcases List.mem_append.1 hf with hf | hf
    · exact Or.inl (ztMerge_mem h3 f hf)
    · rw [List.mem_singleton.1 hf]
      exact Or.inr (hK _)

theorem ztAll_kept {env : Env} (vs : List Val)
    (hK : ∀ vpn, Val.dict vpn ∈ vs → ∀ t, K (.dict [("path", txt (mapPath env vpn)), ("mode", .str "0644"), ("contents", txt t)])) (c : VDict) :
    Kept K P c (ztAll env c vs).1 := by
  induction vs generalizing c with
  | nil => exact .refl c
  | cons v vs ih =>
    unfold ztAll
    cases e1 : asDict v with
    | error e => exact .refl c
    | ok vpn =>
      have hv : v = .dict vpn := by
        unfold asDict at e1
        split at e1 <;> cases e1
        rfl
      subst hv
      dsimp only
      cases e2 : ztConfig env c vpn with
      | error e => exact .refl c
      | ok c' =>
        have h1 : Kept K P c c' := ztConfig_kept e2 (hK vpn (List.mem_cons_self ..))
        dsimp only
        cases e3 : ztBlocks vpn with
        | error e => exact h1
        | ok bs => exact h1.trans (ih (fun w hw => hK w (List.mem_cons_of_mem _ hw)) c')

theorem ztRun_kept {env : Env} {c : VDict} (inter : VDict)
    (hK : ∀ l, Dict.get? c "zerotier" = some (.list l) → ∀ vpn, Val.dict vpn ∈ l →
      ∀ t, K (.dict [("path", txt (mapPath env vpn)), ("mode", .str "0644"), ("contents", txt t)])) :
    Kept K P c (ztRun env c inter).1 := by
  unfold ztRun
  split
  · next l hl =>
    refine ztAll_kept l (hK l ?_) c
    cases e : Dict.get? c "zerotier" with
    | none => rw [e] at hl; cases hl
    | some v => rw [e] at hl; exact congrArg some hl
  · exact .refl c

theorem mapFile_made (env : Env) (vpn : VDict) (t : Chars) :
    MadeFile (.dict [("path", txt (mapPath env vpn)), ("mode", .str "0644"), ("contents", txt t)]) := by
  refine ⟨_, _, _, ?_, Or.inr rfl, rfl⟩
  unfold mapPath
  rw [List.length_append]
  exact Nat.le_trans (by decide) (Nat.le_add_left "/devicemap".toList.length _)

end

/-! ## Schemas -/

/-- the schema of a backend at the top: it looks at the sections one by one, at least the sections of `P`, and `files` is the one of all backends -/
def topOk (P : List String) (root : VDict) : Bool :=
  (Dict.get? root "$ref").isNone &&
  root.all (fun p => decide (p.1 ∈ ["type", "definitions", "properties", "required"]) && (match p.2 with
    | .dict ps => p.1 != "properties" || ps.all (fun q => decide (q.1 ∈ P) && (q.1 != "files" || decide (q.2 = owSchema_pro_files)))
    | _ => true))

theorem top_valid {ip6 : Ip6} {P : List String} {root : VDict} (ht : topOk P root = true) {n : Nat} {c c' : VDict}
    (h : valid ip6 root (n + 1) (.dict root) (.dict c) = true) (hh : ∀ k, Dict.has c k = true → Dict.has c' k = true)
    (hs : ∀ k ∈ P, k ≠ "files" → Dict.get? c' k = Dict.get? c k)
    (hf : ∀ x, Dict.get? c' "files" = some x →
      Dict.get? c "files" = some x ∨ ((∀ y, Dict.get? c "files" = some y → valid ip6 root n owSchema_pro_files y = true) →
        valid ip6 root n owSchema_pro_files x = true)) :
    valid ip6 root (n + 1) (.dict root) (.dict c') = true := by
  unfold topOk at ht
  rw [Bool.and_eq_true, List.all_eq_true] at ht
  obtain ⟨href, ht⟩ := ht
  have href : Dict.get? root "$ref" = none := Option.isNone_iff_eq_none.1 href
  unfold valid at h ⊢
  simp only [href] at h ⊢
  rw [List.all_eq_true] at h ⊢
  rintro ⟨k, a⟩ hp
  have hkw := ht _ hp
  have hv := h _ hp
  rw [Bool.and_eq_true, decide_eq_true_eq] at hkw
  obtain ⟨hk, hps⟩ := hkw
  simp only [List.mem_cons, List.not_mem_nil, or_false] at hk
  rcases hk with rfl | rfl | rfl | rfl
  · cases a <;> exact hv
  · cases a <;> rfl
  · cases a with
    | dict ps =>
      simp only [keywordOk, List.all_eq_true] at hv ⊢
      dsimp only at hps
      have hps : ps.all (fun q => decide (q.1 ∈ P) && (q.1 != "files" || decide (q.2 = owSchema_pro_files))) = true := by
        simpa using hps
      rw [List.all_eq_true] at hps
      rintro ⟨k, s⟩ hq
      have h1 := hv _ hq
      have h2 := hps _ hq
      rw [Bool.and_eq_true, decide_eq_true_eq] at h2
      obtain ⟨hP, h2⟩ := h2
      dsimp only at h1 h2 hP ⊢
      by_cases e : k = "files"
      · subst e
        have hs : s = owSchema_pro_files := by simpa using h2
        subst hs
        cases hx : Dict.get? c' "files" with
        | none => rfl
        | some x =>
          dsimp only
          rcases hf x hx with e | e
          · rw [e] at h1; exact h1
          · refine e fun y hy => ?_
            rw [hy] at h1; exact h1
      · rw [hs k hP e]; exact h1
    | _ => rfl
  · cases a with
    | list l =>
      simp only [keywordOk, List.all_eq_true] at hv ⊢
      exact fun k hk => hh k (hv k hk)
    | _ => rfl

/-- the schema of one file -/
def fileSchema : Val := match owSchema_pro_files with
  | .dict d => (Dict.get? d "items").getD .none
  | _ => .none

theorem valid_plain {ip6 : Ip6} {root s : VDict} {n : Nat} {v : Val} (h : Dict.get? s "$ref" = none) :
    valid ip6 root (n + 1) (.dict s) v = s.all (fun p => keywordOk ip6 (valid ip6 root n) s p.1 p.2 v) := by
  rw [valid]
  simp only [h]

theorem files_valid_iff {ip6 : Ip6} {root : VDict} {n : Nat} {v : Val} : valid ip6 root (n + 1) owSchema_pro_files v = true ↔
    ∃ l, v = .list l ∧ uniqueOk l = true ∧ ∀ f ∈ l, valid ip6 root n fileSchema f = true := by
  have e : owSchema_pro_files = .dict [("type", .str "array"), ("uniqueItems", .bool true), ("items", fileSchema)] := rfl
  rw [e, valid_plain rfl]
  simp only [List.all_cons, List.all_nil, Bool.and_true, Bool.and_eq_true]
  constructor
  · rintro ⟨h1, h2, h3⟩
    cases v <;> simp [keywordOk, typeOk] at h1
    rename_i l
    refine ⟨l, rfl, h2, ?_⟩
    simpa [keywordOk] using h3
  · rintro ⟨l, rfl, h2, h3⟩
    exact ⟨rfl, h2, by simpa [keywordOk] using h3⟩

theorem madeFile_valid {ip6 : Ip6} {root : VDict} {n : Nat} {f : Val} (h : MadeFile f) : valid ip6 root (n + 2) fileSchema f = true := by
  obtain ⟨p, t, mode, hp, hm, rfl⟩ := h
  have hpat : patternOk "^[0-7]*$" ['0', '6', '0', '0'] = true ∧ patternOk "^[0-7]*$" ['0', '6', '4', '4'] = true := by decide +kernel
  rcases hm with rfl | rfl <;> simp [fileSchema, owSchema_pro_files, Dict.get?, valid, keywordOk, typeOk, Dict.has, textsOf, Dict.keys, txt, hpat]
  all_goals exact ⟨by exact_mod_cast hp, by decide, by decide⟩

/-- equal files have equal paths -/
theorem jsEq_path {f g : Val} {p : Chars} (hf : filePath f = .ok p) (h : Val.jsEq f g = true) : filePath g = .ok p := by
  cases f with
  | dict d =>
    cases g with
    | dict e =>
      rw [Val.jsEq, Bool.and_eq_true] at h
      have hD : ∀ (d : VDict) (k : String) (s : String), Val.jsEqD d e = true → Dict.get? d k = some (.str s) → Dict.get? e k = some (.str s) := by
        intro d
        induction d with
        | nil => intro k s _ h; cases h
        | cons q r ih =>
          obtain ⟨k', v⟩ := q
          intro k s h hk
          rw [Val.jsEqD, Bool.and_eq_true] at h
          rw [Dict.get?_cons] at hk
          split at hk
          · next e' =>
            subst e'
            cases hk
            have h := h.1
            cases hw : Dict.get? e k' with
            | none => rw [hw] at h; cases h
            | some w =>
              rw [hw] at h
              cases w <;> simp [Val.jsEq] at h
              rw [h]
          · exact ih k s h.2 hk
      change reqStr d "path" = .ok p at hf
      change reqStr e "path" = .ok p
      unfold reqStr at hf ⊢
      split at hf
      · next s hs =>
        rw [hD d _ _ h.2 hs]
        exact hf
      · cases hf
      · cases hf
    | _ => simp [Val.jsEq] at h
  | _ => simp [filePath] at hf

theorem unique_of_paths {l : List Val} {ps : List Chars} (h : l.mapM filePath = .ok ps) (hn : ps.Nodup) : uniqueOk l = true := by
  induction l generalizing ps with
  | nil => rfl
  | cons f l ih =>
    obtain ⟨p, qs, hp, hq, rfl⟩ := (mapM_ok_cons ..).1 h
    obtain ⟨hx, hn⟩ := List.nodup_cons.1 hn
    unfold uniqueOk
    rw [ih hq hn, Bool.and_true, Bool.not_eq_true', Bool.eq_false_iff]
    intro ha
    obtain ⟨g, hg, he⟩ := List.any_eq_true.1 ha
    have := jsEq_path hp he
    obtain ⟨q, hq', e⟩ := mapM_into hq hg
    rw [this] at e
    cases e
    exact hx hq'

/-! ## What is left -/

theorem dedup_has {c c' : VDict} (h : deduplicateFiles c = .ok c') (k : String) (hk : Dict.has c k = true) : Dict.has c' k = true := by
  unfold deduplicateFiles at h
  split at h
  · cases h; exact hk
  · obtain ⟨d, _, h⟩ := bind_ok_iff.1 h
    cases h
    rw [Dict.has_eq] at hk ⊢
    rw [Dict.get?_set']
    split
    · rfl
    · exact hk

theorem dedup_files {c c' : VDict} (h : deduplicateFiles c = .ok c') :
    Dict.get? c' "files" = Dict.get? c "files" ∨ Dict.get? c' "files" = some (.list (filesOf c')) := by
  unfold deduplicateFiles at h
  split at h
  · cases h; exact Or.inl rfl
  · obtain ⟨d, _, h⟩ := bind_ok_iff.1 h
    cases h
    refine Or.inr ?_
    unfold filesOf
    rw [Dict.get?_set', if_pos rfl]

/-- the schema accepts what is left -/
theorem left_schema {ip6 : Ip6} {P : List String} {root : VDict} (ht : topOk P root = true) {K : Val → Prop} {n : Nat} {c c' c'' : VDict}
    (hK : ∀ f, K f → valid ip6 root (n + 2) fileSchema f = true)
    (h : valid ip6 root (n + 4) (.dict root) (.dict c) = true) (hk : Kept K P c c') (hd : deduplicateFiles c' = .ok c'') :
    valid ip6 root (n + 4) (.dict root) (.dict c'') = true := by
  obtain ⟨ps, hps, hps', hlast, hrest⟩ := C21_one_file_per_path c' c'' hd
  refine top_valid ht h (fun k hk' => dedup_has hd k (hk.has k hk')) (fun k hP hf => (hrest k hf).trans (hk.same k hP hf)) ?_
  intro x hx
  have main : (∃ l, x = .list l) → (∀ y, Dict.get? c "files" = some y → valid ip6 root (n + 3) owSchema_pro_files y = true) →
      valid ip6 root (n + 3) owSchema_pro_files x = true := by
    rintro ⟨l, rfl⟩ hc
    have hl : filesOf c'' = l := by unfold filesOf; rw [hx]
    refine files_valid_iff.2 ⟨l, rfl, ?_, ?_⟩
    · rw [← hl]
      exact unique_of_paths hps' (firsts_nodup' ps)
    · intro f hf
      obtain ⟨p, _, hp⟩ := hlast f (by rw [hl]; exact hf)
      have hf' : f ∈ filesOf c' := by
        unfold lastFile at hp
        have := List.mem_of_find?_eq_some hp
        simpa using this
      rcases hk.added f hf' with hf' | hf'
      · have : ∃ l, Dict.get? c "files" = some (.list l) ∧ f ∈ l := by
          unfold filesOf at hf'
          split at hf'
          · next l e => exact ⟨l, e, hf'⟩
          · cases hf'
        obtain ⟨l', e', hf'⟩ := this
        obtain ⟨l'', e'', _, hall⟩ := files_valid_iff.1 (hc _ e')
        cases e''
        exact hall f hf'
      · exact hK f hf'
  rcases dedup_files hd with e | e
  · rcases hk.files with e' | ⟨l, e'⟩
    · exact Or.inl (by rw [← e', ← e]; exact hx)
    · refine Or.inr (main ⟨l, ?_⟩)
      rw [e, e'] at hx
      exact (Option.some.inj hx).symm
  · refine Or.inr (main ⟨filesOf c'', ?_⟩)
    rw [e] at hx
    exact (Option.some.inj hx).symm

/-- what `render` leaves in the object, for converters that keep the sections -/
theorem render_kept {cls : Class} {K : Val → Prop} {P : List String} {c : VDict}
    (hR : Kept K P c (convLoop cls cls.convs c []).1.config)
    {files : Bool} {st1 : BState} {t : Chars} (h : render cls files ⟨c, none⟩ = (st1, .ok t)) :
    ∃ c', Kept K P c c' ∧ deduplicateFiles c' = .ok st1.config := by
  obtain ⟨hv, st2, he, ht⟩ := render_ok h
  obtain ⟨c', hd, rfl, _⟩ := renderTail_ok ht
  refine ⟨st2.config, ?_, hd⟩
  have e : convLoop cls cls.convs c [] = (st2, .ok ()) := by
    unfold ensureIntermediate at he
    dsimp only at he
    unfold toIntermediate at he
    dsimp only at he hv
    rw [hv] at he
    exact he
  rw [e] at hR
  exact hR

/-- the paths of the files left are acceptable when those of the added files are -/
theorem left_paths {P : List String} {c c' c'' : VDict} {K : Val → Prop} (hK : ∀ f, K f → ∃ p, filePath f = .ok p ∧ validPath p = true)
    (hk : Kept K P c c') (hd : deduplicateFiles c' = .ok c'') (hv : validateFilePaths c = .ok ()) : validateFilePaths c'' = .ok () := by
  refine dedup_validates hd (validateFilePaths_ok.2 ?_)
  intro f hf
  rcases hk.added f hf with hf | hf
  · exact validateFilePaths_ok.1 hv f hf
  · exact hK f hf

end NJ
