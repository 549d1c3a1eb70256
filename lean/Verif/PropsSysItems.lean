import Verif.PropsNetItems

/-!
# C101: the system package says what the general settings, NTP and the LEDs say
-/

namespace NJ

/-! ## Specification -/

/-- **Specification.** The general settings for the system section: all of them, except those of the section for the ULA prefix if there is one. -/
def systemSettings (d : VDict) : VDict :=
  match Dict.get? d "ula_prefix" with
  | some _ => d.filter fun p => p.1 ≠ "ula_prefix" ∧ p.1 ≠ "globals_id"
  | none => d

/-- **Specification.** The section `b` says what the general settings `g` say: the host name is by default OpenWRT, a time zone is given by its name
and by its POSIX text. -/
def SystemSays (env : Env) (g b : VDict) : Prop :=
  (Dict.keys b).Nodup ∧ (∀ v, Dict.get? g "timezone" = some v → ∃ z posix, v = .str z ∧ env.tz z = some posix ∧
      Dict.get? b "zonename" = some (.str z) ∧ Dict.get? b "timezone" = some (.str posix)) ∧
    ∀ k, k = "zonename" ∨ k = "timezone" → Dict.get? g "timezone" = none → Dict.get? b k = Dict.get? g k

/-- **Specification.** The other options of the system section. -/
def SystemPlain (g b : VDict) : Prop :=
  ∀ k, k ≠ "zonename" → k ≠ "timezone" → Dict.get? b k =
    if k = "hostname" then some ((Dict.get? g "hostname").getD (.str "OpenWRT"))
    else if k = ".name" then some ((Dict.get? g "id").getD (.str "system"))
    else if k = ".type" then some (.str "system")
    else if k = "id" then none
    else Dict.get? g k

/-- **Specification.** The sections for the general settings: one if there are any. -/
def GeneralSays (env : Env) (config : VDict) (ss : List VDict) : Prop :=
  match Dict.get? config "general" with
  | some (.dict d) => if systemSettings d = [] then ss = [] else ∃ b, ss = [b] ∧ SystemSays env (systemSettings d) b ∧ SystemPlain (systemSettings d) b
  | _ => ss = []

/-- **Specification.** The section for the NTP settings: one if there are any. -/
def NtpSays (config : VDict) (ss : List VDict) : Prop :=
  match Dict.get? config "ntp" with
  | some (.dict d) => if d = [] then ss = [] else ∃ b, ss = [b] ∧ (Dict.keys b).Nodup ∧ ∀ k, Dict.get? b k =
      if k = ".name" then some ((Dict.get? d "id").getD (.str "ntp"))
      else if k = ".type" then some (.str "timeserver")
      else if k = "id" then none
      else Dict.get? d k
  | _ => ss = []

/-- **Specification.** The section `b` says what the LED `d` says. -/
def LedSays (env : Env) (d b : VDict) : Prop :=
  (Dict.keys b).Nodup ∧ ∃ nm, (((Dict.get? d "id").getD .none).truthy = true ∧ nm = (Dict.get? d "id").getD .none ∨
      ((Dict.get? d "id").getD .none).truthy = false ∧ ∃ s, Dict.get? d "name" = some (.str s) ∧ nm = txt ("led_".toList ++ env.lower s.toList)) ∧
    ∀ k, Dict.get? b k =
      if k = ".name" then some nm
      else if k = ".type" then some (.str "led")
      else if k = "id" then none
      else Dict.get? d k

/-! ## The sections -/

theorem system_says {env : Env} {g : VDict} {o : Option VDict} (hn : (Dict.keys g).Nodup) (h : systemBlock env g = .ok o) :
    if g = [] then o = none else ∃ b, o = some b ∧ SystemSays env g b ∧ SystemPlain g b := by
  unfold systemBlock at h
  by_cases hg : g = []
  · subst hg
    rw [if_pos rfl]
    cases h
    rfl
  · rw [if_neg hg]
    rw [if_neg (by cases g with | nil => exact absurd rfl hg | cons _ _ => simp)] at h
    simp only [popOr] at h
    generalize hu : Dict.update (Dict.erase g "id") [(".type", .str "system"), (".name", (Dict.get? g "id").getD (.str "system")),
      ("hostname", (Dict.get? (Dict.erase g "id") "hostname").getD (.str "OpenWRT"))] = u at h
    have hnd : (Dict.keys u).Nodup := by rw [← hu]; exact Dict.nodup_update (Dict.nodup_erase hn _) _
    have hget : ∀ k, Dict.get? u k = if k = "hostname" then some ((Dict.get? g "hostname").getD (.str "OpenWRT"))
        else if k = ".name" then some ((Dict.get? g "id").getD (.str "system")) else if k = ".type" then some (.str "system")
        else if k = "id" then none else Dict.get? g k := by
      intro k
      rw [← hu]
      simp only [Dict.update_cons, Dict.update_nil, Dict.get?_set', Dict.get?_erase', String.reduceEq, if_false]
    have hz : Dict.get? u "timezone" = Dict.get? g "timezone" := by rw [hget]; simp
    cases ht : Dict.get? g "timezone" with
    | none =>
      rw [hz, ht] at h
      cases pure_ok_iff.1 h
      refine ⟨_, rfl, ⟨sortedDict_nodup hnd, (fun v hv => by rw [ht] at hv; cases hv), fun k hk _ => ?_⟩, fun k _ _ => by rw [get?_sortedDict hnd, hget]⟩
      rw [get?_sortedDict hnd, hget]
      rcases hk with rfl | rfl <;> simp
    | some v =>
      rw [hz, ht] at h
      cases v with
      | str z =>
        dsimp only at h
        cases hp : env.tz z with
        | none => rw [hp] at h; cases h
        | some posix =>
          rw [hp] at h
          cases pure_ok_iff.1 h
          have hnd2 := Dict.nodup_set (Dict.nodup_set hnd "zonename" (.str z)) "timezone" (.str posix)
          refine ⟨_, rfl, ⟨sortedDict_nodup hnd2, ?_, fun k _ hh => by rw [ht] at hh; cases hh⟩, fun k k1 k2 => ?_⟩
          · intro v hv
            rw [ht] at hv
            cases hv
            refine ⟨z, posix, rfl, hp, ?_, ?_⟩ <;> rw [get?_sortedDict hnd2] <;> simp [Dict.get?_set']
          · rw [get?_sortedDict hnd2, Dict.get?_set', if_neg k2, Dict.get?_set', if_neg k1, hget]
      | _ => cases h

theorem systemSettings_eq {d : VDict} {ula : Option VDict} {g : VDict} (h : ulaBlock d = .ok (ula, g)) : g = systemSettings d := by
  unfold ulaBlock at h
  unfold systemSettings
  cases hu : Dict.get? d "ula_prefix" with
  | none =>
    rw [Dict.has_eq, hu] at h
    cases h
    rfl
  | some u =>
    rw [Dict.has_eq, hu, Option.isSome_some, if_pos rfl] at h
    simp only [popOr] at h
    obtain ⟨⟨x, g'⟩, a1, a2⟩ := bind_ok_iff.1 h
    obtain ⟨_, a3⟩ := popKey_is a1
    have a2 := pure_ok_iff.1 a2
    rw [Prod.mk.injEq] at a2
    rw [← a2.2]
    dsimp only at a3 ⊢
    rw [a3]
    unfold Dict.erase
    rw [List.filter_filter]
    refine List.filter_congr fun p _ => ?_
    simp

theorem led_says {env : Env} {d b : VDict} (hn : (Dict.keys d).Nodup) (h : ledBlock env d = .ok b) : LedSays env d b := by
  unfold ledBlock at h
  obtain ⟨⟨name, r⟩, e1, h⟩ := bind_ok_iff.1 h
  have key : r = Dict.erase d "id" ∧ (((Dict.get? d "id").getD .none).truthy = true ∧ name = (Dict.get? d "id").getD .none ∨
      ((Dict.get? d "id").getD .none).truthy = false ∧ ∃ s, Dict.get? d "name" = some (.str s) ∧ name = txt ("led_".toList ++ env.lower s.toList)) := by
    have auto : ∀ n, ledAutoName env (Dict.erase d "id") = .ok n → ∃ s, Dict.get? d "name" = some (.str s) ∧ n = txt ("led_".toList ++ env.lower s.toList) := by
      intro n hn
      unfold ledAutoName at hn
      obtain ⟨v, a1, hn⟩ := bind_ok_iff.1 hn
      obtain ⟨t, a2, hn⟩ := bind_ok_iff.1 hn
      unfold getKey at a1
      rw [Dict.get?_erase', if_neg (by decide)] at a1
      cases hg : Dict.get? d "name" with
      | none => rw [hg] at a1; cases a1
      | some x =>
        rw [hg] at a1
        cases a1
        cases v with
        | str s => cases a2; exact ⟨s, rfl, (pure_ok_iff.1 hn).symm⟩
        | _ => cases a2
    unfold popOrElse at e1
    cases hg : Dict.get? d "id" with
    | none =>
      rw [hg] at e1
      obtain ⟨n, a1, a2⟩ := bind_ok_iff.1 e1
      cases pure_ok_iff.1 a2
      exact ⟨rfl, .inr ⟨rfl, auto _ a1⟩⟩
    | some v =>
      rw [hg] at e1
      simp only [Option.getD_some]
      cases ht : v.truthy with
      | true => simp only [ht, if_true] at e1; cases e1; exact ⟨rfl, .inl ⟨rfl, rfl⟩⟩
      | false =>
        simp only [ht, Bool.false_eq_true, if_false] at e1
        obtain ⟨n, a1, a2⟩ := bind_ok_iff.1 e1
        cases pure_ok_iff.1 a2
        exact ⟨rfl, .inr ⟨rfl, auto _ a1⟩⟩
  obtain ⟨rfl, key⟩ := key
  cases pure_ok_iff.1 h
  have hnd := Dict.nodup_update (Dict.nodup_erase hn "id") [(".type", .str "led"), (".name", name)]
  refine ⟨sortedDict_nodup hnd, name, key, fun k => ?_⟩
  rw [get?_sortedDict hnd]
  simp only [Dict.update_cons, Dict.update_nil, Dict.get?_set', Dict.get?_erase']

/-! ## The loop -/

theorem stored_get (pkg : String) (bs : List VDict) : Dict.get? (if bs.isEmpty then [] else [(pkg, .list (bs.map .dict))] : VDict) pkg = stored bs ∧
    (Dict.keys (if bs.isEmpty then [] else [(pkg, .list (bs.map .dict))] : VDict)).Nodup := by
  unfold stored
  cases bs with
  | nil => exact ⟨rfl, by simp [Dict.keys]⟩
  | cons b bs => exact ⟨by simp [Dict.get?], by simp [Dict.keys]⟩

theorem system_step {env : Env} {cls : Class} {cs : List Conv} {c i : VDict} {st : BState} (hw : (Val.dict c).WF) (ho : ∀ v, Dict.get? c "general" = some v → ∃ d, v = .dict d)
    (h : convLoop cls (generalConv env :: cs) c i = (st, .ok ())) : ∃ ss i1, GeneralSays env c ss ∧ Grows "system" i i1 ss ∧ convLoop cls cs c i1 = (st, .ok ()) := by
  rcases pure_step h with ⟨e, h⟩ | ⟨v, i1, e, e1, e2, h⟩
  · refine ⟨[], i, ?_, grows_same rfl, h⟩
    unfold GeneralSays
    rw [e]
  · cases hg : Dict.get? c "general" with
    | none => exact absurd hg e
    | some x =>
      obtain ⟨d, rfl⟩ := ho x hg
      have e1 : fwd "general" (generalFwd env) c = .ok v := e1
      unfold fwd at e1
      rw [hg, Option.getD_some] at e1
      dsimp only at e1
      unfold generalFwd at e1
      obtain ⟨d', a1, e3⟩ := bind_ok_iff.1 e1
      cases a1
      obtain ⟨⟨ula, g⟩, a2, e4⟩ := bind_ok_iff.1 e3
      obtain ⟨sys, a3, e5⟩ := bind_ok_iff.1 e4
      have e9 := pure_ok_iff.1 e5
      have hgs := systemSettings_eq a2
      have hnd : (Dict.keys (systemSettings d)).Nodup := by
        have := wf_nodup (wf_dict hw hg)
        unfold systemSettings
        split
        · exact (List.Sublist.map _ List.filter_sublist).nodup this
        · exact this
      have hs := system_says (hgs ▸ hnd) a3
      rw [hgs] at hs
      have hv : ∀ ss : List VDict, (sys = none ∧ ss = [] ∨ ∃ b, sys = some b ∧ ss = [b]) → Dict.get? v "system" = stored ss ∧ (Dict.keys v).Nodup := by
        intro ss hss
        rw [← e9]
        have s0 : Dict.get? (match sys with | some s => Dict.set [] "system" (.list [.dict s]) | none => ([] : VDict)) "system" = stored ss ∧
            (Dict.keys (match sys with | some s => Dict.set [] "system" (.list [.dict s]) | none => ([] : VDict))).Nodup := by
          rcases hss with ⟨rfl, rfl⟩ | ⟨b, rfl, rfl⟩
          · exact ⟨rfl, by simp [Dict.keys]⟩
          · exact ⟨rfl, by simp [Dict.keys, Dict.set]⟩
        cases ula with
        | none => exact s0
        | some u =>
          refine ⟨?_, Dict.nodup_set s0.2 _ _⟩
          change Dict.get? (Dict.set _ "network" _) "system" = _
          rw [Dict.get?_set', if_neg (by decide)]
          exact s0.1
      unfold GeneralSays
      rw [hg]
      dsimp only
      by_cases he : systemSettings d = []
      · rw [if_pos he] at hs
        exact ⟨[], i1, by rw [if_pos he], grows_merge e2 fun _ => hv [] (.inl ⟨hs, rfl⟩), h⟩
      · rw [if_neg he] at hs
        obtain ⟨b, hb, hb1, hb2⟩ := hs
        exact ⟨[b], i1, by rw [if_neg he]; exact ⟨b, rfl, hb1, hb2⟩, grows_merge e2 fun _ => hv [b] (.inr ⟨b, hb, rfl⟩), h⟩

theorem ntp_step {cls : Class} {cs : List Conv} {c i : VDict} {st : BState} (hw : (Val.dict c).WF) (ho : ∀ v, Dict.get? c "ntp" = some v → ∃ d, v = .dict d)
    (h : convLoop cls (ntpConv :: cs) c i = (st, .ok ())) : ∃ ss i1, NtpSays c ss ∧ Grows "system" i i1 ss ∧ convLoop cls cs c i1 = (st, .ok ()) := by
  rcases pure_step h with ⟨e, h⟩ | ⟨v, i1, e, e1, e2, h⟩
  · refine ⟨[], i, ?_, grows_same rfl, h⟩
    unfold NtpSays
    rw [e]
  · cases hg : Dict.get? c "ntp" with
    | none => exact absurd hg e
    | some x =>
      obtain ⟨d, rfl⟩ := ho x hg
      have e1 : fwd "ntp" ntpFwd c = .ok v := e1
      unfold fwd at e1
      rw [hg, Option.getD_some] at e1
      dsimp only at e1
      unfold ntpFwd at e1
      unfold NtpSays
      rw [hg]
      dsimp only
      by_cases he : d = []
      · subst he
        rw [if_neg (by decide)] at e1
        cases e1
        exact ⟨[], i1, by rw [if_pos rfl], grows_merge e2 fun _ => ⟨rfl, by simp [Dict.keys]⟩, h⟩
      · rw [if_pos (by cases d with | nil => exact absurd rfl he | cons _ _ => rfl)] at e1
        obtain ⟨d', a1, e3⟩ := bind_ok_iff.1 e1
        cases a1
        simp only [popOr] at e3
        have e9 := pure_ok_iff.1 e3
        have hnd := Dict.nodup_update (Dict.nodup_erase (wf_nodup (wf_dict hw hg)) "id")
          [(".type", .str "timeserver"), (".name", (Dict.get? d "id").getD (.str "ntp"))]
        refine ⟨_, i1, by rw [if_neg he]; exact ⟨_, rfl, sortedDict_nodup hnd, fun k => by
          rw [get?_sortedDict hnd]
          simp only [Dict.update_cons, Dict.update_nil, Dict.get?_set', Dict.get?_erase']⟩, grows_merge e2 fun _ => ?_, h⟩
        rw [← e9]
        exact ⟨rfl, by simp [Dict.keys, Dict.set]⟩

theorem led_step {env : Env} {cls : Class} {cs : List Conv} {c i : VDict} {st : BState} {l : List VDict} (hn : ∀ d ∈ l, (Dict.keys d).Nodup)
    (hk : (Dict.get? c "led" = none ∧ l = []) ∨ Dict.get? c "led" = some (.list (l.map .dict)))
    (h : convLoop cls (ledConv env :: cs) c i = (st, .ok ())) : ∃ bs i1, List.Forall₂ (LedSays env) l bs ∧ Grows "system" i i1 bs ∧ convLoop cls cs c i1 = (st, .ok ()) := by
  rcases pure_step h with ⟨e, h⟩ | ⟨v, i1, e, e1, e2, h⟩
  · rcases hk with ⟨_, rfl⟩ | hk
    · exact ⟨[], i, .nil, grows_same rfl, h⟩
    · rw [hk] at e; cases e
  · rcases hk with ⟨hk, _⟩ | hk
    · exact absurd hk e
    · have e1 : fwd "led" (ledFwd env) c = .ok v := e1
      rw [fwd_eq "led" (ledFwd env) "system" (fun _ => ledBlock env) (fun _ _ _ => rfl) c l hk] at e1
      obtain ⟨bs, h1, h2⟩ := bind_ok_iff.1 e1
      have h2 := pure_ok_iff.1 h2
      exact ⟨bs, i1, (mapIdxM_forall (R := fun b d => LedSays env d b) h1 fun _ d b hd hb => led_says (hn d hd) hb).flip, grows_merge e2 (fun _ => by rw [← h2]; exact stored_get _ _), h⟩

/-- the package before the last converter -/
theorem system_before (env : Env) (ip6 : Ip6) (sh : Val → Bool) (loads : Chars → Option Val) (dsa : Bool) (config : VDict) (hw : (Val.dict config).WF)
    {st : BState} (h : toIntermediate (openwrtClass env (owValidate ip6) sh loads dsa) ⟨config, none⟩ = (st, .ok ())) :
    ∃ ss ns ls : List VDict, GeneralSays env config ss ∧ NtpSays config ns ∧ List.Forall₂ (LedSays env) (objectsAt config "led") ls ∧
      ∃ c i, (∀ k, k ≠ "files" → Dict.get? c k = Dict.get? config k) ∧ (Dict.keys c).Nodup ∧ Grows "system" [] i (ss ++ ns ++ ls) ∧
        convLoop (openwrtClass env (owValidate ip6) sh loads dsa) [defaultConv env knownKeys] c i = (st, .ok ()) := by
  have hn := wf_nodup hw
  unfold toIntermediate at h
  split at h
  · cases h
  rename_i hval
  have hval : (validateRadios config >>= fun _ => owValidate ip6 config >>= fun _ => validateFilePaths config >>= fun _ => validatePvid config) = .ok () := hval
  obtain ⟨_, hr, hval⟩ := bind_ok_iff.1 hval
  obtain ⟨_, hv, _⟩ := bind_ok_iff.1 hval
  have hv : OwValid ip6 config := by
    unfold owValidate at hv
    split at hv
    · rename_i e; exact e
    · cases hv
  have facts := OwFacts.of_valid hv
  have hled := objectsAt_of (holds_objects facts.led)
  have H : convLoop (openwrtClass env (owValidate ip6) sh loads dsa)
      (generalConv env :: ntpConv :: ledConv env :: ((((readers env sh dsa).drop 3).map Prod.fst) ++ [defaultConv env knownKeys])) config [] = (st, .ok ()) := h
  obtain ⟨ss, i1, g1, g2, H⟩ := system_step hw (fun v hv => by
    obtain ⟨d, rfl, _⟩ := holds_obj (holds_at facts.general v hv)
    exact ⟨d, rfl⟩) H
  obtain ⟨ns, i2, g3, g4, H⟩ := ntp_step hw (fun v hv => by
    obtain ⟨d, rfl, _⟩ := holds_obj (holds_at facts.ntp v hv)
    exact ⟨d, rfl⟩) H
  obtain ⟨ls, i3, g5, g6, H⟩ := led_step (l := objectsAt config "led") (fun d hd => by
    rcases hled with ⟨_, e⟩ | e
    · rw [e] at hd; cases hd
    · exact wf_nodup (wf_each hw e (List.mem_map_of_mem hd))) hled H
  obtain ⟨c4, i4, a1, a2, a3, H⟩ := skip_many (P := ["system"]) _ (fun x hx => ⟨readers_reads x (List.mem_of_mem_drop hx), by
    simp only [readers, List.drop_succ_cons, List.drop_zero, List.mem_cons, List.not_mem_nil, or_false] at hx
    rcases hx with rfl | rfl | rfl | rfl | rfl | rfl | rfl | rfl | rfl <;> simp⟩) hn H
  refine ⟨ss, ns, ls, g1, g3, g5, c4, i4, a1, a2, ?_, H⟩
  simpa using grows_trans (grows_trans (grows_trans g2 g4) g6) (grows_same (a3 "system" (by simp)))

/-- **C101.** What the system package of a configuration without such a package of its own contains: the section of the general settings, that of the NTP settings, and
one section for each LED. -/
theorem C101_system (env : Env) (ip6 : Ip6) (sh : Val → Bool) (loads : Chars → Option Val) (dsa : Bool) (config : VDict) (hw : (Val.dict config).WF)
    (hpk : Dict.get? config "system" = none)
    {st : BState} (h : toIntermediate (openwrtClass env (owValidate ip6) sh loads dsa) ⟨config, none⟩ = (st, .ok ())) {j : VDict} (hj : st.inter = some j) :
    ∃ ss ns ls : List VDict, GeneralSays env config ss ∧ NtpSays config ns ∧ List.Forall₂ (LedSays env) (objectsAt config "led") ls ∧
      (DistinctNames (ss ++ ns ++ ls) → Dict.get? j "system" = stored (ss ++ ns ++ ls)) := by
  obtain ⟨ss, ns, ls, g1, g3, g5, c, i, a1, a2, g2, H⟩ := system_before env ip6 sh loads dsa config hw h
  refine ⟨ss, ns, ls, g1, g3, g5, fun hd => ?_⟩
  have hlast : Dict.get? j "system" = Dict.get? i "system" := by
    rcases loop_step H with ⟨s, _⟩ | ⟨_, v, i13, e1, e2, H⟩
    · cases s
    · rw [convLoop] at H
      cases H
      cases hj
      have hv0 := ((default_at a2 e1).2 "system").2 (by rw [a1 _ (by decide), hpk])
      rw [mergeKvs_get?_not_mem e2 ((Dict.get?_eq_none_iff _ _).1 hv0)]
  rw [hlast, g2 [] rfl (by simpa using hd)]
  simp

end NJ
