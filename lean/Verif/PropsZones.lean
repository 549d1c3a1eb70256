import Verif.PropsValid
import Verif.PropsConv
import Verif.PropsWireless
import Verif.ZoneChars
import Mathlib.Data.List.Nodup

/-!
# C77: time zones

`Env.tz` and `Env.tzRev` are the tables of openwrt/timezones.py here: the first is transcribed in `SchemaData`, the second is built of it. One entry (l.282) is
written as a set of two texts: which of them is the zone depends on the hashes of the process. `timezones` takes the order written, `otherZones` the other one.
-/

namespace NJ

/-- timezones.py l.474-478: `timezones_reversed` -/
def revTable (t : Dict String String) : Dict String String := t.foldl (fun r p => Dict.set r p.2 p.1) []

/-- the tables of timezones.py, made of the entries `t` -/
structure Zones (t : Dict String String) (env : Env) : Prop where
  tz : ∀ z, env.tz z = Dict.get? t z
  rev : ∀ p, env.tzRev p = Dict.get? (revTable t) p

/-- what the theorems need of the entries -/
structure GoodZones (t : Dict String String) : Prop where
  nodup : (Dict.keys t).Nodup
  name : ∀ q ∈ t, q.1 ≠ ""
  posix : ∀ q ∈ t, q.2 ≠ "" ∧ PlainText q.2.toList

/-- the table when the set on l.282 is iterated in the other order -/
def otherZones : Dict String String := timezones.map (fun q => if q.1 = "Asia/Qostanay" then ("<+06>-6", "Asia/Qostanay") else q)

/-- the last zone of the table with this POSIX string -/
def LastZone (t : Dict String String) (p z : String) : Prop := ∃ a b, t = a ++ (z, p) :: b ∧ ∀ q ∈ b, q.2 ≠ p

theorem lastZone_mem {t : Dict String String} {p z : String} (h : LastZone t p z) : (z, p) ∈ t := by
  obtain ⟨a, b, rfl, _⟩ := h
  simp

/-- what the loop that builds the reversed table leaves in it -/
theorem revTable_get (t : Dict String String) (p z : String) : Dict.get? (revTable t) p = some z ↔ LastZone t p z := by
  have key : ∀ (t r : Dict String String), Dict.get? (t.foldl (fun r p => Dict.set r p.2 p.1) r) p = some z ↔
      LastZone t p z ∨ ((∀ q ∈ t, q.2 ≠ p) ∧ Dict.get? r p = some z) := by
    intro t
    induction t with
    | nil => intro r; simp [LastZone]
    | cons q t ih =>
      intro r
      rw [List.foldl_cons, ih, Dict.get?_set']
      constructor
      · rintro (⟨a, b, e, hb⟩ | ⟨h1, h2⟩)
        · exact .inl ⟨q :: a, b, by rw [e]; rfl, hb⟩
        · by_cases e : p = q.2
          · rw [if_pos e] at h2
            cases h2
            exact .inl ⟨[], t, by rw [e]; rfl, h1⟩
          · rw [if_neg e] at h2
            refine .inr ⟨?_, h2⟩
            intro x hx
            rcases List.mem_cons.1 hx with rfl | hx
            · exact fun e' => e e'.symm
            · exact h1 x hx
      · rintro (⟨a, b, e, hb⟩ | ⟨h1, h2⟩)
        · cases a with
          | nil =>
            rw [List.nil_append] at e
            injection e with e1 e2
            subst e1 e2
            exact .inr ⟨hb, by rw [if_pos rfl]⟩
          | cons x a =>
            rw [List.cons_append] at e
            injection e with e1 e2
            exact .inl ⟨a, b, e2, hb⟩
        · refine .inr ⟨fun x hx => h1 x (by simp [hx]), ?_⟩
          rw [if_neg (fun e => h1 q (by simp) e.symm)]
          exact h2
  unfold revTable
  rw [key]
  simp [Dict.get?]

theorem lastZone_exists {t : Dict String String} {p : String} {q : String × String} (hq : q ∈ t) (e : q.2 = p) : ∃ z, LastZone t p z := by
  induction t generalizing q with
  | nil => cases hq
  | cons x t ih =>
    by_cases hx : ∃ y ∈ t, y.2 = p
    · obtain ⟨y, hy, e'⟩ := hx
      obtain ⟨z, a, b, e1, e2⟩ := ih hy e'
      exact ⟨z, x :: a, b, by rw [e1]; rfl, e2⟩
    · rcases List.mem_cons.1 hq with rfl | hq
      · refine ⟨q.1, [], t, by rw [← e]; rfl, fun y hy e' => hx ⟨y, hy, e'⟩⟩
      · exact absurd ⟨q, hq, e⟩ hx

/-! ## Every zone of the table -/

set_option maxRecDepth 100000 in
theorem zones_chars : timezones = zoneChars.map (fun q => (String.ofList q.1, String.ofList q.2)) := by rfl

/-- the characters as digits of a number -/
def zoneCode (l : List Char) : Nat := l.foldl (fun n c => n * 256 + c.toNat) 0

theorem zones_codes : zoneChars.map (fun q => zoneCode q.1) = zoneCodes := by decide +kernel

theorem zoneCodes_nodup : zoneCodes.Nodup := by decide +kernel

theorem keys_codes : (Dict.keys timezones).map (fun z => zoneCode z.toList) = zoneCodes := by
  rw [← zones_codes, zones_chars, Dict.keys, List.map_map, List.map_map]
  exact List.map_congr_left (fun q _ => by simp)

theorem zones_checked : zoneChars.all (fun q => !q.1.isEmpty && (!q.2.isEmpty && q.2.all (fun c => c != '\n' && c != '\'' && c != '"' && c != ' '))) = true := by
  decide +kernel

theorem plain_of_check {s : Chars} (h : s.all (fun c => c != '\n' && c != '\'' && c != '"' && c != ' ') = true) : PlainText s := by
  simp only [List.all_eq_true, Bool.and_eq_true, bne_iff_ne, ne_eq] at h
  refine ⟨fun c hc => ⟨(h c hc).1.1.1, (h c hc).1.1.2, (h c hc).1.2⟩, fun hi => ?_⟩
  exact (h ' ' (hi.subset (by simp))).2 rfl

/-- the table as it is written -/
theorem timezones_good : GoodZones timezones where
  nodup := List.Nodup.of_map (fun z : String => zoneCode z.toList) (by rw [keys_codes]; exact zoneCodes_nodup)
  name := by
    intro q hq
    rw [zones_chars] at hq
    obtain ⟨x, hx, rfl⟩ := List.mem_map.1 hq
    have := List.all_eq_true.1 zones_checked x hx
    simp only [Bool.and_eq_true, Bool.not_eq_true'] at this
    intro e
    have e := congrArg String.toList e
    simp only [String.toList_ofList] at e
    rw [e] at this
    exact absurd this.1 (by decide)
  posix := by
    intro q hq
    rw [zones_chars] at hq
    obtain ⟨x, hx, rfl⟩ := List.mem_map.1 hq
    have := List.all_eq_true.1 zones_checked x hx
    simp only [Bool.and_eq_true, Bool.not_eq_true'] at this
    refine ⟨fun e => ?_, ?_⟩
    · have e := congrArg String.toList e
      simp only [String.toList_ofList] at e
      rw [e] at this
      exact absurd this.2.1 (by decide)
    · simp only [String.toList_ofList]
      exact plain_of_check (by simpa using this.2.2)

/-- the other order: the names are still different and the strings plain -/
theorem otherZones_good : GoodZones otherZones where
  nodup := by
    have e : Dict.keys otherZones = (Dict.keys timezones).map (fun z => if z = "Asia/Qostanay" then "<+06>-6" else z) := by
      unfold otherZones Dict.keys
      rw [List.map_map, List.map_map]
      refine List.map_congr_left (fun q _ => ?_)
      simp only [Function.comp_apply]
      split <;> rfl
    rw [e]
    have hno : "<+06>-6" ∉ Dict.keys timezones := by
      intro h
      have := List.mem_map_of_mem (f := fun z : String => zoneCode z.toList) h
      rw [keys_codes] at this
      revert this
      decide +kernel
    refine List.Nodup.map_on ?_ timezones_good.nodup
    intro x hx y hy h
    by_cases ex : x = "Asia/Qostanay" <;> by_cases ey : y = "Asia/Qostanay"
    · rw [ex, ey]
    · rw [if_pos ex, if_neg ey] at h; rw [← h] at hy; exact absurd hy hno
    · rw [if_neg ex, if_pos ey] at h; rw [h] at hx; exact absurd hx hno
    · rw [if_neg ex, if_neg ey] at h; exact h
  name := by
    intro q hq
    obtain ⟨x, hx, rfl⟩ := List.mem_map.1 hq
    split
    · simp
    · exact timezones_good.name x hx
  posix := by
    intro q hq
    obtain ⟨x, hx, rfl⟩ := List.mem_map.1 hq
    split
    · exact ⟨by simp, plain_of_check (by decide +kernel)⟩
    · exact timezones_good.posix x hx

theorem Zones.some {t : Dict String String} {env : Env} (hg : GoodZones t) (h : Zones t env) {z p : String} : env.tz z = some p ↔ (z, p) ∈ t := by
  rw [h.tz, Dict.get?_some_iff hg.nodup]

theorem Zones.last {t : Dict String String} {env : Env} (h : Zones t env) {z p : String} : env.tzRev p = Option.some z ↔ LastZone t p z := by
  rw [h.rev, revTable_get]

/-! ## The theorems -/

/-- **C77**, validation: a time zone of a valid configuration is one of the table. -/
theorem C77_valid (env : Env) (sh : Val → Bool) (loads : Chars → Option Val) (dsa : Bool) (config d : VDict) (v : Val)
    (hv : validate (openwrtClass env (owValidate env.ip6) sh loads dsa) config = .ok ()) (hg : Dict.get? config "general" = some (.dict d))
    (ht : Dict.get? d "timezone" = some v) : ∃ z p, v = .str z ∧ (z, p) ∈ timezones := by
  obtain ⟨d', e, hd⟩ := holds_obj (holds_at (ow_valid hv).general _ hg)
  cases e
  obtain ⟨s, hs, rfl⟩ := holds_at hd v ht
  obtain ⟨q, hq, rfl⟩ := List.mem_map.1 hs
  exact ⟨q.1, q.2, rfl, hq⟩

/-- **C77**, to UCI: the POSIX string written is the one of the table, and the zone is written beside it; a zone that is not in the table is refused. -/
theorem C77_written (t : Dict String String) (ht0 : GoodZones t) (env : Env) (h : Zones t env) (config d : VDict) (z : String) (hg : Dict.get? config "general" = some (.dict d))
    (hd : (Dict.keys d).Nodup) (ht : Dict.get? d "timezone" = some (.str z)) :
    (∀ p, (z, p) ∈ t → ∃ r b, ((generalConv env).run config []).2 = .ok r ∧ Dict.get? r "system" = some (.list [.dict b]) ∧
      Dict.get? b "zonename" = some (.str z) ∧ Dict.get? b "timezone" = some (.str p)) ∧
    ((∀ p, (z, p) ∉ t) → ((generalConv env).run config []).2 = .error .keyError) := by
  have hrun : ((generalConv env).run config []).2 = generalFwd env none (.dict d) [] := by
    show fwd "general" (generalFwd env) config = _
    unfold fwd
    simp only [hg, Option.getD_some]
  rw [hrun]
  -- the settings without those of the ULA prefix
  obtain ⟨u, g, hu, hgn, hgt⟩ : ∃ u g, ulaBlock d = .ok (u, g) ∧ (Dict.keys g).Nodup ∧ Dict.get? g "timezone" = some (.str z) := by
    unfold ulaBlock
    split
    · next hh =>
      simp only [popOr]
      have : Dict.get? (Dict.erase d "globals_id") "ula_prefix" = Dict.get? d "ula_prefix" := by rw [Dict.get?_erase', if_neg (by decide)]
      obtain ⟨w, hw⟩ := Option.isSome_iff_exists.1 hh
      rw [popKey_iff.2 ⟨by rw [this]; exact hw, rfl⟩]
      refine ⟨_, _, rfl, Dict.nodup_erase (Dict.nodup_erase hd _) _, ?_⟩
      rw [Dict.get?_erase', if_neg (by decide), Dict.get?_erase', if_neg (by decide), ht]
    · exact ⟨_, _, rfl, hd, ht⟩
  unfold generalFwd
  simp only [asDict, bind, Except.bind, hu]
  have hne : g.isEmpty = false := by
    cases g with
    | nil => cases hgt
    | cons _ _ => rfl
  -- the options before the time zone is written
  generalize hx : Dict.update (Dict.erase g "id") [(".type", Val.str "system"), (".name", (Dict.get? g "id").getD (.str "system")),
    ("hostname", (Dict.get? (Dict.erase g "id") "hostname").getD (.str "OpenWRT"))] = x
  have hxn : (Dict.keys x).Nodup := by rw [← hx]; exact Dict.nodup_update (Dict.nodup_erase hgn _) _
  have hxt : Dict.get? x "timezone" = some (.str z) := by
    rw [← hx, Dict.get?_update _ _ (by simp [Dict.keys])]
    simp only [Dict.get?]
    rw [if_neg (by decide), if_neg (by decide), if_neg (by decide), Option.none_or, Dict.get?_erase', if_neg (by decide), hgt]
  have hsys : systemBlock env g = match env.tz z with
      | none => .error .keyError
      | some posix => .ok (some (sortedDict (Dict.set (Dict.set x "zonename" (.str z)) "timezone" (.str posix)))) := by
    unfold systemBlock
    rw [hne]
    simp only [Bool.false_eq_true, if_false, popOr, hx, hxt]
    cases env.tz z <;> rfl
  rw [hsys]
  constructor
  · intro p hp
    rw [(h.some ht0).2 hp]
    refine ⟨_, sortedDict (Dict.set (Dict.set x "zonename" (.str z)) "timezone" (.str p)), rfl, ?_, ?_, ?_⟩
    · cases u with
      | none => rfl
      | some u =>
        dsimp only
        rw [Dict.get?_set', if_neg (by decide)]
        rfl
    · rw [get?_sortedDict (Dict.nodup_set (Dict.nodup_set hxn _ _) _ _), Dict.get?_set', if_neg (by decide), Dict.get?_set', if_pos rfl]
    · rw [get?_sortedDict (Dict.nodup_set (Dict.nodup_set hxn _ _) _ _), Dict.get?_set', if_pos rfl]
  · intro hno
    have : env.tz z = none := by
      cases hz : env.tz z with
      | none => rfl
      | some p => exact absurd ((h.some ht0).1 hz) (hno p)
    rw [this]

/-- **C77**, from UCI: of a section with a zone name that zone is read; of one without, the last zone of the table with its POSIX string, which is refused
if there is none. -/
theorem C77_read (t : Dict String String) (ht0 : GoodZones t) (env : Env) (h : Zones t env) (b : VDict) (i : Nat) {n : Val} (hb : (Dict.keys b).Nodup) (h1 : Dict.has b ".type" = true)
    (h2 : Dict.get? b ".name" = some n) :
    (∀ z : String, z ≠ "" → Dict.get? b "zonename" = some (.str z) → ∃ g, generalBack env i b [] = .ok [("general", .dict g)] ∧
      (Dict.keys g).Nodup ∧ Dict.get? g "timezone" = some (.str z)) ∧
    (Dict.get? b "zonename" = none → ∀ p : String, p ≠ "" → Dict.get? b "timezone" = some (.str p) →
      (∀ z, LastZone t p z → ∃ g, generalBack env i b [] = .ok [("general", .dict g)] ∧ (Dict.keys g).Nodup ∧
        Dict.get? g "timezone" = some (.str z)) ∧
      ((∀ q ∈ t, q.2 ≠ p) → generalBack env i b [] = .error .keyError)) := by
  obtain ⟨ty, ht⟩ := Option.isSome_iff_exists.1 h1
  have hn2 : Dict.get? (Dict.erase b ".type") ".name" = some n := by rw [Dict.get?_erase', if_neg (by decide), h2]
  generalize hs : (if n = .str "system" then Dict.erase (Dict.erase b ".type") ".name" else Dict.set (Dict.erase (Dict.erase b ".type") ".name") "id" n) = s
  have hget : ∀ k, k ∉ [".type", ".name", "id"] → Dict.get? s k = Dict.get? b k := by
    intro k hk
    simp only [List.mem_cons, List.not_mem_nil, or_false, not_or] at hk
    rw [← hs]
    split
    · rw [Dict.get?_erase', if_neg hk.2.1, Dict.get?_erase', if_neg hk.1]
    · rw [Dict.get?_set', if_neg hk.2.2, Dict.get?_erase', if_neg hk.2.1, Dict.get?_erase', if_neg hk.1]
  have hsn : (Dict.keys s).Nodup := by
    rw [← hs]
    split
    · exact Dict.nodup_erase (Dict.nodup_erase hb _) _
    · exact Dict.nodup_set (Dict.nodup_erase (Dict.nodup_erase hb _) _) _ _
  have hgn : ∀ (c : Bool) (v z : Val), (Dict.keys (Dict.set (if c = true then Dict.set (Dict.erase (Dict.erase (Dict.erase s "hostname") "zonename") "timezone")
      "hostname" v else Dict.erase (Dict.erase (Dict.erase s "hostname") "zonename") "timezone") "timezone" z)).Nodup := by
    intro c v z
    have h0 := Dict.nodup_erase (Dict.nodup_erase (Dict.nodup_erase hsn "hostname") "zonename") "timezone"
    refine Dict.nodup_set ?_ _ _
    split
    · exact Dict.nodup_set h0 _ _
    · exact h0
  have hz : Dict.get? (Dict.erase s "hostname") "zonename" = Dict.get? b "zonename" := by
    rw [Dict.get?_erase', if_neg (by decide), hget _ (by decide)]
  have hp : Dict.get? (Dict.erase (Dict.erase s "hostname") "zonename") "timezone" = Dict.get? b "timezone" := by
    rw [Dict.get?_erase', if_neg (by decide), Dict.get?_erase', if_neg (by decide), hget _ (by decide)]
  have hrun : generalBack env i b [] = (do
      let zone ← (if ((Dict.get? b "zonename").getD .none).truthy then pure ((Dict.get? b "zonename").getD .none)
        else if ((Dict.get? b "timezone").getD .none).truthy then
          match (Dict.get? b "timezone").getD .none with
          | .str t => match env.tzRev t with
            | some z => pure (Val.str z)
            | none => .error .keyError
          | .list _ => .error .typeError
          | _ => .error .keyError
        else pure Val.none : Except PyErr Val)
      let s' := Dict.erase (Dict.erase (Dict.erase s "hostname") "zonename") "timezone"
      let s' := if ((Dict.get? s "hostname").getD .none).truthy then Dict.set s' "hostname" ((Dict.get? s "hostname").getD .none) else s'
      pure [("general", .dict (if zone.truthy then Dict.set s' "timezone" zone else s'))]) := by
    unfold generalBack systemBack
    rw [popKey_iff.2 ⟨ht, rfl⟩]
    simp only [bind, Except.bind]
    rw [popKey_iff.2 ⟨hn2, rfl⟩]
    simp only [popOr, hs, hz, hp]
    generalize (if ((Dict.get? b "zonename").getD .none).truthy then pure ((Dict.get? b "zonename").getD .none)
        else if ((Dict.get? b "timezone").getD .none).truthy then
          match (Dict.get? b "timezone").getD .none with
          | .str t => match env.tzRev t with
            | some z => pure (Val.str z)
            | none => .error .keyError
          | .list _ => .error .typeError
          | _ => .error .keyError
        else pure Val.none : Except PyErr Val) = zone
    cases zone <;> rfl
  rw [hrun]
  constructor
  · intro z hne hzn
    have tr : (Val.str z).truthy = true := by simp [Val.truthy, hne]
    rw [hzn]
    simp only [Option.getD_some, tr, if_true, bind, Except.bind, pure, Except.pure]
    exact ⟨_, rfl, hgn _ _ _, by rw [Dict.get?_set', if_pos rfl]⟩
  · intro hzn p hne hpt
    have tr : (Val.str p).truthy = true := by simp [Val.truthy, hne]
    rw [hzn, hpt]
    simp only [Option.getD_none, Option.getD_some, tr, if_true, show Val.none.truthy = false from rfl, Bool.false_eq_true, if_false, bind, Except.bind]
    constructor
    · intro z hl
      have trz : (Val.str z).truthy = true := by
        have := ht0.name _ (lastZone_mem hl)
        simp [Val.truthy, this]
      rw [h.last.2 hl]
      simp only [pure, Except.pure, trz, if_true]
      exact ⟨_, rfl, hgn _ _ _, by rw [Dict.get?_set', if_pos rfl]⟩
    · intro hno
      have : env.tzRev p = none := by
        cases hr : env.tzRev p with
        | none => rfl
        | some z => exact absurd rfl (hno _ (lastZone_mem (h.last.1 hr)))
      rw [this]

/-- **C77**, the clock is kept: a POSIX string of the table, read from a section without a zone name, is written again as the same POSIX string. -/
theorem C77_clock_kept (t : Dict String String) (ht0 : GoodZones t) (env : Env) (h : Zones t env) (b : VDict) (i : Nat) {n : Val} (hb : (Dict.keys b).Nodup) (h1 : Dict.has b ".type" = true)
    (h2 : Dict.get? b ".name" = some n) (hz : Dict.get? b "zonename" = none) (q : String × String) (hq : q ∈ t)
    (hp : Dict.get? b "timezone" = some (.str q.2)) :
    ∃ g, generalBack env i b [] = .ok [("general", .dict g)] ∧
      (∃ r s, ((generalConv env).run [("general", .dict g)] []).2 = .ok r ∧ Dict.get? r "system" = some (.list [.dict s]) ∧
        Dict.get? s "timezone" = some (.str q.2)) := by
  obtain ⟨z, hl⟩ := lastZone_exists hq rfl
  obtain ⟨g, g1, hn, g2⟩ := ((C77_read t ht0 env h b i hb h1 h2).2 hz q.2 (ht0.posix q hq).1 hp).1 z hl
  refine ⟨g, g1, ?_⟩
  obtain ⟨r, s, r1, r2, _, r4⟩ := (C77_written t ht0 env h [("general", .dict g)] g z rfl hn g2).1 q.2 (lastZone_mem hl)
  exact ⟨r, s, r1, r2, r4⟩

/-- **C77**, there and back: every zone of the table survives the text, with any settings that survive. -/
theorem C77_round_trip (t : Dict String String) (ht0 : GoodZones t) (env : Env) (h : Zones t env) (config d : VDict) (q : String × String) (hq : q ∈ t)
    (hg : Dict.get? config "general" = some (.dict d)) (ht : Dict.get? d "timezone" = some (.str q.1)) (ho : OptionsOK [] ["id"] d)
    (hid : Dict.get? d "id" = none ∨ ∃ n, Dict.get? d "id" = some (.str n) ∧ IsWord n.toList ∧ n ≠ "system")
    (hz : Dict.get? d "zonename" = none) (hu : Dict.get? d "ula_prefix" = none) :
    ∃ out, viaText env.reprC (generalConv env) (generalBConv env) config = .ok [("general", .dict out)] ∧ Dict.get? out "timezone" = some (.str q.1) := by
  obtain ⟨out, h1, h2⟩ := C41_round_trip env config d hg
    { options := ho
      ne := by rintro rfl; cases ht
      id := hid
      zone := by
        intro v hv
        rw [ht] at hv
        cases hv
        exact ⟨q.1, q.2, rfl, (h.some ht0).2 hq, (ht0.posix q hq).1, (ht0.posix q hq).2⟩
      noZonename := hz
      noUla := hu }
  refine ⟨out, h1, ?_⟩
  rw [h2]
  unfold withHostname
  split
  · exact ht
  · rw [Dict.get?_set', if_neg (by decide), ht]

/-! ## The hypotheses are met -/

/-- an environment with the tables of timezones.py -/
def zoneEnv (t : Dict String String) : Env := { sampleEnv with tz := Dict.get? t, tzRev := Dict.get? (revTable t) }

theorem zoneEnv_ok (t : Dict String String) : Zones t (zoneEnv t) := ⟨fun _ => rfl, fun _ => rfl⟩

theorem mem_timezones {a b : Chars} (h : (a, b) ∈ zoneChars) : (String.ofList a, String.ofList b) ∈ timezones := by
  rw [zones_chars]
  exact List.mem_map_of_mem (f := fun q : Chars × Chars => (String.ofList q.1, String.ofList q.2)) h

theorem rome_listed : ("Europe/Rome", "CET-1CEST,M3.5.0,M10.5.0/3") ∈ timezones :=
  mem_timezones (a := ['E', 'u', 'r', 'o', 'p', 'e', '/', 'R', 'o', 'm', 'e'])
    (b := ['C', 'E', 'T', '-', '1', 'C', 'E', 'S', 'T', ',', 'M', '3', '.', '5', '.', '0', ',', 'M', '1', '0', '.', '5', '.', '0', '/', '3']) (by decide +kernel)

example : ∃ out, viaText sampleEnv.reprC (generalConv (zoneEnv timezones)) (generalBConv (zoneEnv timezones))
      [("general", .dict [("timezone", .str "Europe/Rome"), ("id", .str "main")])] = .ok [("general", .dict out)] ∧
    Dict.get? out "timezone" = some (.str "Europe/Rome") :=
  C77_round_trip timezones timezones_good (zoneEnv timezones) (zoneEnv_ok _) _ _ ("Europe/Rome", "CET-1CEST,M3.5.0,M10.5.0/3") rome_listed rfl rfl
    (optionsB_sound (by decide +kernel)) (.inr ⟨"main", rfl, by decide +kernel, by decide⟩) rfl rfl

/-- without the zone name another zone can be read (whose clock is the same) -/
theorem C77_needs_zonename (env : Env) (h : Zones timezones env) : ∃ q ∈ timezones, ∃ z g, z ≠ q.1 ∧
    generalBack env 1 [(".type", .str "system"), (".name", .str "system"), ("timezone", .str q.2)] [] = .ok [("general", .dict g)] ∧
    Dict.get? g "timezone" = some (.str z) := by
  have h1 : ("Africa/Abidjan", "GMT0") ∈ timezones := mem_timezones (a := ['A', 'f', 'r', 'i', 'c', 'a', '/', 'A', 'b', 'i', 'd', 'j', 'a', 'n'])
    (b := ['G', 'M', 'T', '0']) (by decide +kernel)
  have h2 : ("Africa/Accra", "GMT0") ∈ timezones := mem_timezones (a := ['A', 'f', 'r', 'i', 'c', 'a', '/', 'A', 'c', 'c', 'r', 'a'])
    (b := ['G', 'M', 'T', '0']) (by decide +kernel)
  obtain ⟨z, hl⟩ := lastZone_exists h1 rfl
  obtain ⟨g, g1, _, g2⟩ := ((C77_read timezones timezones_good env h [(".type", .str "system"), (".name", .str "system"), ("timezone", .str "GMT0")] 1
    (n := .str "system") (by simp [Dict.keys]) rfl rfl).2 rfl "GMT0" (by decide) rfl).1 z hl
  by_cases e : z = "Africa/Abidjan"
  · exact ⟨_, h2, z, g, by rw [e]; decide, g1, g2⟩
  · exact ⟨_, h1, z, g, e, g1, g2⟩

/-- a POSIX string that is not in the table is refused, although OpenWrt knows it -/
theorem C77_unknown (env : Env) (h : Zones timezones env) :
    generalBack env 1 [(".type", .str "system"), (".name", .str "system"), ("timezone", .str "CET-1CEST")] [] = .error .keyError := by
  refine ((C77_read timezones timezones_good env h [(".type", .str "system"), (".name", .str "system"), ("timezone", .str "CET-1CEST")] 1
    (n := .str "system") (by simp [Dict.keys]) rfl rfl).2 rfl "CET-1CEST" (by decide) rfl).2 ?_
  intro q hq
  rw [zones_chars] at hq
  obtain ⟨x, hx, rfl⟩ := List.mem_map.1 hq
  have : ∀ x ∈ zoneChars, x.2 ≠ ['C', 'E', 'T', '-', '1', 'C', 'E', 'S', 'T'] := by decide +kernel
  intro e
  have e := congrArg String.toList e
  simp only [String.toList_ofList] at e
  exact this x hx (e.trans (by decide +kernel))

/-- in a process where the set on l.282 has the other order, a zone that exists is refused, and its POSIX string taken for a zone -/
theorem C77_needs_order (env : Env) (h : Zones otherZones env) :
    ((generalConv env).run [("general", .dict [("timezone", .str "Asia/Qostanay")])] []).2 = .error .keyError ∧
    ∃ r b, ((generalConv env).run [("general", .dict [("timezone", .str "<+06>-6")])] []).2 = .ok r ∧ Dict.get? r "system" = some (.list [.dict b]) ∧
      Dict.get? b "timezone" = some (.str "Asia/Qostanay") := by
  constructor
  · refine (C77_written otherZones otherZones_good env h _ _ "Asia/Qostanay" rfl (by simp [Dict.keys]) rfl).2 ?_
    intro p hp
    obtain ⟨x, _, e⟩ := List.mem_map.1 hp
    split at e
    · exact absurd (show "<+06>-6" = "Asia/Qostanay" from congrArg Prod.fst e) (by decide)
    · next hne => exact hne (by rw [e])
  · have hm : ("<+06>-6", "Asia/Qostanay") ∈ otherZones := by
      have h1 : ("Asia/Qostanay", "<+06>-6") ∈ timezones := mem_timezones (a := ['A', 's', 'i', 'a', '/', 'Q', 'o', 's', 't', 'a', 'n', 'a', 'y'])
        (b := ['<', '+', '0', '6', '>', '-', '6']) (by decide +kernel)
      have := List.mem_map_of_mem (f := fun q : String × String => if q.1 = "Asia/Qostanay" then ("<+06>-6", "Asia/Qostanay") else q) h1
      rw [if_pos rfl] at this
      exact this
    obtain ⟨r, b, r1, r2, _, r4⟩ := (C77_written otherZones otherZones_good env h [("general", .dict [("timezone", .str "<+06>-6")])]
      [("timezone", .str "<+06>-6")] "<+06>-6" rfl (by simp [Dict.keys]) rfl).1 _ hm
    exact ⟨r, b, r1, r2, r4⟩

end NJ
