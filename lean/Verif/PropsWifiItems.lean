import Verif.SchemaRadio
import Verif.PropsWireless
import Verif.PropsLocal
import Verif.Compose

/-!
# C99: the wireless package says what the radios and the Wi-Fi interfaces say
-/

namespace NJ

/-- **Specification.** The objects of the list under a key. -/
def objectsAt (config : VDict) (k : String) : List VDict :=
  match Dict.get? config k with
  | some (.list l) => l.filterMap fun v => match v with
    | .dict d => some d
    | _ => none
  | _ => []

/-- **Specification.** What the band of a radio must be: the one that is given, or else the one of the alternative of the schema that the radio matches;
in the old syntax the hardware mode. -/
structure BandSays (dsa : Bool) (d : VDict) (f p : String) (bv : Val) : Prop where
  given : dsa = true → ∀ s, s ≠ "" → Dict.get? d "band" = some (.str s) → bv = .str s
  found : dsa = true → Agrees d f → bv = .str f
  legacy : dsa = false → f = "2g" ∨ f = "5g" → Agrees d f → bv = (Dict.get? d "hwmode").getD (.str (legacyMode f p))

/-- **Specification.** The section `b` says what the radio `d` says. -/
def RadioSays (env : Env) (dsa : Bool) (d b : VDict) : Prop :=
  ∃ f p c w bv, ValidRadio d f ∧ Dict.get? d "protocol" = some (.str p) ∧ Dict.get? d "channel" = some (.int c) ∧ Dict.get? d "channel_width" = some (.int w) ∧
    BandSays dsa d f p bv ∧ (Dict.keys b).Nodup ∧ ∀ k, Dict.get? b k = radioItem env dsa d p c w bv k

instance (enc : VDict) : Decidable (EncryptionOff enc) := by unfold EncryptionOff; infer_instance

/-- **Specification.** The options made from the encryption object. -/
def wifiSecurity (env : Env) (mode : String) (w : VDict) (k : String) : Option Val :=
  match Dict.get? w "encryption" with
  | some (.dict enc) =>
    if EncryptionOff enc then (if k = "encryption" then some (.str "none") else none)
    else match Dict.get? enc "protocol" with
      | some (.str p) => encItem env mode p enc k
      | _ => none
  | _ => none

/-- **Specification.** The options before roaming and networks: those of the encryption object first. -/
def wifiOptions (env : Env) (name mode : String) (d w : VDict) (k : String) : Option Val :=
  (wifiSecurity env mode w k).or (wifiBase name mode d w k)

/-- **Specification.** The section `b` says what the Wi-Fi interface `d` with the object `w` says; `bridged` are the bridges of each device. -/
def WifiSays (env : Env) (bridged : Dict String (List String)) (d w b : VDict) : Prop :=
  ∃ name m mode net, Dict.get? d "name" = some (.str name) ∧ Dict.get? w "mode" = some (.str m) ∧ Dict.get? wifiModes m = some mode ∧
    joinSpaces (wifiNetworks bridged name d (wifiOptions env name mode d w "network")) = .ok net ∧ (Dict.keys b).Nodup ∧
    ∀ k, Dict.get? b k =
      if k = "network" then some (txt (uciName net))
      else if wifiOptions env name mode d w "ieee80211r" = some (.bool false) ∧ k ∈ roamingProperties then none
      else wifiOptions env name mode d w k

/-- **Specification.** The name of the section of a Wi-Fi interface. -/
def wifiSectionName (d w : VDict) : Val :=
  if ((Dict.get? w "id").getD .none).truthy then (Dict.get? w "id").getD .none
  else match Dict.get? d "name" with
    | some (.str n) => .str (wifiAutoName n)
    | _ => .none

/-! ## The sections -/

theorem wifi_says {env : Env} {bridged : Dict String (List String)} {d w b : VDict} (hw : (Val.dict w).WF)
    (h : wifiBlock env bridged d w = .ok b) : WifiSays env bridged d w b ∧
      (((Dict.get? w "encryption" = none ∨ ∀ enc, Dict.get? w "encryption" = some (.dict enc) → Dict.get? enc ".name" = none)) →
        Dict.get? b ".name" = some (wifiSectionName d w)) := by
  obtain ⟨name, m, mode, uci, net, h1, h2, h3, h4, h5, h6, h7, h8⟩ := wifiBlock_spec (wf_nodup hw) (fun enc he => wf_nodup (wf_dict hw he)) h
  have key : ∀ k, wifiMerged name mode d w uci k = wifiOptions env name mode d w k := by
    intro k
    unfold wifiOptions wifiSecurity
    rcases h5 with ⟨e1, rfl⟩ | ⟨enc, u, e1, e2, rfl⟩
    · rw [e1]
      rfl
    · rw [e1]
      unfold wifiMerged
      dsimp only
      by_cases ho : EncryptionOff enc
      · rw [encryptionUci_off ho] at e2
        cases e2
        rw [if_pos ho]
        by_cases hk : k = "encryption"
        · subst hk; rfl
        · rw [if_neg hk, if_neg hk]
          simp [Dict.get?, Ne.symm hk]
      · rw [if_neg ho]
        obtain ⟨p, hp, hg⟩ := encryptionUci_get e2 ho
        rw [hp]
        dsimp only
        rw [hg]
        by_cases hk : k = "encryption"
        · subst hk; rfl
        · rw [if_neg hk]
  refine ⟨⟨name, m, mode, net, h1, h2, h3, by rw [← key]; exact h6, h7, fun k => by rw [h8, key, key]⟩, fun hnm => ?_⟩
  rw [h8, if_neg (by decide), if_neg (by rintro ⟨_, hh⟩; exact absurd hh (by decide)), key]
  have hs : wifiSecurity env mode w ".name" = none := by
    unfold wifiSecurity
    rcases h5 with ⟨e1, _⟩ | ⟨enc, u, e1, e2, _⟩
    · rw [e1]
    · rw [e1]
      dsimp only
      rcases hnm with hnm | hnm
      · rw [hnm] at e1; cases e1
      · by_cases ho : EncryptionOff enc
        · rw [if_pos ho, if_neg (by decide)]
        · rw [if_neg ho]
          obtain ⟨p, hp, _⟩ := encryptionUci_get e2 ho
          rw [hp]
          dsimp only
          rw [encItem_plain (by decide), hnm enc e1]
  unfold wifiOptions
  rw [hs]
  simp [wifiBase, wifiSectionName, h1]

theorem radio_says {env : Env} {dsa : Bool} {d b : VDict} {f : String} (hv : ValidRadio d f) (hr : radioRefused d = .ok false) (h : radioBlock env dsa d = .ok b) :
    RadioSays env dsa d b ∧ Dict.get? b ".name" = Dict.get? d "name" ∧ Named b := by
  obtain ⟨_, ps, ch, hi⟩ := valid_is hv
  obtain ⟨p, _, hp⟩ := hi.protocol
  obtain ⟨c, _, hc⟩ := hi.channel
  obtain ⟨n, hn⟩ := hi.name
  have main : ∃ bv, (if dsa then (radioBand d).1 = bv else ∃ x, radioHwmode d = .ok (bv, x)) ∧ BandSays dsa d f p bv := by
    cases dsa with
    | true =>
      refine ⟨(radioBand d).1, by simp, ?_, fun _ ha => valid_band hv hr ha, by simp⟩
      intro _ s hs hb
      unfold radioBand
      simp only [popOr_eq, Dict.get?_erase', String.reduceEq, if_false, hb, Option.getD_some]
      exact bandValue_band hs
    | false =>
      obtain ⟨v, x, hx⟩ := radioHwmode_total hp hc
      refine ⟨v, by simpa using ⟨x, hx⟩, by simp, by simp, ?_⟩
      intro _ hf ha
      obtain ⟨y, hy⟩ : ∃ y, radioHwmode d = .ok ((Dict.get? d "hwmode").getD (.str (legacyMode f p)), y) := by
        have := valid_hwmode hv hf hr ha hp
        cases e : Dict.get? d "hwmode" <;> rw [e] at this <;> exact this
      rw [hx] at hy
      exact (Prod.mk.inj (Except.ok.inj hy)).1
  obtain ⟨bv, hbv, hs⟩ := main
  obtain ⟨p', c', w, b', q1, q2, q3, q4, q5, q6⟩ := valid_block env dsa hv bv hbv
  rw [h] at q4
  cases q4
  rw [hp] at q1
  cases q1
  have hnm : Dict.get? b ".name" = Dict.get? d "name" := by rw [q6]; simp [radioItem]
  exact ⟨⟨f, p, c', w, bv, hv, hp, q2, q3, hs, q5, q6⟩, hnm, n, by rw [hnm, hn]⟩

/-! ## The loop -/

/-- a converter that is not needed, or that does not write the packages `P` -/
theorem skip_one {cls : Class} {conv : Conv} {cs : List Conv} {R Ri W P : List String} (hr : ReadsOnly conv R Ri W) {c i : VDict} {st : BState}
    (hd : conv.should c = false ∨ ∀ w ∈ W, w ∉ P) (hn : (Dict.keys c).Nodup) (h : convLoop cls (conv :: cs) c i = (st, .ok ())) :
    ∃ c1 i1, (∀ k, k ≠ "files" → Dict.get? c1 k = Dict.get? c k) ∧ (Dict.keys c1).Nodup ∧ AgreeOn P i1 i ∧ convLoop cls cs c1 i1 = (st, .ok ()) := by
  rcases loop_step h with ⟨_, h⟩ | ⟨hs, v, i1, e1, e2, h⟩
  · exact ⟨c, i, fun _ _ => rfl, hn, fun _ _ => rfl, h⟩
  · rcases hd with hd | hd
    · rw [hs] at hd; cases hd
    · exact ⟨_, i1, (hr.config c i).1, (hr.config c i).2 hn, merge_outside e2 (hr.writes e1) hd, h⟩

theorem skip_many {cls : Class} {P : List String} (xs : List (Conv × List String × List String × List String))
    (hx : ∀ x ∈ xs, ReadsOnly x.1 x.2.1 x.2.2.1 x.2.2.2 ∧ ∀ w ∈ x.2.2.2, w ∉ P) {cs : List Conv} :
    ∀ {c i : VDict} {st : BState}, (Dict.keys c).Nodup → convLoop cls (xs.map Prod.fst ++ cs) c i = (st, .ok ()) →
    ∃ c1 i1, (∀ k, k ≠ "files" → Dict.get? c1 k = Dict.get? c k) ∧ (Dict.keys c1).Nodup ∧ AgreeOn P i1 i ∧ convLoop cls cs c1 i1 = (st, .ok ()) := by
  induction xs with
  | nil => intro c i st hn h; exact ⟨c, i, fun _ _ => rfl, hn, fun _ _ => rfl, h⟩
  | cons x xs ih =>
    intro c i st hn h
    obtain ⟨hr, hd⟩ := hx x List.mem_cons_self
    obtain ⟨c1, i1, a1, a2, a3, a4⟩ := skip_one (cs := xs.map Prod.fst ++ cs) hr (.inr hd) hn h
    obtain ⟨c2, i2, b1, b2, b3, b4⟩ := ih (fun y hy => hx y (List.mem_cons_of_mem _ hy)) a2 a4
    exact ⟨c2, i2, fun k hk => by rw [b1 k hk, a1 k hk], b2, fun p hp => by rw [b3 p hp, a3 p hp], b4⟩

theorem radio_loop (env : Env) (dsa : Bool) (l : List VDict) : ∀ (i : Nat) (r r' : VDict) (done : List VDict),
    (r = [] ∧ done = [] ∨ r = [("wireless", .list (done.map .dict))] ∧ done ≠ []) →
    fwdList (radioFwd env dsa) i r (l.map .dict) = .ok r' →
    ∃ bs : List VDict, List.Forall₂ (fun d b => radioBlock env dsa d = .ok b) l bs ∧
      r' = if done ++ bs = [] then [] else [("wireless", .list ((done ++ bs).map .dict))] := by
  induction l with
  | nil =>
    intro i r r' done hr h
    cases h
    refine ⟨[], .nil, ?_⟩
    rcases hr with ⟨rfl, rfl⟩ | ⟨rfl, hd⟩ <;> simp [*]
  | cons d ds ih =>
    intro i r r' done hr h
    rw [List.map_cons, fwdList] at h
    obtain ⟨r1, h1, h2⟩ := bind_ok_iff.1 h
    unfold radioFwd at h1
    simp only [asDict, bind, Except.bind] at h1
    cases hb : radioBlock env dsa d with
    | error e => rw [hb] at h1; cases h1
    | ok b =>
      rw [hb] at h1
      cases h1
      have hr' : appendTo r "wireless" [.dict b] = [("wireless", .list ((done ++ [b]).map .dict))] := by
        rcases hr with ⟨rfl, rfl⟩ | ⟨rfl, _⟩
        · rfl
        · rw [appendTo_one]; simp
      obtain ⟨bs, b1, b2⟩ := ih (i + 1) _ r' (done ++ [b]) (.inr ⟨hr', by simp⟩) h2
      exact ⟨b :: bs, .cons hb b1, by simpa using b2⟩

/-- what is stored for a list of sections -/
def stored (bs : List VDict) : Option Val := if bs = [] then none else some (.list (bs.map .dict))

theorem merge_stored {sh : Val → Bool} {i i1 : VDict} {ss bs : List VDict} (hi : Dict.get? i "wireless" = stored ss)
    (h : mergeConfig sh [".name"] i (if bs = [] then [] else [("wireless", .list (bs.map .dict))]) = .ok i1)
    (hN : ∀ b ∈ ss ++ bs, Named b) (hn : ((ss ++ bs).map nameKey).Nodup) : Dict.get? i1 "wireless" = stored (ss ++ bs) := by
  by_cases hb : bs = []
  · subst hb
    rw [if_pos rfl] at h
    cases h
    rw [List.append_nil]
    exact hi
  · rw [if_neg hb] at h
    obtain ⟨x, h1, h2⟩ := mergeKvs_get?_mem (by simp [Dict.keys]) h (k := "wireless") (v := .list (bs.map .dict)) (by simp [Dict.get?])
    rw [h2]
    unfold stored at hi ⊢
    rw [if_neg (by simp [hb])]
    by_cases hs : ss = []
    · subst hs
      rw [if_pos rfl] at hi
      rw [hi, mergeVal_none] at h1
      cases h1
      rfl
    · rw [if_neg hs] at hi
      rw [hi, mergeVal, merge_blocks sh [] ss bs hN hn] at h1
      cases h1
      rfl

theorem fwd_radios {env : Env} {dsa : Bool} {config v : VDict} {rs : List VDict} (hk : Dict.get? config "radios" = some (.list (rs.map .dict)))
    (h : fwd "radios" (radioFwd env dsa) config = .ok v) : ∃ bs : List VDict, List.Forall₂ (fun d b => radioBlock env dsa d = .ok b) rs bs ∧
      v = if bs = [] then [] else [("wireless", .list (bs.map .dict))] := by
  unfold fwd at h
  rw [hk] at h
  obtain ⟨bs, b1, b2⟩ := radio_loop env dsa rs 1 [] v [] (.inl ⟨rfl, rfl⟩) h
  exact ⟨bs, b1, by simpa using b2⟩

/-- the list under a key that holds objects only -/
theorem objectsAt_of {config : VDict} {k : String} {P : VDict → Prop} (h : Opt config k (IsLst (IsObj P))) :
    (Dict.get? config k = none ∧ objectsAt config k = []) ∨ Dict.get? config k = some (.list ((objectsAt config k).map .dict)) := by
  unfold objectsAt
  cases e : Dict.get? config k with
  | none => exact .inl ⟨rfl, rfl⟩
  | some v =>
    right
    obtain ⟨l, rfl, hl⟩ := h v e
    dsimp only
    congr 2
    clear e
    induction l with
    | nil => rfl
    | cons x xs ih =>
      obtain ⟨d, rfl, _⟩ := hl x List.mem_cons_self
      have := ih (fun y hy => hl y (List.mem_cons_of_mem _ hy))
      simpa using this

theorem checked_radio {l : List VDict} (h : (l.map Val.dict).forM checkRadio = .ok ()) : ∀ d ∈ l, radioRefused d = .ok false := by
  induction l with
  | nil => intro d hd; cases hd
  | cons x xs ih =>
    have h : (checkRadio (.dict x) >>= fun _ => (xs.map Val.dict).forM checkRadio) = .ok () := h
    obtain ⟨u, h1, h2⟩ := bind_ok_iff.1 h
    intro d hd
    rcases List.mem_cons.1 hd with rfl | hd
    · have h1 : (do
          let refused ← radioRefused d
          if refused then .error .jsonSchema else pure ()) = (Except.ok () : Except PyErr Unit) := h1
      obtain ⟨r, e1, e2⟩ := bind_ok_iff.1 h1
      cases r with
      | false => exact e1
      | true => cases e2
    · exact ih h2 d hd

theorem trackBridges_same {dsa : Bool} {i j : VDict} (h : Dict.get? i "network" = Dict.get? j "network") : trackBridges dsa i = trackBridges dsa j := by
  unfold trackBridges
  rw [h]

/-- the package after the converters of radios and Wi-Fi interfaces -/
theorem wireless_before (env : Env) (ip6 : Ip6) (sh : Val → Bool) (loads : Chars → Option Val) (dsa : Bool) (config : VDict) (hw : (Val.dict config).WF)
    (hnames : ∀ x ∈ wifiOnes (objectsAt config "interfaces"), (∃ s, wifiSectionName x.1 x.2 = .str s) ∧
      ∀ enc, Dict.get? x.2 "encryption" = some (.dict enc) → Dict.get? enc ".name" = none)
    (hd : ((objectsAt config "radios").map (fun d => (Dict.get? d "name").getD .none) ++
      (wifiOnes (objectsAt config "interfaces")).map fun x => wifiSectionName x.1 x.2).Nodup)
    {st : BState} (h : toIntermediate (openwrtClass env (owValidate ip6) sh loads dsa) ⟨config, none⟩ = (st, .ok ())) :
    ∃ (m : Dict String (List String)) (ss ws : List VDict) (c3 i3 : VDict), List.Forall₂ (RadioSays env dsa) (objectsAt config "radios") ss ∧
      List.Forall₂ (fun x b => WifiSays env m x.1 x.2 b) (wifiOnes (objectsAt config "interfaces")) ws ∧
      (∀ k, k ≠ "files" → Dict.get? c3 k = Dict.get? config k) ∧ (Dict.keys c3).Nodup ∧ Dict.get? i3 "wireless" = stored (ss ++ ws) ∧
      (wifiOnes (objectsAt config "interfaces") ≠ [] → trackBridges dsa i3 = .ok m) ∧
      convLoop (openwrtClass env (owValidate ip6) sh loads dsa) (uciVpnConv env :: peersConv :: ztConv env :: [defaultConv env knownKeys]) c3 i3 = (st, .ok ()) := by
  have hn := wf_nodup hw
  unfold toIntermediate at h
  split at h
  · cases h
  rename_i hval
  have hval : (validateRadios config >>= fun _ => owValidate ip6 config >>= fun _ => validateFilePaths config >>= fun _ => validatePvid config) = .ok () := hval
  obtain ⟨_, hr, hval⟩ := bind_ok_iff.1 hval
  obtain ⟨_, hv, _⟩ := bind_ok_iff.1 hval
  have hv : OwValid ip6 config := by
    unfold owValidate at hv
    split at hv
    · rename_i e; exact e
    · cases hv
  have facts := OwFacts.of_valid hv
  have hrs := objectsAt_of (holds_objects facts.radios)
  have his := objectsAt_of (holds_objects facts.iface)
  have hvalid : ∀ d ∈ objectsAt config "radios", (∃ f, ValidRadio d f) ∧ radioRefused d = .ok false := by
    rcases hrs with ⟨_, e⟩ | e
    · rw [e]; intro d hd; cases hd
    · intro d hd
      refine ⟨?_, ?_⟩
      · obtain ⟨d', f, e1, e2⟩ := radio_valid hv hw e (List.mem_map_of_mem hd)
        cases e1
        exact ⟨f, e2⟩
      · unfold validateRadios at hr
        rw [e] at hr
        exact checked_radio hr d hd
  generalize hrs' : objectsAt config "radios" = rs at *
  generalize his' : objectsAt config "interfaces" = is at *
  have hwfi : ∀ x ∈ wifiOnes is, (Val.dict x.2).WF := by
    intro x hx
    unfold wifiOnes at hx
    obtain ⟨d, hd, e⟩ := List.mem_filterMap.1 hx
    rcases his with ⟨_, e'⟩ | e'
    · rw [e'] at hd; cases hd
    · have hdw : (Val.dict d).WF := wf_each hw e' (List.mem_map_of_mem hd)
      split at e
      · rename_i w hw'
        cases e
        exact wf_dict hdw hw'
      · cases e
  -- before the radios
  have H : convLoop (openwrtClass env (owValidate ip6) sh loads dsa) (((readers env sh dsa).take 7).map Prod.fst ++
      (radiosConv env dsa :: wirelessConv env dsa :: uciVpnConv env :: peersConv :: ztConv env :: [defaultConv env knownKeys])) config [] = (st, .ok ()) := h
  obtain ⟨c1, i1, a1, a2, a3, a4⟩ := skip_many (P := ["wireless"]) _ (fun x hx => ⟨readers_reads x (List.mem_of_mem_take hx), by
    simp only [readers, List.take_succ_cons, List.take_zero, List.mem_cons, List.not_mem_nil, or_false] at hx
    rcases hx with rfl | rfl | rfl | rfl | rfl | rfl | rfl <;> simp⟩) hn H
  have hi1 : Dict.get? i1 "wireless" = stored [] := by rw [a3 "wireless" (by simp)]; rfl
  have hc1 : ∀ k, k ≠ "files" → Dict.get? c1 k = Dict.get? config k := a1
  -- the radios
  have R : ∃ ss c2 i2, List.Forall₂ (RadioSays env dsa) rs ss ∧ (∀ b ∈ ss, Named b) ∧
      ss.map (fun b => (Dict.get? b ".name").getD .none) = rs.map (fun d => (Dict.get? d "name").getD .none) ∧
      (∀ k, k ≠ "files" → Dict.get? c2 k = Dict.get? config k) ∧ (Dict.keys c2).Nodup ∧ Dict.get? i2 "wireless" = stored ss ∧
      convLoop (openwrtClass env (owValidate ip6) sh loads dsa) (wirelessConv env dsa :: uciVpnConv env :: peersConv :: ztConv env :: [defaultConv env knownKeys]) c2 i2 = (st, .ok ()) := by
    rcases hrs with ⟨e1, rfl⟩ | e1
    · rcases loop_step a4 with ⟨_, h4⟩ | ⟨hs, _⟩
      · exact ⟨[], c1, i1, .nil, by simp, rfl, hc1, a2, hi1, h4⟩
      · have hs : Dict.has c1 "radios" = true := hs
        rw [Dict.has_eq, hc1 _ (by decide), e1] at hs
        cases hs
    · rcases loop_step a4 with ⟨hs, _⟩ | ⟨_, v, i2, h5, h6, h7⟩
      · have hs : Dict.has c1 "radios" = false := hs
        rw [Dict.has_eq, hc1 _ (by decide), e1] at hs
        cases hs
      · obtain ⟨ss, f1, rfl⟩ := fwd_radios (by rw [hc1 _ (by decide)]; exact e1) (show fwd "radios" (radioFwd env dsa) c1 = .ok v from h5)
        have all : List.Forall₂ (fun d b => RadioSays env dsa d b ∧ Dict.get? b ".name" = Dict.get? d "name" ∧ Named b) rs ss := by
          have : List.Forall₂ (fun d b => d ∈ rs ∧ radioBlock env dsa d = .ok b) rs ss := (List.forall₂_and_left _ _).2 ⟨fun _ h => h, f1⟩
          refine this.imp ?_
          rintro d b ⟨hd, hb⟩
          obtain ⟨⟨f, hf⟩, hr⟩ := hvalid d hd
          exact radio_says hf hr hb
        have g : (∀ b ∈ ss, Named b) ∧ ss.map (fun b => (Dict.get? b ".name").getD .none) = rs.map (fun d => (Dict.get? d "name").getD .none) := by
          clear f1 h5 h6 h7 hd e1 hvalid hr hrs'
          induction all with
          | nil => exact ⟨by simp, rfl⟩
          | cons hx _ ih => exact ⟨by
              intro b hb
              rcases List.mem_cons.1 hb with rfl | hb
              · exact hx.2.2
              · exact ih.1 b hb, by rw [List.map_cons, List.map_cons, ih.2, hx.2.1]⟩
        refine ⟨ss, _, i2, all.imp fun _ _ h => h.1, g.1, g.2, hc1, a2, merge_stored hi1 h6 (by simpa using g.1) ?_, h7⟩
        have : (ss.map (fun b => (Dict.get? b ".name").getD .none)).Nodup := by rw [g.2]; exact (List.nodup_append.1 hd).1
        rw [List.nil_append, show ss.map nameKey = (ss.map (fun b => (Dict.get? b ".name").getD .none)).map LKey.val by rw [List.map_map]; rfl]
        exact List.pairwise_map.2 (this.imp fun hne e => hne (LKey.val.inj e))
  obtain ⟨ss, c2, i2, r1, r2, r3, r4, r5, r6, r7⟩ := R
  -- the Wi-Fi interfaces
  have Q : ∃ (m : Dict String (List String)) (ws : List VDict) (c3 i3 : VDict), List.Forall₂ (fun x b => WifiSays env m x.1 x.2 b) (wifiOnes is) ws ∧
      (∀ k, k ≠ "files" → Dict.get? c3 k = Dict.get? config k) ∧ (Dict.keys c3).Nodup ∧ Dict.get? i3 "wireless" = stored (ss ++ ws) ∧
      (wifiOnes is ≠ [] → trackBridges dsa i3 = .ok m) ∧
      convLoop (openwrtClass env (owValidate ip6) sh loads dsa) (uciVpnConv env :: peersConv :: ztConv env :: [defaultConv env knownKeys]) c3 i3 = (st, .ok ()) := by
    rcases his with ⟨e1, rfl⟩ | e1
    · rcases loop_step r7 with ⟨_, h4⟩ | ⟨hs, _⟩
      · exact ⟨[], [], c2, i2, .nil, r4, r5, by rw [List.append_nil]; exact r6, fun hne => absurd rfl hne, h4⟩
      · have hs : Dict.has c2 "interfaces" = true := hs
        rw [Dict.has_eq, r4 _ (by decide), e1] at hs
        cases hs
    · rcases loop_step r7 with ⟨hs, _⟩ | ⟨_, v, i3, h5, h6, h7⟩
      · have hs : Dict.has c2 "interfaces" = false := hs
        rw [Dict.has_eq, r4 _ (by decide), e1] at hs
        cases hs
      · obtain ⟨m, ws, f0, f1, rfl⟩ := wireless_sections env dsa c2 i2 v is (by rw [r4 _ (by decide)]; exact e1) h5
        have all : List.Forall₂ (fun x b => WifiSays env m x.1 x.2 b ∧ Dict.get? b ".name" = some (wifiSectionName x.1 x.2) ∧ Named b) (wifiOnes is) ws := by
          have : List.Forall₂ (fun x b => x ∈ wifiOnes is ∧ wifiBlock env m x.1 x.2 = .ok b) (wifiOnes is) ws := (List.forall₂_and_left _ _).2 ⟨fun _ h => h, f1⟩
          refine this.imp ?_
          rintro x b ⟨hx, hb⟩
          obtain ⟨g1, g2⟩ := wifi_says (hwfi x hx) hb
          obtain ⟨⟨s, hs⟩, hne⟩ := hnames x hx
          have g3 := g2 (.inr hne)
          exact ⟨g1, g3, s, by rw [g3, hs]⟩
        have g : (∀ b ∈ ws, Named b) ∧ ws.map (fun b => (Dict.get? b ".name").getD .none) = (wifiOnes is).map (fun x => wifiSectionName x.1 x.2) := by
          clear f1 h5 h6 h7 hd e1 hwfi hnames his'
          generalize wifiOnes is = xs at all ⊢
          induction all with
          | nil => exact ⟨by simp, rfl⟩
          | cons hx _ ih => exact ⟨by
              intro b hb
              rcases List.mem_cons.1 hb with rfl | hb
              · exact hx.2.2
              · exact ih.1 b hb, by rw [List.map_cons, List.map_cons, ih.2, hx.2.1]; rfl⟩
        refine ⟨m, ws, c2, i3, all.imp fun _ _ h => h.1, r4, r5, merge_stored r6 h6 ?_ ?_, fun _ => ?_, h7⟩
        · intro b hb
          rcases List.mem_append.1 hb with hb | hb
          · exact r2 b hb
          · exact g.1 b hb
        · have : ((ss ++ ws).map (fun b => (Dict.get? b ".name").getD .none)).Nodup := by rw [List.map_append, r3, g.2]; exact hd
          rw [show (ss ++ ws).map nameKey = ((ss ++ ws).map (fun b => (Dict.get? b ".name").getD .none)).map LKey.val by rw [List.map_map]; rfl]
          exact List.pairwise_map.2 (this.imp fun hne e => hne (LKey.val.inj e))
        · rw [← f0]
          refine trackBridges_same (mergeKvs_get?_not_mem h6 ?_)
          split <;> simp [Dict.keys]
  obtain ⟨m, ws, c3, i3, q1, q2, q3, q4, q5, q6⟩ := Q
  exact ⟨m, ss, ws, c3, i3, r1, q1, q2, q3, q4, q5, q6⟩

/-- **C99.** What the wireless package of a configuration without such a package of its own contains: a section for every radio and then one for every
interface with a `wireless` object, in their order, each with exactly the options it should have. -/
theorem C99_wireless (env : Env) (ip6 : Ip6) (sh : Val → Bool) (loads : Chars → Option Val) (dsa : Bool) (config : VDict) (hw : (Val.dict config).WF)
    (hpk : Dict.get? config "wireless" = none)
    (hnames : ∀ x ∈ wifiOnes (objectsAt config "interfaces"), (∃ s, wifiSectionName x.1 x.2 = .str s) ∧
      ∀ enc, Dict.get? x.2 "encryption" = some (.dict enc) → Dict.get? enc ".name" = none)
    (hd : ((objectsAt config "radios").map (fun d => (Dict.get? d "name").getD .none) ++
      (wifiOnes (objectsAt config "interfaces")).map fun x => wifiSectionName x.1 x.2).Nodup)
    {st : BState} (h : toIntermediate (openwrtClass env (owValidate ip6) sh loads dsa) ⟨config, none⟩ = (st, .ok ())) {j : VDict} (hj : st.inter = some j) :
    ∃ (m : Dict String (List String)) (ss ws : List VDict), List.Forall₂ (RadioSays env dsa) (objectsAt config "radios") ss ∧
      List.Forall₂ (fun x b => WifiSays env m x.1 x.2 b) (wifiOnes (objectsAt config "interfaces")) ws ∧
      Dict.get? j "wireless" = stored (ss ++ ws) ∧
      (Dict.get? config "wireguard_peers" = none → Dict.get? config "network" = none → wifiOnes (objectsAt config "interfaces") ≠ [] → trackBridges dsa j = .ok m) := by
  obtain ⟨m, ss, ws, c3, i3, r1, q1, q2, q3, q4, q5, q6⟩ := wireless_before env ip6 sh loads dsa config hw hnames hd h
  -- the rest
  have rest : ∀ P : List String, "openvpn" ∉ P → "zerotier" ∉ P → (Dict.get? config "wireguard_peers" = none ∨ "network" ∉ P) →
      (∀ p ∈ P, Dict.get? config p = none ∧ p ≠ "files") → AgreeOn P j i3 := by
    intro P p1 p2 p3 p4
    obtain ⟨c4, i4, b1, b2, b3, b4⟩ := skip_one (P := P) reads_vpn (.inr (by simpa using p1)) q3 q6
    obtain ⟨c5, i5, d1, d2, d3, d4⟩ := skip_one (P := P) (readers_reads (env := env) (sh := sh) (dsa := dsa) (peersConv, ["wireguard_peers"], [], ["network"]) (by simp [readers])) (by
      rcases p3 with p3 | p3
      · left
        show Dict.has c4 "wireguard_peers" = false
        rw [Dict.has_eq, b1 _ (by decide), q2 _ (by decide), p3]
        rfl
      · right; simpa using p3) b2 b4
    obtain ⟨c6, i6, t1, t2, t3, t4⟩ := skip_one (P := P) reads_zt (.inr (by simpa using p2)) d2 d4
    intro p hp
    obtain ⟨hp1, hp2⟩ := p4 p hp
    rcases loop_step t4 with ⟨s, _⟩ | ⟨_, v, i7, e1, e2, h1⟩
    · cases s
    · rw [convLoop] at h1
      cases h1
      cases hj
      have := (default_at t2 e1).2 p
      have hv0 := this.2 (by rw [t1 _ hp2, d1 _ hp2, b1 _ hp2, q2 _ hp2, hp1])
      rw [mergeKvs_get?_not_mem e2 ((Dict.get?_eq_none_iff _ _).1 hv0), t3 p hp, d3 p hp, b3 p hp]
  refine ⟨m, ss, ws, r1, q1, ?_, fun hp hnet hne => ?_⟩
  · rw [rest ["wireless"] (by decide) (by decide) (.inr (by decide)) (by simp [hpk]) "wireless" (by simp), q4]
  · rw [trackBridges_same (rest ["network"] (by decide) (by decide) (.inl hp) (by simp [hnet]) "network" (by simp))]
    exact q5 hne

end NJ
