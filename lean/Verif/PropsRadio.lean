import Verif.Radio
import Verif.PropsSwitch

/-!
# C46, C47, C56: radios
-/

namespace NJ

/-! ## Which radios the schema accepts -/

/-- the channels of the bands (schema.py l.945-975 with channels.py) -/
def Channel2 (c : Int) : Prop := 0 ≤ c ∧ c ≤ 13
def Channel5 (c : Int) : Prop := c = 0 ∨ (36 ≤ c ∧ c ≤ 64 ∧ c % 4 = 0) ∨ (100 ≤ c ∧ c ≤ 144 ∧ c % 4 = 0) ∨ (149 ≤ c ∧ c ≤ 177 ∧ c % 4 = 1)
def Channel6 (c : Int) : Prop := (37 ≤ c ∧ c ≤ 65 ∧ c % 4 = 1) ∨ (101 ≤ c ∧ c ≤ 145 ∧ c % 4 = 1)
def Channel60 (c : Int) : Prop := (1 ≤ c ∧ c ≤ 6) ∨ (9 ≤ c ∧ c ≤ 13) ∨ (17 ≤ c ∧ c ≤ 20) ∨ (25 ≤ c ∧ c ≤ 27)

/-- a key is missing or has one of the given texts -/
def OptIn (d : VDict) (k : String) (allowed : List String) : Prop := Dict.get? d k = none ∨ ∃ s ∈ allowed, Dict.get? d k = some (.str s)

/-- the required properties of a radio -/
structure RadioIs (d : VDict) (protocols : List String) (channel : Int → Prop) (widths : List Int) : Prop where
  nodup : (Dict.keys d).Nodup
  name : ∃ n, Dict.get? d "name" = some (.str n)
  protocol : ∃ p ∈ protocols, Dict.get? d "protocol" = some (.str p)
  channel : ∃ c, channel c ∧ Dict.get? d "channel" = some (.int c)
  width : ∃ w ∈ widths, Dict.get? d "channel_width" = some (.int w)
  country : Dict.get? d "country" = none ∨ ∃ s, Dict.get? d "country" = some (.str s)

/-- The alternatives of the schema (schema.py l.984-1064, openwrt/schema.py l.738-859) and the band each is for. -/
inductive ValidRadio (d : VDict) : String → Prop
  | bg (h : RadioIs d ["802.11b", "802.11g"] Channel2 [20]) : ValidRadio d "2g"
  | a (h : RadioIs d ["802.11a"] Channel5 [20]) : ValidRadio d "5g"
  | gn (h : RadioIs d ["802.11n"] Channel2 [20, 40]) (h1 : OptIn d "hwmode" ["11g"]) (h2 : OptIn d "band" ["2g"]) : ValidRadio d "2g"
  | an (h : RadioIs d ["802.11n"] Channel5 [20, 40]) (h1 : OptIn d "hwmode" ["11a"]) (h2 : OptIn d "band" ["5g"]) : ValidRadio d "5g"
  | ac (h : RadioIs d ["802.11ac"] Channel5 [20, 40, 80, 160]) (h1 : OptIn d "hwmode" ["11a"]) (h2 : OptIn d "band" ["5g"]) : ValidRadio d "5g"
  | ax2 (h : RadioIs d ["802.11ax"] Channel2 [20, 40, 80, 160]) (h1 : OptIn d "hwmode" ["11g"]) (h2 : OptIn d "band" ["2g"]) : ValidRadio d "2g"
  | ax5 (h : RadioIs d ["802.11ax"] Channel5 [20, 40, 80, 160]) (h1 : OptIn d "hwmode" ["11a"]) (h2 : OptIn d "band" ["5g"]) : ValidRadio d "5g"
  | ax6 (h : RadioIs d ["802.11ax"] Channel6 [20, 40, 80, 160]) (h2 : OptIn d "band" ["6g"]) : ValidRadio d "6g"
  | ad (h : RadioIs d ["802.11ad"] Channel60 [20, 40, 80, 160]) (h2 : OptIn d "band" ["60g"]) : ValidRadio d "60g"

/-- `band` and `hwmode`, where the schema does not restrict them (b, g, a; `hwmode` for 6 and 60 GHz), agree with the band: `band` is
missing or the band, `hwmode` is missing or of the band -/
def Agrees (d : VDict) (f : String) : Prop :=
  OptIn d "band" [f] ∧ OptIn d "hwmode" (if f = "2g" then ["11b", "11g"] else if f = "5g" then ["11a"] else [])

/-! ## The section of a radio -/

theorem popOr_eq (d : VDict) (k : String) (v : Val) : popOr d k v = ((Dict.get? d k).getD v, Dict.erase d k) := rfl

theorem radioBand_snd (r : VDict) : (radioBand r).2 = Dict.erase (Dict.erase r "hwmode") "band" := rfl

theorem radioBand_fst (r r' : VDict) (h : ∀ k ∈ ["hwmode", "band", "channel", "protocol"], Dict.get? r k = Dict.get? r' k) :
    (radioBand r).1 = (radioBand r').1 := by
  unfold radioBand
  have h1 := h "hwmode" (by simp)
  have h2 := h "band" (by simp)
  have h3 := h "channel" (by simp)
  have h4 := h "protocol" (by simp)
  simp only [popOr_eq, Dict.get?_erase', h1, h2, h3, h4, String.reduceEq, if_false]

theorem hwmodeFromProtocol_congr (r r' : VDict) (h3 : Dict.get? r "channel" = Dict.get? r' "channel")
    (h4 : Dict.get? r "protocol" = Dict.get? r' "protocol") : hwmodeFromProtocol r = hwmodeFromProtocol r' := by
  unfold hwmodeFromProtocol getKey
  rw [h3, h4]

theorem radioHwmode_congr (r r' : VDict) (h : ∀ k ∈ ["hwmode", "band", "channel", "protocol"], Dict.get? r k = Dict.get? r' k) (v : Val)
    (hr : ∃ x, radioHwmode r = .ok (v, x)) : radioHwmode r' = .ok (v, Dict.erase (Dict.erase r' "hwmode") "band") := by
  obtain ⟨x, hr⟩ := hr
  have h1 := h "hwmode" (by simp)
  have h2 := h "band" (by simp)
  have h3 := h "channel" (by simp)
  have h4 := h "protocol" (by simp)
  unfold radioHwmode at hr ⊢
  simp only [popOr_eq, Dict.get?_erase', h1, h2, String.reduceEq, if_false] at hr ⊢
  have h5 := hwmodeFromProtocol_congr (Dict.erase (Dict.erase r "hwmode") "band") (Dict.erase (Dict.erase r' "hwmode") "band")
    (by simpa [Dict.get?_erase'] using h3) (by simpa [Dict.get?_erase'] using h4)
  have h6 : getKey (Dict.erase (Dict.erase r "hwmode") "band") "protocol" = getKey (Dict.erase (Dict.erase r' "hwmode") "band") "protocol" := by
    unfold getKey
    simp [Dict.get?_erase', h4]
  rw [h5, h6] at hr
  split
  · next c => rw [if_pos c] at hr; cases hr; rfl
  · next c =>
    rw [if_neg c] at hr
    split
    · next c2 =>
      rw [if_pos c2] at hr
      obtain ⟨p, e1, e2⟩ := bind_ok_iff.1 hr
      rw [e1]
      cases e2
      rfl
    · next c2 =>
      rw [if_neg c2] at hr
      split
      · next c3 => rw [if_pos c3] at hr; cases hr; rfl
      · next c3 =>
        rw [if_neg c3] at hr
        obtain ⟨p, e1, e2⟩ := bind_ok_iff.1 hr
        rw [e1]
        cases e2
        rfl

/-- the value of `htmode` of a mac80211 radio -/
def htmodeOf (protocol : String) (w : Int) : String :=
  if protocol = "802.11n" then String.ofList ("HT".toList ++ showInt w)
  else if protocol = "802.11ac" then String.ofList ("VHT".toList ++ showInt w)
  else if protocol = "802.11ax" then String.ofList ("HE".toList ++ showInt w)
  else "NONE"

def upperVal (env : Env) : Val → Val
  | .str s => txt (env.upper s.toList)
  | v => v

/-- the section of a radio, item by item; `bv` is the value for the band (or for `hwmode` in the old syntax) -/
def radioItem (env : Env) (dsa : Bool) (d : VDict) (p : String) (c w : Int) (bv : Val) (k : String) : Option Val :=
  let mac := (Dict.get? d "driver").getD (.str "mac80211") = .str "mac80211"
  if k = ".type" then some (.str "wifi-device")
  else if k = ".name" then Dict.get? d "name"
  else if k = "name" ∨ k = "tx_power" ∨ k = "driver" ∨ k = "protocol" then none
  else if k = "txpower" then (Dict.get? d "tx_power").or (Dict.get? d "txpower")
  else if k = "type" then some ((Dict.get? d "driver").getD (.str "mac80211"))
  else if k = "band" then (if dsa then some bv else none)
  else if k = "hwmode" then (if dsa then none else some bv)
  else if k = "channel" then some (if c = 0 then .str "auto" else .int c)
  else if k = "channel_width" then (if mac then none else Dict.get? d k)
  else if k = "htmode" then (if mac then (Dict.get? d k).or (some (.str (htmodeOf p w))) else Dict.get? d k)
  else if k = "country" then (Dict.get? d k).map (upperVal env)
  else Dict.get? d k

theorem renameTxPower_nodup {r : VDict} (h : (Dict.keys r).Nodup) : (Dict.keys (renameTxPower r)).Nodup := by
  unfold renameTxPower
  split
  · exact Dict.nodup_set (Dict.nodup_erase h _) _ _
  · exact h

theorem renameTxPower_get? (r : VDict) (k : String) : Dict.get? (renameTxPower r) k =
    if k = "tx_power" then none else if k = "txpower" then (Dict.get? r "tx_power").or (Dict.get? r "txpower") else Dict.get? r k := by
  unfold renameTxPower
  cases e : Dict.get? r "tx_power" with
  | none =>
    simp only [Option.none_or]
    by_cases h1 : k = "tx_power"
    · subst h1; rw [if_pos rfl, e]
    · rw [if_neg h1]
      by_cases h2 : k = "txpower"
      · subst h2; simp
      · rw [if_neg h2]
  | some p =>
    simp only [Dict.get?_set', Dict.get?_erase', Option.some_or]
    grind

theorem radio_block (env : Env) (dsa : Bool) (d : VDict) (n p : String) (c w : Int) (bv : Val) (hn : (Dict.keys d).Nodup)
    (hname : Dict.get? d "name" = some (.str n)) (hp : Dict.get? d "protocol" = some (.str p)) (hc : Dict.get? d "channel" = some (.int c))
    (hw : Dict.get? d "channel_width" = some (.int w)) (hco : Dict.get? d "country" = none ∨ ∃ s, Dict.get? d "country" = some (.str s))
    (hbv : if dsa then (radioBand d).1 = bv else ∃ x, radioHwmode d = .ok (bv, x)) :
    ∃ b, radioBlock env dsa d = .ok b ∧ (Dict.keys b).Nodup ∧ ∀ k, Dict.get? b k = radioItem env dsa d p c w bv k := by
  unfold radioBlock
  rw [popKey_ok hname]
  simp only [bind, Except.bind, popOr_eq]
  generalize hr1 : Dict.update (Dict.erase d "name") [(".type", Val.str "wifi-device"), (".name", Val.str n)] = r1
  have n1 : (Dict.keys r1).Nodup := by rw [← hr1]; exact Dict.nodup_update (Dict.nodup_erase hn _) _
  have g1 : ∀ k, Dict.get? r1 k = if k = ".name" then some (.str n) else if k = ".type" then some (.str "wifi-device")
      else if k = "name" then none else Dict.get? d k := by
    intro k; rw [← hr1]; simp only [Dict.update_cons, Dict.update_nil, Dict.get?_set', Dict.get?_erase']
  generalize hr2 : renameTxPower r1 = r2
  have n2 : (Dict.keys r2).Nodup := by rw [← hr2]; exact renameTxPower_nodup n1
  have g2 : ∀ k, Dict.get? r2 k = if k = "tx_power" then none else if k = "txpower" then (Dict.get? d "tx_power").or (Dict.get? d "txpower") else
      if k = ".name" then some (.str n) else if k = ".type" then some (.str "wifi-device")
      else if k = "name" then none else Dict.get? d k := by
    intro k; rw [← hr2, renameTxPower_get?, g1, g1, g1]; simp
  have gd : Dict.get? r2 "driver" = Dict.get? d "driver" := by rw [g2]; simp
  rw [gd]
  generalize hdrv : (Dict.get? d "driver").getD (Val.str "mac80211") = drv
  generalize hr3 : Dict.set (Dict.erase r2 "driver") "type" drv = r3
  have n3 : (Dict.keys r3).Nodup := by rw [← hr3]; exact Dict.nodup_set (Dict.nodup_erase n2 _) _ _
  have g3 : ∀ k, Dict.get? r3 k = if k = "type" then some drv else if k = "driver" then none else if k = "tx_power" then none
      else if k = "txpower" then (Dict.get? d "tx_power").or (Dict.get? d "txpower") else
      if k = ".name" then some (.str n) else if k = ".type" then some (.str "wifi-device")
      else if k = "name" then none else Dict.get? d k := by
    intro k; rw [← hr3]; simp only [Dict.get?_set', Dict.get?_erase', g2]
  have hsame : ∀ k ∈ ["hwmode", "band", "channel", "protocol"], Dict.get? d k = Dict.get? r3 k := by
    intro k hk
    simp only [List.mem_cons, List.not_mem_nil, or_false] at hk
    rcases hk with rfl | rfl | rfl | rfl <;> simp [g3]
  obtain ⟨r4, e4, n4, g4⟩ : ∃ r4, setBand dsa r3 = .ok r4 ∧ (Dict.keys r4).Nodup ∧
      ∀ k, Dict.get? r4 k = if k = "band" then (if dsa then some bv else none) else if k = "hwmode" then (if dsa then none else some bv)
        else Dict.get? r3 k := by
    unfold setBand
    cases dsa with
    | true =>
      simp only [if_true] at hbv ⊢
      rw [radioBand_fst d r3 hsame] at hbv
      refine ⟨_, rfl, ?_, fun k => ?_⟩
      · rw [radioBand_snd]; exact Dict.nodup_set (Dict.nodup_erase (Dict.nodup_erase n3 _) _) _ _
      · rw [Dict.get?_set', hbv, radioBand_snd, Dict.get?_erase', Dict.get?_erase']
        grind
    | false =>
      simp only [Bool.false_eq_true, if_false] at hbv ⊢
      have := radioHwmode_congr d r3 hsame bv hbv
      rw [this]
      refine ⟨_, rfl, Dict.nodup_set (Dict.nodup_erase (Dict.nodup_erase n3 _) _) _ _, fun k => ?_⟩
      rw [Dict.get?_set', Dict.get?_erase', Dict.get?_erase']
      grind
  rw [e4]
  simp only
  obtain ⟨r5, e5, n5, g5⟩ : ∃ r5, autoChannel r4 = .ok r5 ∧ (Dict.keys r5).Nodup ∧
      ∀ k, Dict.get? r5 k = if k = "channel" then some (if c = 0 then .str "auto" else .int c) else Dict.get? r4 k := by
    unfold autoChannel
    have hc4 : Dict.get? r4 "channel" = some (.int c) := by rw [g4, g3]; simpa using hc
    rw [getKey_ok hc4]
    have hpe : Val.pyEq (.int c) (.int 0) = decide (c = 0) := by
      rw [Val.pyEq]
      by_cases e : c = 0 <;> simp [e]
    simp only [bind, Except.bind, hpe]
    by_cases e : c = 0
    · refine ⟨_, rfl, ?_, fun k => ?_⟩
      · simp only [e, decide_true, if_true]; exact Dict.nodup_set n4 _ _
      · simp only [e, decide_true, if_true]; rw [Dict.get?_set']
    · refine ⟨_, rfl, ?_, fun k => ?_⟩
      · simp only [e, decide_false, Bool.false_eq_true, if_false]; exact n4
      · simp only [e, decide_false, Bool.false_eq_true, if_false]
        by_cases ek : k = "channel"
        · subst ek; simp [hc4]
        · rw [if_neg ek]
  rw [e5]
  simp only
  obtain ⟨r6, e6, n6, g6⟩ : ∃ r6, radioWidth env r5 = .ok r6 ∧ (Dict.keys r6).Nodup ∧
      ∀ k, Dict.get? r6 k = if k = "protocol" then none else if k = "channel_width" then (if drv = .str "mac80211" then none else Dict.get? d k)
        else if k = "htmode" then (if drv = .str "mac80211" then (Dict.get? d k).or (some (.str (htmodeOf p w))) else Dict.get? d k)
        else Dict.get? r5 k := by
    unfold radioWidth
    have t5 : Dict.get? r5 "type" = some drv := by rw [g5, g4, g3]; simp
    have p5 : Dict.get? r5 "protocol" = some (.str p) := by rw [g5, g4, g3]; simpa using hp
    have w5 : Dict.get? r5 "channel_width" = some (.int w) := by rw [g5, g4, g3]; simpa using hw
    have h5 : Dict.get? r5 "htmode" = Dict.get? d "htmode" := by rw [g5, g4, g3]; simp
    rw [getKey_ok t5]
    simp only [bind, Except.bind]
    by_cases e : drv = .str "mac80211"
    · rw [if_pos e]
      unfold setHtmode
      rw [popKey_ok p5]
      simp only [bind, Except.bind]
      rw [popKey_ok (v := .int w) (by rw [Dict.get?_erase', if_neg (by decide)]; exact w5)]
      simp only [Dict.get?_erase', String.reduceEq, if_false, h5]
      have hht : (if Val.str p = .str "802.11n" then txt ("HT".toList ++ (pyStr env.reprC (.int w)).toList)
          else if Val.str p = .str "802.11ac" then txt ("VHT".toList ++ (pyStr env.reprC (.int w)).toList)
          else if Val.str p = .str "802.11ax" then txt ("HE".toList ++ (pyStr env.reprC (.int w)).toList) else Val.str "NONE") = .str (htmodeOf p w) := by
        unfold htmodeOf txt
        simp only [Val.str.injEq, pyStr, String.toList_ofList]
        repeat' split
        all_goals rfl
      cases eh : Dict.get? d "htmode" with
      | some h =>
        refine ⟨_, rfl, Dict.nodup_set (Dict.nodup_erase (Dict.nodup_erase n5 _) _) _ _, fun k => ?_⟩
        simp only [Dict.get?_set', Dict.get?_erase']
        grind
      | none =>
        refine ⟨_, rfl, Dict.nodup_set (Dict.nodup_erase (Dict.nodup_erase n5 _) _) _ _, fun k => ?_⟩
        simp only [hht, Dict.get?_set', Dict.get?_erase']
        grind
    · rw [if_neg e, popKey_ok p5]
      refine ⟨_, rfl, Dict.nodup_erase n5 _, fun k => ?_⟩
      rw [Dict.get?_erase']
      by_cases k1 : k = "protocol"
      · simp [k1]
      · by_cases k2 : k = "channel_width"
        · subst k2; simp [e, w5, hw]
        · by_cases k3 : k = "htmode"
          · subst k3; simp [e, h5]
          · simp [k1, k2, k3]
  rw [e6]
  simp only
  have c6 : Dict.get? r6 "country" = Dict.get? d "country" := by rw [g6, g5, g4, g3]; simp
  have fin : ∀ r7 : VDict, (∀ k, Dict.get? r7 k = if k = "country" then (Dict.get? d k).map (upperVal env) else Dict.get? r6 k) → ∀ k, Dict.get? r7 k = radioItem env dsa d p c w bv k := by
    intro r7 h7 k
    rw [h7, g6, g5, g4, g3]
    unfold radioItem
    rw [hdrv, hname]
    clear g1 g2 g3 g4 g5 g6 h7 hsame hco hbv
    grind (splits := 40)
  unfold upperCountry
  rw [c6]
  rcases hco with e | ⟨s, e⟩
  · rw [e]
    refine ⟨_, rfl, sortedDict_nodup n6, fun k => ?_⟩
    rw [get?_sortedDict n6]
    refine fin r6 (fun k => ?_) k
    by_cases ek : k = "country"
    · subst ek; simp [c6, e]
    · rw [if_neg ek]
  · rw [e]
    simp only [asText]
    refine ⟨_, rfl, sortedDict_nodup (Dict.nodup_set n6 _ _), fun k => ?_⟩
    rw [get?_sortedDict (Dict.nodup_set n6 _ _)]
    refine fin _ (fun k => ?_) k
    rw [Dict.get?_set']
    by_cases ek : k = "country"
    · subst ek; simp [e, upperVal]
    · rw [if_neg ek, if_neg ek]

/-! ## C46: the band -/

theorem inInts_int (c : Int) (l : List Int) : inInts (.int c) l = decide (c ∈ l) := by
  unfold inInts
  induction l with
  | nil => rfl
  | cons x xs ih =>
    rw [List.any_cons, ih]
    have hpe : Val.pyEq (.int c) (.int x) = decide (c = x) := by
      rw [Val.pyEq]
      by_cases e : c = x <;> simp [e]
    rw [hpe]
    simp

theorem mem_channels2 (c : Int) : c ∈ channels2ghz ↔ Channel2 c := by
  have : channels2ghz = [0, 1, 2, 3, 4, 5, 6, 7, 8, 9, 10, 11, 12, 13] := by decide
  rw [this]
  simp only [List.mem_cons, List.not_mem_nil, or_false, Channel2]
  omega

theorem mem_channels5 (c : Int) : c ∈ channels5ghz ↔ Channel5 c := by
  have : channels5ghz = [0, 36, 40, 44, 48, 52, 56, 60, 64, 100, 104, 108, 112, 116, 120, 124, 128, 132, 136, 140, 144, 149, 153, 157, 161, 165, 169, 173, 177] := by decide
  rw [this]
  simp only [List.mem_cons, List.not_mem_nil, or_false, Channel5]
  omega

theorem mem_channels6 (c : Int) : c ∈ channels6ghz ↔ Channel6 c := by
  have : channels6ghz = [37, 41, 45, 49, 53, 57, 61, 65, 101, 105, 109, 113, 117, 121, 125, 129, 133, 137, 141, 145] := by decide
  rw [this]
  simp only [List.mem_cons, List.not_mem_nil, or_false, Channel6]
  omega

theorem bandValue_band {hwmode channel protocol : Val} {s : String} (h : s ≠ "") : bandValue hwmode (.str s) channel protocol = .str s := by
  unfold bandValue
  rw [if_pos (by simpa [Val.truthy] using h)]

theorem bandValue_hwmode {channel protocol : Val} {s : String} (h : s ≠ "") :
    bandValue (.str s) .none channel protocol = bandFromHwmode (.str s) := by
  unfold bandValue
  rw [if_neg (by simp [Val.truthy]), if_pos (by simpa [Val.truthy] using h)]

/-- the band chosen when `band` and `hwmode` agree with it -/
theorem bandValue_agrees {d : VDict} {f p : String} {c : Int} (hf : f ∈ ["2g", "5g", "6g", "60g"]) (ha : Agrees d f)
    (hp : Dict.get? d "protocol" = some (.str p)) (hc : Dict.get? d "channel" = some (.int c))
    (hb : Dict.get? d "band" = none → Dict.get? d "hwmode" = none → bandValue .none .none (.int c) (.str p) = .str f) :
    (radioBand d).1 = .str f := by
  unfold radioBand
  simp only [popOr_eq, Dict.get?_erase', String.reduceEq, if_false, hp, hc, Option.getD_some]
  obtain ⟨h1, h2⟩ := ha
  rcases h1 with h1 | ⟨s, hs, h1⟩
  · rcases h2 with h2 | ⟨s, hs, h2⟩
    · rw [h1, h2]; exact hb h1 h2
    · rw [h1, h2]
      simp only [Option.getD_some, Option.getD_none]
      simp only [List.mem_cons, List.not_mem_nil, or_false] at hf
      rcases hf with rfl | rfl | rfl | rfl
      · simp only [if_true, List.mem_cons, List.not_mem_nil, or_false] at hs
        rcases hs with rfl | rfl <;> rw [bandValue_hwmode (by decide)] <;> rfl
      · simp at hs
        subst hs
        rw [bandValue_hwmode (by decide)]; rfl
      · simp at hs
      · simp at hs
  · simp only [List.mem_cons, List.not_mem_nil, or_false] at hs
    subst hs
    rw [h1]
    simp only [Option.getD_some]
    refine bandValue_band ?_
    rintro rfl
    simp at hf

/-- what the check of `validate()` says about a radio of 802.11n or 802.11ax -/
theorem refused_false {d : VDict} {p : String} {c : Int} (hp : Dict.get? d "protocol" = some (.str p)) (hc : Dict.get? d "channel" = some (.int c))
    (hr : radioRefused d = .ok false) (hpp : p = "802.11n" ∨ p = "802.11ax") (h1 : Dict.get? d "band" = none) (h2 : Dict.get? d "hwmode" = none) : c ≠ 0 := by
  rintro rfl
  unfold radioRefused at hr
  rw [getKey_ok hp] at hr
  simp only [bind, Except.bind, h1, h2, hc, Option.getD_none, Option.getD_some, pure, Except.pure, Except.ok.injEq] at hr
  rcases hpp with rfl | rfl <;> revert hr <;> decide

theorem valid_band {d : VDict} {f : String} (hv : ValidRadio d f) (hr : radioRefused d = .ok false) (ha : Agrees d f) : (radioBand d).1 = .str f := by
  have n2 : ∀ c : Int, Channel5 c → c ≠ 0 → ¬ Channel2 c := by intro c; unfold Channel5 Channel2; omega
  have n6 : ∀ c : Int, Channel6 c → ¬ Channel2 c ∧ ¬ Channel5 c := by intro c; unfold Channel5 Channel2 Channel6; omega
  cases hv with
  | bg h =>
    obtain ⟨p, hp, hp'⟩ := h.protocol
    obtain ⟨c, hc, hc'⟩ := h.channel
    simp only [List.mem_cons, List.not_mem_nil, or_false] at hp
    refine bandValue_agrees (by simp) ha hp' hc' (fun _ _ => ?_)
    rcases hp with rfl | rfl <;> simp [bandValue, Val.truthy, inTexts]
  | a h =>
    obtain ⟨p, hp, hp'⟩ := h.protocol
    obtain ⟨c, hc, hc'⟩ := h.channel
    simp only [List.mem_cons, List.not_mem_nil, or_false] at hp
    subst hp
    exact bandValue_agrees (by simp) ha hp' hc' (fun _ _ => by simp [bandValue, Val.truthy, inTexts])
  | gn h h1 h2 =>
    obtain ⟨p, hp, hp'⟩ := h.protocol
    obtain ⟨c, hc, hc'⟩ := h.channel
    simp only [List.mem_cons, List.not_mem_nil, or_false] at hp
    subst hp
    refine bandValue_agrees (by simp) ha hp' hc' (fun _ _ => ?_)
    simp [bandValue, Val.truthy, inTexts, inInts_int, mem_channels2, hc]
  | an h h1 h2 =>
    obtain ⟨p, hp, hp'⟩ := h.protocol
    obtain ⟨c, hc, hc'⟩ := h.channel
    simp only [List.mem_cons, List.not_mem_nil, or_false] at hp
    subst hp
    refine bandValue_agrees (by simp) ha hp' hc' (fun e1 e2 => ?_)
    have := refused_false hp' hc' hr (by simp) e1 e2
    simp [bandValue, Val.truthy, inTexts, inInts_int, mem_channels2, mem_channels5, hc, n2 c hc this]
  | ac h h1 h2 =>
    obtain ⟨p, hp, hp'⟩ := h.protocol
    obtain ⟨c, hc, hc'⟩ := h.channel
    simp only [List.mem_cons, List.not_mem_nil, or_false] at hp
    subst hp
    exact bandValue_agrees (by simp) ha hp' hc' (fun _ _ => by simp [bandValue, Val.truthy, inTexts])
  | ax2 h h1 h2 =>
    obtain ⟨p, hp, hp'⟩ := h.protocol
    obtain ⟨c, hc, hc'⟩ := h.channel
    simp only [List.mem_cons, List.not_mem_nil, or_false] at hp
    subst hp
    refine bandValue_agrees (by simp) ha hp' hc' (fun _ _ => ?_)
    simp [bandValue, Val.truthy, inTexts, inInts_int, mem_channels2, hc]
  | ax5 h h1 h2 =>
    obtain ⟨p, hp, hp'⟩ := h.protocol
    obtain ⟨c, hc, hc'⟩ := h.channel
    simp only [List.mem_cons, List.not_mem_nil, or_false] at hp
    subst hp
    refine bandValue_agrees (by simp) ha hp' hc' (fun e1 e2 => ?_)
    have := refused_false hp' hc' hr (by simp) e1 e2
    simp [bandValue, Val.truthy, inTexts, inInts_int, mem_channels2, mem_channels5, hc, n2 c hc this]
  | ax6 h h2 =>
    obtain ⟨p, hp, hp'⟩ := h.protocol
    obtain ⟨c, hc, hc'⟩ := h.channel
    simp only [List.mem_cons, List.not_mem_nil, or_false] at hp
    subst hp
    refine bandValue_agrees (by simp) ha hp' hc' (fun e1 e2 => ?_)
    simp [bandValue, Val.truthy, inTexts, inInts_int, mem_channels2, mem_channels5, mem_channels6, hc, n6 c hc]
  | ad h h2 =>
    obtain ⟨p, hp, hp'⟩ := h.protocol
    obtain ⟨c, hc, hc'⟩ := h.channel
    simp only [List.mem_cons, List.not_mem_nil, or_false] at hp
    subst hp
    exact bandValue_agrees (by simp) ha hp' hc' (fun _ _ => by simp [bandValue, Val.truthy, inTexts])

/-- the properties all valid radios have -/
theorem valid_is {d : VDict} {f : String} (hv : ValidRadio d f) :
    f ∈ ["2g", "5g", "6g", "60g"] ∧ ∃ (ps : List String) (ch : Int → Prop), RadioIs d ps ch [20, 40, 80, 160] := by
  have mono : ∀ {ps ch ws}, RadioIs d ps ch ws → (∀ w ∈ ws, w ∈ ([20, 40, 80, 160] : List Int)) → RadioIs d ps ch [20, 40, 80, 160] := by
    intro ps ch ws h hw
    obtain ⟨w, h1, h2⟩ := h.width
    exact ⟨h.nodup, h.name, h.protocol, h.channel, ⟨w, hw w h1, h2⟩, h.country⟩
  cases hv with
  | bg h => exact ⟨by simp, _, _, mono h (by decide)⟩
  | a h => exact ⟨by simp, _, _, mono h (by decide)⟩
  | gn h => exact ⟨by simp, _, _, mono h (by decide)⟩
  | an h => exact ⟨by simp, _, _, mono h (by decide)⟩
  | ac h => exact ⟨by simp, _, _, mono h (by decide)⟩
  | ax2 h => exact ⟨by simp, _, _, mono h (by decide)⟩
  | ax5 h => exact ⟨by simp, _, _, mono h (by decide)⟩
  | ax6 h => exact ⟨by simp, _, _, mono h (by decide)⟩
  | ad h => exact ⟨by simp, _, _, mono h (by decide)⟩

/-- what all valid radios become: no error, and the section described by `radioItem` -/
theorem valid_block (env : Env) (dsa : Bool) {d : VDict} {f : String} (hv : ValidRadio d f) (bv : Val)
    (hbv : if dsa then (radioBand d).1 = bv else ∃ x, radioHwmode d = .ok (bv, x)) :
    ∃ (p : String) (c w : Int) (b : VDict), Dict.get? d "protocol" = some (.str p) ∧ Dict.get? d "channel" = some (.int c) ∧
      Dict.get? d "channel_width" = some (.int w) ∧ radioBlock env dsa d = .ok b ∧ (Dict.keys b).Nodup ∧
      ∀ k, Dict.get? b k = radioItem env dsa d p c w bv k := by
  obtain ⟨_, ps, ch, h⟩ := valid_is hv
  obtain ⟨n, hn⟩ := h.name
  obtain ⟨p, _, hp⟩ := h.protocol
  obtain ⟨c, _, hc⟩ := h.channel
  obtain ⟨w, _, hw⟩ := h.width
  obtain ⟨b, b1, b2, b3⟩ := radio_block env dsa d n p c w bv h.nodup hn hp hc hw h.country hbv
  exact ⟨p, c, w, b, hp, hc, hw, b1, b2, b3⟩

/-- **C46, the band.** A radio that the schema and the check of the channel accept is converted without error; its section has the band
of the alternative of the schema it matches, provided that `band` and `hwmode` do not say otherwise. -/
theorem C46_band (env : Env) (d : VDict) (f : String) (hv : ValidRadio d f) (hr : radioRefused d = .ok false) (ha : Agrees d f) :
    ∃ b, radioBlock env true d = .ok b ∧ Dict.get? b "band" = some (.str f) ∧ Dict.get? b "hwmode" = none := by
  obtain ⟨p, c, w, b, _, _, _, b1, _, b3⟩ := valid_block env true hv (.str f) (by simpa using valid_band hv hr ha)
  exact ⟨b, b1, by rw [b3]; simp [radioItem], by rw [b3]; simp [radioItem]⟩

/-- **C46, explicit band.** A band given in the configuration is the one of the section, whatever the rest. -/
theorem C46_explicit_band (env : Env) (d : VDict) (f s : String) (hv : ValidRadio d f) (hs : Dict.get? d "band" = some (.str s)) (hne : s ≠ "") :
    ∃ b, radioBlock env true d = .ok b ∧ Dict.get? b "band" = some (.str s) := by
  have : (radioBand d).1 = .str s := by
    unfold radioBand
    simp only [popOr_eq, Dict.get?_erase', String.reduceEq, if_false, hs, Option.getD_some]
    exact bandValue_band hne
  obtain ⟨p, c, w, b, _, _, _, b1, _, b3⟩ := valid_block env true hv (.str s) (by simpa using this)
  exact ⟨b, b1, by rw [b3]; simp [radioItem]⟩

/-- the hardware mode of the old syntax for the bands that had one -/
def legacyMode (f p : String) : String := if f = "5g" then "11a" else if p = "802.11b" then "11b" else "11g"

theorem valid_protocol {d : VDict} {f : String} (hv : ValidRadio d f) {p : String} (hp : Dict.get? d "protocol" = some (.str p)) :
    (f = "2g" → p ∈ ["802.11b", "802.11g", "802.11n", "802.11ax"]) ∧ (f = "5g" → p ∈ ["802.11a", "802.11n", "802.11ac", "802.11ax"]) ∧
    (f = "6g" → p = "802.11ax") ∧ (f = "60g" → p = "802.11ad") := by
  have key : ∀ {ps ch ws}, RadioIs d ps ch ws → p ∈ ps := by
    intro ps ch ws h
    obtain ⟨q, hq, hq'⟩ := h.protocol
    rw [hp] at hq'
    cases hq'
    exact hq
  cases hv with
  | bg h => have := key h; simp at this ⊢; grind
  | a h => have := key h; simp at this ⊢; grind
  | gn h => have := key h; simp at this ⊢; grind
  | an h => have := key h; simp at this ⊢; grind
  | ac h => have := key h; simp at this ⊢; grind
  | ax2 h => have := key h; simp at this ⊢; grind
  | ax5 h => have := key h; simp at this ⊢; grind
  | ax6 h => have := key h; simp at this ⊢; grind
  | ad h => have := key h; simp at this ⊢; grind

theorem valid_channel {d : VDict} {f : String} (hv : ValidRadio d f) {c : Int} (hc : Dict.get? d "channel" = some (.int c)) :
    (f = "2g" → Channel2 c) ∧ (f = "5g" → Channel5 c) ∧ (f = "6g" → Channel6 c) ∧ (f = "60g" → Channel60 c) := by
  have key : ∀ {ps ch ws}, RadioIs d ps ch ws → ch c := by
    intro ps ch ws h
    obtain ⟨q, hq, hq'⟩ := h.channel
    rw [hc] at hq'
    cases hq'
    exact hq
  cases hv with
  | bg h => have := key h; simpa using this
  | a h => have := key h; simpa using this
  | gn h => have := key h; simpa using this
  | an h => have := key h; simpa using this
  | ac h => have := key h; simpa using this
  | ax2 h => have := key h; simpa using this
  | ax5 h => have := key h; simpa using this
  | ax6 h => have := key h; simpa using this
  | ad h => have := key h; simpa using this

/-- the hardware mode of a radio of 2.4 or 5 GHz -/
theorem valid_hwmode {d : VDict} {f p : String} (hv : ValidRadio d f) (hf : f = "2g" ∨ f = "5g") (hr : radioRefused d = .ok false) (ha : Agrees d f)
    (hp : Dict.get? d "protocol" = some (.str p)) :
    ∃ x, radioHwmode d = .ok ((match Dict.get? d "hwmode" with
      | some h => h
      | none => .str (legacyMode f p)), x) := by
  obtain ⟨_, ps, ch, h⟩ := valid_is hv
  obtain ⟨c, _, hc⟩ := h.channel
  have hpv := valid_protocol hv hp
  have hcv := valid_channel hv hc
  have hch : ∀ (q : String), q = "802.11n" ∨ q = "802.11ax" → Dict.get? d "band" = none → Dict.get? d "hwmode" = none → p = q →
      hwmodeFromProtocol (Dict.erase (Dict.erase d "hwmode") "band") = .ok (.str (legacyMode f q)) := by
    rintro q hq e1 e2 rfl
    have hc0 := refused_false hp hc hr hq e1 e2
    unfold hwmodeFromProtocol
    rw [getKey_ok (v := .str p) (by simpa [Dict.get?_erase'] using hp)]
    have hpe : Val.pyEq (.int c) (.int 0) = false := by rw [Val.pyEq]; simp [hc0]
    have hle : (c ≤ 13 ↔ f = "2g") := by
      rcases hf with rfl | rfl
      · have := hcv.1 rfl; unfold Channel2 at this; simp; omega
      · have := hcv.2.1 rfl; unfold Channel5 at this; simp; omega
    rcases hq with rfl | rfl
    all_goals
      simp only [bind, Except.bind]
      rw [getKey_ok (v := .int c) (by simpa [Dict.get?_erase'] using hc)]
      simp only [hpe, leInt, Bool.false_eq_true, if_false]
      rcases hf with rfl | rfl <;> simp [hle, legacyMode, pure, Except.pure]
  unfold radioHwmode
  simp only [popOr_eq, Dict.get?_erase', String.reduceEq, if_false]
  cases eh : Dict.get? d "hwmode" with
  | some h' =>
    have : h'.truthy = true := by
      rcases ha.2 with e | ⟨s, hs, e⟩
      · rw [eh] at e; cases e
      · rw [eh] at e
        cases e
        have : s ≠ "" := by
          rintro rfl
          rcases hf with rfl | rfl <;> simp at hs
        simpa [Val.truthy] using this
    simp only [Option.getD_some, this, if_true]
    exact ⟨_, rfl⟩
  | none =>
    simp only [Option.getD_none, Val.truthy, Bool.false_eq_true, if_false]
    rcases ha.1 with e | ⟨s, hs, e⟩
    · rw [e]
      simp only [Option.getD_none, Val.truthy, Bool.false_and, Bool.false_eq_true, if_false]
      have : hwmodeFromProtocol (Dict.erase (Dict.erase d "hwmode") "band") = .ok (.str (legacyMode f p)) := by
        have hsimple : ∀ q : String, p = q → q ∈ ["802.11a", "802.11b", "802.11g", "802.11ac"] → hwmodeFromProtocol (Dict.erase (Dict.erase d "hwmode") "band") =
            .ok (.str (if q = "802.11b" then "11b" else if q = "802.11g" then "11g" else "11a")) := by
          rintro q rfl hq
          unfold hwmodeFromProtocol
          rw [getKey_ok (v := .str p) (by simpa [Dict.get?_erase'] using hp)]
          simp only [List.mem_cons, List.not_mem_nil, or_false] at hq
          rcases hq with rfl | rfl | rfl | rfl <;> rfl
        rcases hf with rfl | rfl
        · have := hpv.1 rfl
          simp only [List.mem_cons, List.not_mem_nil, or_false] at this
          rcases this with e' | e' | e' | e'
          · rw [hsimple _ e' (by simp), e']; rfl
          · rw [hsimple _ e' (by simp), e']; rfl
          · rw [hch _ (by simp) e eh e', e']
          · rw [hch _ (by simp) e eh e', e']
        · have := hpv.2.1 rfl
          simp only [List.mem_cons, List.not_mem_nil, or_false] at this
          rcases this with e' | e' | e' | e'
          · rw [hsimple _ e' (by simp), e']; rfl
          · rw [hch _ (by simp) e eh e', e']
          · rw [hsimple _ e' (by simp), e']; rfl
          · rw [hch _ (by simp) e eh e', e']
      rw [this]
      exact ⟨_, rfl⟩
    · simp only [List.mem_cons, List.not_mem_nil, or_false] at hs
      subst hs
      rw [e]
      have hk : getKey (Dict.erase (Dict.erase d "hwmode") "band") "protocol" = .ok (.str p) :=
        getKey_ok (by simpa [Dict.get?_erase'] using hp)
      rcases hf with rfl | rfl
      · refine ⟨Dict.erase (Dict.erase d "hwmode") "band", ?_⟩
        by_cases e' : p = "802.11b" <;> simp [hk, bind, Except.bind, pure, Except.pure, legacyMode, e']
      · refine ⟨Dict.erase (Dict.erase d "hwmode") "band", ?_⟩
        simp [pure, Except.pure, legacyMode]

/-- **C46, the hardware mode.** In the old syntax a radio of 2.4 or 5 GHz gets the hardware mode given in the configuration or else the one
of its band: `11a` for 5 GHz, `11b` for 802.11b and `11g` for the others of 2.4 GHz. -/
theorem C46_hwmode (env : Env) (d : VDict) (f p : String) (hv : ValidRadio d f) (hf : f = "2g" ∨ f = "5g") (hr : radioRefused d = .ok false)
    (ha : Agrees d f) (hp : Dict.get? d "protocol" = some (.str p)) :
    ∃ b, radioBlock env false d = .ok b ∧ Dict.get? b "band" = none ∧
      Dict.get? b "hwmode" = some ((Dict.get? d "hwmode").getD (.str (legacyMode f p))) := by
  have h := valid_hwmode hv hf hr ha hp
  obtain ⟨p', c, w, b, _, _, _, b1, _, b3⟩ := valid_block env false hv _ (by simpa using h)
  refine ⟨b, b1, by rw [b3]; simp [radioItem], ?_⟩
  rw [b3]
  simp only [radioItem, String.reduceEq, if_false, or_false, Bool.false_eq_true, if_true]
  cases Dict.get? d "hwmode" <;> rfl

theorem radioHwmode_total {d : VDict} {p : String} {c : Int} (hp : Dict.get? d "protocol" = some (.str p)) (hc : Dict.get? d "channel" = some (.int c)) :
    ∃ v x, radioHwmode d = .ok (v, x) := by
  have hk : getKey (Dict.erase (Dict.erase d "hwmode") "band") "protocol" = .ok (.str p) :=
    getKey_ok (by simpa [Dict.get?_erase'] using hp)
  have hk2 : getKey (Dict.erase (Dict.erase d "hwmode") "band") "channel" = .ok (.int c) :=
    getKey_ok (by simpa [Dict.get?_erase'] using hc)
  have h : ∃ v, hwmodeFromProtocol (Dict.erase (Dict.erase d "hwmode") "band") = .ok v := by
    unfold hwmodeFromProtocol
    simp only [hk, hk2, bind, Except.bind, leInt]
    repeat' split
    all_goals exact ⟨_, rfl⟩
  obtain ⟨v, hv⟩ := h
  unfold radioHwmode
  simp only [popOr_eq, hk, hv, bind, Except.bind]
  repeat' split
  all_goals exact ⟨_, _, rfl⟩

/-- **C46, totality.** A radio that the schema accepts is converted without error in both syntaxes, whatever `band` and `hwmode` say. -/
theorem C46_total (env : Env) (dsa : Bool) (d : VDict) (f : String) (hv : ValidRadio d f) : ∃ b, radioBlock env dsa d = .ok b := by
  obtain ⟨_, ps, ch, h⟩ := valid_is hv
  obtain ⟨p, _, hp⟩ := h.protocol
  obtain ⟨c, _, hc⟩ := h.channel
  cases dsa with
  | true =>
    obtain ⟨_, _, _, b, _, _, _, b1, _⟩ := valid_block env true hv (radioBand d).1 (by simp)
    exact ⟨b, b1⟩
  | false =>
    obtain ⟨v, x, hx⟩ := radioHwmode_total hp hc
    obtain ⟨_, _, _, b, _, _, _, b1, _⟩ := valid_block env false hv v (by simpa using ⟨x, hx⟩)
    exact ⟨b, b1⟩

/-! ## C47: round trip -/

/-- the keys of a radio that are not passed on as they are -/
def radioSpecial : List String :=
  ["name", "protocol", "channel", "channel_width", "tx_power", "driver", "band", "hwmode", "htmode", "disabled", "country"]

/-- A radio of band `f` with protocol `p`, channel `c` and width `w` whose settings survive: valid, `band` and `hwmode` agree with it, of the
driver `mac80211`. For the protocols without a channel width of their own (a, b, g, ad): the width is 20; with the new syntax the protocol is
not 802.11b; with the old one `hwmode`, if given, is that of the protocol. -/
structure RadioOK (env : Env) (dsa : Bool) (d : VDict) (f p : String) (c w : Int) : Prop where
  valid : ValidRadio d f
  refused : radioRefused d = .ok false
  agrees : Agrees d f
  protocol : Dict.get? d "protocol" = some (.str p)
  channel : Dict.get? d "channel" = some (.int c)
  width : Dict.get? d "channel_width" = some (.int w)
  syntax_ : dsa = true ∨ f = "2g" ∨ f = "5g"
  old : p ∉ ["802.11n", "802.11ac", "802.11ax"] → w = 20 ∧ (if dsa then p ≠ "802.11b" else
    OptIn d "hwmode" (if p = "802.11b" then ["11b"] else if p = "802.11g" then ["11g"] else ["11a"]))
  options : OptionsOK [] radioSpecial d
  noTxpower : Dict.get? d "txpower" = none
  noType : Dict.get? d "type" = none
  name : ∃ n, Dict.get? d "name" = some (.str n) ∧ IsWord n.toList
  driver : OptIn d "driver" ["mac80211"]
  txPower : Dict.get? d "tx_power" = none ∨ ∃ i, Dict.get? d "tx_power" = some (.int i)
  disabled : Dict.get? d "disabled" = none ∨ ∃ b, Dict.get? d "disabled" = some (.bool b)
  country : Dict.get? d "country" = none ∨ ∃ s, Dict.get? d "country" = some (.str s) ∧ env.upper s.toList = s.toList ∧ s ≠ "" ∧ PlainText s.toList
  htmode : Dict.get? d "htmode" = none ∨ ∃ s ∈ ["HT40+", "HT40-"], Dict.get? d "htmode" = some (.str s) ∧ p = "802.11n" ∧ w = 40

/-- the hardware mode, given or of the band -/
def modeOf (d : VDict) (f p : String) : Val := (Dict.get? d "hwmode").getD (.str (legacyMode f p))

/-- What comes back: the same settings; the driver is always there; `band` is there with the new syntax, `hwmode` with the old
one when the channel is automatic. -/
def radioReturned (dsa : Bool) (d : VDict) (f p : String) (c : Int) (k : String) : Option Val :=
  if k = "driver" then some (.str "mac80211")
  else if k = "band" then (if dsa then some (.str f) else none)
  else if k = "hwmode" then (if dsa then none else if c = 0 then some (modeOf d f p) else none)
  else Dict.get? d k

/-- the value of `htmode` in the section -/
def HtIs (d : VDict) (p : String) (w : Int) (ht : String) : Prop :=
  (Dict.get? d "htmode" = none ∧ p ∈ ["802.11n", "802.11ac", "802.11ax"] ∧ w ∈ ([20, 40, 80, 160] : List Int) ∧ ht = htmodeOf p w) ∨
  (Dict.get? d "htmode" = some (.str ht) ∧ ht ∈ ["HT40+", "HT40-"] ∧ p = "802.11n" ∧ w = 40) ∨
  (Dict.get? d "htmode" = none ∧ p ∉ ["802.11n", "802.11ac", "802.11ax"] ∧ w = 20 ∧ ht = "NONE")

theorem radio_ht {env : Env} {dsa : Bool} {d : VDict} {f p : String} {c w : Int} (h : RadioOK env dsa d f p c w) :
    ∃ ht, HtIs d p w ht ∧ (Dict.get? d "htmode").or (some (.str (htmodeOf p w))) = some (.str ht) := by
  have hw : w ∈ ([20, 40, 80, 160] : List Int) := by
    obtain ⟨_, ps, ch, hi⟩ := valid_is h.valid
    obtain ⟨w', h1, h2⟩ := hi.width
    rw [h.width] at h2
    cases h2
    exact h1
  rcases h.htmode with e | ⟨s, hs, e, e1, e2⟩
  · by_cases hp : p ∈ ["802.11n", "802.11ac", "802.11ax"]
    · exact ⟨_, .inl ⟨e, hp, hw, rfl⟩, by rw [e]; rfl⟩
    · refine ⟨"NONE", .inr (.inr ⟨e, hp, (h.old hp).1, rfl⟩), ?_⟩
      rw [e]
      simp only [List.mem_cons, List.not_mem_nil, or_false, not_or] at hp
      simp [htmodeOf, hp]
  · exact ⟨s, .inr (.inl ⟨e, hs, e1, e2⟩), by rw [e]; rfl⟩

theorem ht_word {d : VDict} {p : String} {w : Int} {ht : String} (h : HtIs d p w ht) : IsWord ht.toList := by
  rcases h with ⟨_, hp, hw, rfl⟩ | ⟨_, h, _, _⟩ | ⟨_, _, _, rfl⟩
  · simp only [List.mem_cons, List.not_mem_nil, or_false] at hp hw
    rcases hp with rfl | rfl | rfl <;> rcases hw with rfl | rfl | rfl | rfl <;> decide
  · simp only [List.mem_cons, List.not_mem_nil, or_false] at h
    rcases h with rfl | rfl <;> decide
  · decide

theorem ht_width {d : VDict} {p : String} {w : Int} {ht : String} (h : HtIs d p w ht) (r : VDict) (hr : Dict.get? r "htmode" = some (.str ht)) :
    ∃ r', widthBack r = .ok r' ∧ ∀ k, Dict.get? r' k = if k = "channel_width" then some (.int w) else if k = "htmode" then Dict.get? d k else Dict.get? r k := by
  have hstd : ∀ (hs : ht ≠ "NONE") (w' : Chars),
      replaceAll "HE".toList [] (replaceAll "HT".toList [] (replaceAll "VHT".toList [] ht.toList)) = w' → w'.contains '+' = false → w'.contains '-' = false →
      parseInt w' = some w → Dict.get? d "htmode" = none →
      ∃ r', widthBack r = .ok r' ∧ ∀ k, Dict.get? r' k = if k = "channel_width" then some (.int w) else if k = "htmode" then Dict.get? d k else Dict.get? r k := by
    intro hs w' e1 e2 e3 e4 e5
    unfold widthBack
    rw [popKey_ok hr]
    have e6 : pyInt (txt w') = .ok (.int w) := by simp [pyInt, txt, e4]
    simp only [bind, Except.bind, Val.str.injEq, hs, if_false, asText, e1, e2, e3, Bool.or_false, Bool.false_eq_true, e6]
    refine ⟨_, rfl, fun k => ?_⟩
    rw [Dict.get?_set', Dict.get?_erase']
    by_cases k1 : k = "channel_width"
    · simp [k1]
    · by_cases k2 : k = "htmode"
      · subst k2; simp [e5]
      · simp [k1, k2]
  rcases h with ⟨hn, hp, hw, rfl⟩ | ⟨hn, h, rfl, rfl⟩ | ⟨hn, _, rfl, rfl⟩
  · simp only [List.mem_cons, List.not_mem_nil, or_false] at hp hw
    rcases hp with rfl | rfl | rfl <;> rcases hw with rfl | rfl | rfl | rfl <;>
      exact hstd (by decide) _ rfl (by decide +kernel) (by decide +kernel) (by decide +kernel) hn
  · have hmod : ∀ (hs : ht ≠ "NONE") (w' : Chars),
        replaceAll "HE".toList [] (replaceAll "HT".toList [] (replaceAll "VHT".toList [] ht.toList)) = w' → (w'.contains '+' || w'.contains '-') = true →
        parseInt w'.dropLast = some 40 →
        ∃ r', widthBack r = .ok r' ∧ ∀ k, Dict.get? r' k = if k = "channel_width" then some (.int 40) else if k = "htmode" then Dict.get? d k else Dict.get? r k := by
      intro hs w' e1 e2 e4
      unfold widthBack
      rw [popKey_ok hr]
      have e6 : pyInt (txt w'.dropLast) = .ok (.int 40) := by simp [pyInt, txt, e4]
      simp only [bind, Except.bind, Val.str.injEq, hs, if_false, asText, e1, e2, if_true, e6]
      refine ⟨_, rfl, fun k => ?_⟩
      rw [Dict.get?_set', Dict.get?_set', Dict.get?_erase']
      by_cases k1 : k = "channel_width"
      · simp [k1]
      · by_cases k2 : k = "htmode"
        · subst k2; simp [hn]
        · simp [k1, k2]
    simp only [List.mem_cons, List.not_mem_nil, or_false] at h
    rcases h with rfl | rfl <;> exact hmod (by decide) _ rfl (by decide +kernel) (by decide +kernel)
  · unfold widthBack
    rw [popKey_ok hr]
    simp only [bind, Except.bind, if_true]
    refine ⟨_, rfl, fun k => ?_⟩
    rw [Dict.get?_set', Dict.get?_erase']
    by_cases k1 : k = "channel_width"
    · simp [k1]
    · by_cases k2 : k = "htmode"
      · subst k2; simp [hn]
      · simp [k1, k2]

/-- the value of `band` or `hwmode` -/
theorem radio_bv {env : Env} {dsa : Bool} {d : VDict} {f p : String} {c w : Int} (h : RadioOK env dsa d f p c w) :
    ∃ m : String, IsWord m.toList ∧ (if dsa then m = f else modeOf d f p = .str m) ∧
      (if dsa then (radioBand d).1 = .str m else ∃ x, radioHwmode d = .ok (.str m, x)) := by
  have hb := valid_band h.valid h.refused h.agrees
  have hf := (valid_is h.valid).1
  cases dsa with
  | true =>
    refine ⟨f, ?_, rfl, by simpa using hb⟩
    simp only [List.mem_cons, List.not_mem_nil, or_false] at hf
    rcases hf with rfl | rfl | rfl | rfl <;> decide
  | false =>
    have hf2 : f = "2g" ∨ f = "5g" := by
      rcases h.syntax_ with e | e
      · cases e
      · exact e
    obtain ⟨x, hx⟩ := valid_hwmode h.valid hf2 h.refused h.agrees h.protocol
    have hm : ∃ m : String, IsWord m.toList ∧ modeOf d f p = .str m := by
      unfold modeOf
      rcases h.agrees.2 with e | ⟨s, hs, e⟩
      · rw [e]
        refine ⟨_, ?_, rfl⟩
        unfold legacyMode
        repeat' split
        all_goals decide
      · rw [e]
        refine ⟨s, ?_, rfl⟩
        rcases hf2 with rfl | rfl
        · simp only [if_true, List.mem_cons, List.not_mem_nil, or_false] at hs
          rcases hs with rfl | rfl <;> decide
        · simp at hs
          subst hs
          decide
    obtain ⟨m, m1, m2⟩ := hm
    refine ⟨m, m1, by simpa using m2, ?_⟩
    simp only [Bool.false_eq_true, if_false]
    refine ⟨x, ?_⟩
    rw [hx, ← m2]
    unfold modeOf
    cases Dict.get? d "hwmode" <;> rfl

theorem ht_protocol {env : Env} {dsa : Bool} {d : VDict} {f p : String} {c w : Int} {ht : String} (h : RadioOK env dsa d f p c w)
    (hht : HtIs d p w ht) (m : String) (hm : if dsa then m = f else modeOf d f p = .str m) (r : VDict) (hr : Dict.get? r "htmode" = some (.str ht))
    (hb : if dsa then Dict.get? r "band" = some (.str m) else Dict.get? r "hwmode" = some (.str m)) :
    protocolBack env dsa r = .ok (.str p) := by
  unfold protocolBack
  rw [hr]
  simp only [Option.getD_some, asText, bind, Except.bind]
  rcases hht with ⟨_, hp, hw, rfl⟩ | ⟨_, hh, rfl, rfl⟩ | ⟨_, hp, rfl, rfl⟩
  · simp only [List.mem_cons, List.not_mem_nil, or_false] at hp hw
    rcases hp with rfl | rfl | rfl <;> rcases hw with rfl | rfl | rfl | rfl <;> rfl
  · simp only [List.mem_cons, List.not_mem_nil, or_false] at hh
    rcases hh with rfl | rfl <;> rfl
  · rw [if_neg (by decide), if_neg (by decide), if_neg (by decide), if_pos rfl]
    have hpv := valid_protocol h.valid h.protocol
    have hf := (valid_is h.valid).1
    have hold := (h.old hp).2
    simp only [List.mem_cons, List.not_mem_nil, or_false] at hf hp hpv
    cases dsa with
    | true =>
      simp only [if_true] at hb hm hold
      subst hm
      simp only [hb, Option.getD_some]
      rcases hf with rfl | rfl | rfl | rfl
      · have : p = "802.11g" := by have := hpv.1 rfl; grind
        subst this; rfl
      · have : p = "802.11a" := by have := hpv.2.1 rfl; grind
        subst this; rfl
      · have := hpv.2.2.1 rfl; grind
      · have := hpv.2.2.2 rfl
        subst this; rfl
    | false =>
      simp only [Bool.false_eq_true, if_false] at hb hm hold
      have hb2 : (if (false && ((Dict.get? r "band").getD Val.none).truthy) = true then
          (if (Dict.get? r "band").getD Val.none = Val.str "2g" then pure (.str "802.11g") else if (Dict.get? r "band").getD Val.none = .str "5g" then pure (.str "802.11a")
        else if (Dict.get? r "band").getD Val.none = .str "60g" then pure (.str "802.11ad") else .error .keyError)
        else pure (protocolOfHwmode env ((Dict.get? r "hwmode").getD .none)) : Except PyErr Val) = .ok (protocolOfHwmode env (.str m)) := by
        rw [hb]; rfl
      refine Eq.trans hb2 ?_
      have hf2 : f = "2g" ∨ f = "5g" := by
        rcases h.syntax_ with e | e
        · cases e
        · exact e
      unfold modeOf at hm
      have : m = (if p = "802.11b" then "11b" else if p = "802.11g" then "11g" else "11a") ∧ (p = "802.11b" ∨ p = "802.11g" ∨ p = "802.11a") := by
        rcases hf2 with rfl | rfl
        · have h1 : p = "802.11b" ∨ p = "802.11g" := by have := hpv.1 rfl; grind
          refine ⟨?_, by grind⟩
          rcases hold with e | ⟨s, hs, e⟩
          · rw [e] at hm
            simp only [Option.getD_none, Val.str.injEq] at hm
            rcases h1 with rfl | rfl <;> exact hm.symm
          · rw [e] at hm
            simp only [Option.getD_some, Val.str.injEq] at hm
            rcases h1 with rfl | rfl
            · simp at hs ⊢; rw [← hm, hs]
            · simp at hs ⊢; rw [← hm, hs]
        · have h1 : p = "802.11a" := by have := hpv.2.1 rfl; grind
          refine ⟨?_, by grind⟩
          subst h1
          rcases hold with e | ⟨s, hs, e⟩
          · rw [e] at hm
            simp only [Option.getD_none, Val.str.injEq] at hm
            exact hm.symm
          · rw [e] at hm
            simp only [Option.getD_some, Val.str.injEq] at hm
            simp at hs ⊢; rw [← hm, hs]
      obtain ⟨hm', hp'⟩ := this
      rw [hm']
      clear hm' hm hb hb2 hold h hp hpv hr
      rcases hp' with rfl | rfl | rfl <;> simp [protocolOfHwmode, txt, pyStr] <;> rfl

theorem radio_driver {env : Env} {dsa : Bool} {d : VDict} {f p : String} {c w : Int} (h : RadioOK env dsa d f p c w) :
    (Dict.get? d "driver").getD (.str "mac80211") = .str "mac80211" := by
  rcases h.driver with e | ⟨s, hs, e⟩
  · rw [e]; rfl
  · simp at hs; subst hs; rw [e]; rfl

/-- the section of a radio whose settings survive, item by item -/
def radioKept (dsa : Bool) (d : VDict) (c : Int) (ht m : String) (k : String) : Option Val :=
  if k = ".type" then some (.str "wifi-device")
  else if k = ".name" then Dict.get? d "name"
  else if k = "name" ∨ k = "tx_power" ∨ k = "driver" ∨ k = "protocol" ∨ k = "channel_width" then none
  else if k = "txpower" then Dict.get? d "tx_power"
  else if k = "type" then some (.str "mac80211")
  else if k = "band" then (if dsa then some (.str m) else none)
  else if k = "hwmode" then (if dsa then none else some (.str m))
  else if k = "channel" then some (if c = 0 then .str "auto" else .int c)
  else if k = "htmode" then some (.str ht)
  else Dict.get? d k

theorem radio_kept {env : Env} {dsa : Bool} {d : VDict} {f p : String} {c w : Int} (h : RadioOK env dsa d f p c w) :
    ∃ ht m b, HtIs d p w ht ∧ IsWord m.toList ∧ (if dsa then m = f else modeOf d f p = .str m) ∧
      radioBlock env dsa d = .ok b ∧ (Dict.keys b).Nodup ∧ ∀ k, Dict.get? b k = radioKept dsa d c ht m k := by
  obtain ⟨ht, h1, h2⟩ := radio_ht h
  obtain ⟨m, m1, m2, m3⟩ := radio_bv h
  obtain ⟨n, n1, n2⟩ := h.name
  obtain ⟨b, b1, b2, b3⟩ := radio_block env dsa d n p c w (.str m) h.options.nodup n1 h.protocol h.channel h.width (by
    rcases h.country with e | ⟨s, e, _⟩
    · exact .inl e
    · exact .inr ⟨s, e⟩) m3
  refine ⟨ht, m, b, h1, m1, m2, b1, b2, fun k => ?_⟩
  rw [b3]
  have hd := radio_driver h
  have hc : (Dict.get? d "country").map (upperVal env) = Dict.get? d "country" := by
    rcases h.country with e | ⟨s, e, e2, _⟩
    · rw [e]; rfl
    · rw [e]; simp [upperVal, txt, e2]
  have ht := h.noTxpower
  unfold radioItem radioKept
  simp only [hd, h2, ht, if_true, Option.or_none]
  by_cases e : k = "country"
  · subst e; simpa using hc
  by_cases e' : k = "htmode"
  · subst e'; simpa using h2
  · clear hc h2 m2 m3 h1 h
    grind (splits := 40)

theorem radio_plain {env : Env} {dsa : Bool} {d : VDict} {f p : String} {c w : Int} (h : RadioOK env dsa d f p c w) {ht m : String} {b : VDict}
    (hht : HtIs d p w ht) (hm : IsWord m.toList) (hn : (Dict.keys b).Nodup) (hb : ∀ k, Dict.get? b k = radioKept dsa d c ht m k) : PlainBlock b := by
  obtain ⟨n, n1, n2⟩ := h.name
  refine ⟨hn, ⟨"wifi-device", by rw [hb]; rfl, by decide, by decide, by decide⟩, ⟨n, by rw [hb]; exact n1, n2⟩, ?_⟩
  intro k v hk k1 k2
  rw [hb] at hk
  unfold radioKept at hk
  rw [if_neg k1, if_neg k2] at hk
  split at hk
  · cases hk
  · next k3 =>
    simp only [not_or] at k3
    split at hk
    · next e =>
      subst e
      refine ⟨by decide, by decide, ?_⟩
      rcases h.txPower with e | ⟨i, e⟩
      · rw [e] at hk; cases hk
      · rw [e] at hk; cases hk; trivial
    split at hk
    · next e => subst e; cases hk; exact ⟨by decide, by decide, isWord_plain (s := "mac80211".toList) (by decide)⟩
    split at hk
    · next e =>
      subst e
      refine ⟨by decide, by decide, ?_⟩
      split at hk <;> cases hk
      exact isWord_plain hm
    split at hk
    · next e =>
      subst e
      refine ⟨by decide, by decide, ?_⟩
      split at hk <;> cases hk
      exact isWord_plain hm
    split at hk
    · next e =>
      subst e
      refine ⟨by decide, by decide, ?_⟩
      cases hk
      split
      · exact isWord_plain (s := "auto".toList) (by decide)
      · trivial
    split at hk
    · next e =>
      subst e
      refine ⟨by decide, by decide, ?_⟩
      cases hk
      exact isWord_plain (ht_word hht)
    by_cases e : k = "disabled"
    · subst e
      refine ⟨by decide, by decide, ?_⟩
      rcases h.disabled with e | ⟨i, e⟩
      · rw [e] at hk; cases hk
      · rw [e] at hk; cases hk; trivial
    by_cases e : k = "country"
    · subst e
      refine ⟨by decide, by decide, ?_⟩
      rcases h.country with e | ⟨i, e, _, _, e2⟩
      · rw [e] at hk; cases hk
      · rw [e] at hk; cases hk; exact e2
    obtain ⟨o1, o2, o3⟩ := h.options.options k v hk (by simp [radioSpecial]; grind)
    exact ⟨o1, o2, survives_plain o3⟩

theorem intOf_text (i : Int) : intOf (.str (String.ofList (showInt i))) = .ok (.int i) := by
  simp [intOf, pyInt, parseInt_showInt]

/-- the section read back from text, item by item -/
def radioRead (dsa : Bool) (d : VDict) (c : Int) (ht m : String) (k : String) : Option Val :=
  if k = "txpower" ∨ k = "channel" ∨ k = "disabled" then (radioKept dsa d c ht m k).bind readVal else radioKept dsa d c ht m k

theorem radio_read {env : Env} {dsa : Bool} {d : VDict} {f p : String} {c w : Int} (h : RadioOK env dsa d f p c w) {ht m : String} {b : VDict}
    (hht : HtIs d p w ht) (hm : IsWord m.toList) (hn : (Dict.keys b).Nodup) (hb : ∀ k, Dict.get? b k = radioKept dsa d c ht m k) (k : String) :
    Dict.get? (blockBack env.reprC b) k = radioRead dsa d c ht m k := by
  rw [get?_blockBack _ (radio_plain h hht hm hn hb), hb]
  unfold radioRead
  by_cases h1 : k = ".type" ∨ k = ".name"
  · rw [if_pos h1, if_neg (by rcases h1 with rfl | rfl <;> decide)]
  · rw [if_neg h1]
    by_cases h2 : k = "txpower" ∨ k = "channel" ∨ k = "disabled"
    · rw [if_pos h2]
    · rw [if_neg h2]
      have hw : ∀ s : String, IsWord s.toList → readVal (.str s) = some (.str s) := by
        intro s hs
        have : s ≠ "" := by rintro rfl; exact absurd rfl hs.1
        simp [readVal, this]
      have hm' := hw m hm
      have hh' := hw ht (ht_word hht)
      have hmac : readVal (.str "mac80211") = some (.str "mac80211") := hw _ (by decide)
      simp only [not_or] at h1 h2
      have hrest : k ∉ ["name", "protocol", "channel", "channel_width", "tx_power", "driver", "band", "hwmode", "htmode", "type"] →
          (Dict.get? d k).bind readVal = Dict.get? d k := by
        intro hk
        by_cases e : k = "country"
        · subst e
          rcases h.country with e | ⟨i, e, _, e3, e2⟩
          · rw [e]; rfl
          · rw [e]; simp [readVal, e3]
        · cases hv : Dict.get? d k with
          | none => rfl
          | some v =>
            obtain ⟨o1, o2, o3⟩ := h.options.options k v hv (by simp [radioSpecial] at hk ⊢; grind)
            obtain ⟨r, r1, r2⟩ := survives_spec o3
            rw [show Dict.get? ([] : Dict String JType) k = none from rfl] at r2
            cases r2
            exact r1
      unfold radioKept
      by_cases hk : k ∈ ["name", "protocol", "channel", "channel_width", "tx_power", "driver", "band", "hwmode", "htmode", "type"]
      · simp only [List.mem_cons, List.not_mem_nil, or_false] at hk
        clear hrest
        rcases hk with rfl | rfl | rfl | rfl | rfl | rfl | rfl | rfl | rfl | rfl <;> cases dsa <;> simp [hm', hh', hmac]
        all_goals simp at h2
      · have hr := hrest hk
        simp only [List.mem_cons, List.not_mem_nil, or_false, not_or] at hk
        simp [h1, h2, hk, hr]

theorem radio_item (env : Env) (dsa : Bool) (d : VDict) (f p : String) (c w : Int) (h : RadioOK env dsa d f p c w) :
    ∃ b r, radioBlock env dsa d = .ok b ∧ PlainBlock b ∧ skipBlock (some ["wifi-device"]) (blockBack env.reprC b) = false ∧
      netjsonRadio env dsa (blockBack env.reprC b) = .ok r ∧ ∀ k, Dict.get? r k = radioReturned dsa d f p c k := by
  obtain ⟨ht, m, b, hht, hm, hmv, hb, hn, hg⟩ := radio_kept h
  have hx := radio_read h hht hm hn hg
  have hpl := radio_plain h hht hm hn hg
  obtain ⟨n, n1, n2⟩ := h.name
  refine ⟨b, ?_⟩
  generalize blockBack env.reprC b = x at hx
  have hty : Dict.get? x ".type" = some (.str "wifi-device") := by rw [hx]; rfl
  have hproto := ht_protocol h hht m hmv
  have hwid := ht_width hht
  have htxp := h.txPower
  have hdis := h.disabled
  have hdot : Dict.get? d ".type" = none ∧ Dict.get? d ".name" = none :=
    ⟨h.options.dotless (by decide) (by decide), h.options.dotless (by decide) (by decide)⟩
  have hclash := And.intro h.noTxpower h.noType
  have hpw := And.intro h.protocol (And.intro h.channel h.width)
  suffices ∃ r, netjsonRadio env dsa x = .ok r ∧ ∀ k, Dict.get? r k = radioReturned dsa d f p c k by
    obtain ⟨r, r1, r2⟩ := this
    exact ⟨r, hb, hpl, skip_of_type hty (by simp), r1, r2⟩
  clear hb hpl hn hg h
  unfold netjsonRadio
  rw [popKey_ok hty]
  simp only [bind, Except.bind]
  rw [popKey_ok (v := .str n) (by rw [Dict.get?_erase', if_neg (by decide), hx]; exact n1)]
  simp only []
  generalize e1 : Dict.set (Dict.erase (Dict.erase x ".type") ".name") "name" (Val.str n) = r1
  have g1 : ∀ k, Dict.get? r1 k = if k = "name" then some (.str n) else if k = ".name" ∨ k = ".type" then none else radioRead dsa d c ht m k := by
    intro k
    rw [← e1, Dict.get?_set', Dict.get?_erase', Dict.get?_erase', hx]
    grind
  obtain ⟨r2, e2, g2⟩ : ∃ r2, txPowerBack r1 = .ok r2 ∧ ∀ k, Dict.get? r2 k =
      if k = "txpower" then none else if k = "tx_power" then Dict.get? d "tx_power" else Dict.get? r1 k := by
    have ht1 : Dict.get? r1 "txpower" = (Dict.get? d "tx_power").bind readVal := by
      rw [g1]; simp [radioRead, radioKept]
    unfold txPowerBack
    rcases htxp with e | ⟨i, e⟩
    · rw [ht1, e]
      refine ⟨r1, rfl, fun k => ?_⟩
      by_cases k1 : k = "txpower"
      · subst k1; rw [if_pos rfl, ht1, e]; rfl
      · rw [if_neg k1]
        by_cases k2 : k = "tx_power"
        · subst k2; rw [if_pos rfl, g1]; simp [radioRead, radioKept]
        · rw [if_neg k2]
    · rw [ht1, e]
      simp only [Option.bind_some, readVal, intOf_text]
      refine ⟨_, rfl, fun k => ?_⟩
      rw [Dict.get?_set', Dict.get?_erase']
      grind
  rw [e2]
  simp only []
  rw [popKey_ok (v := .str "mac80211") (by rw [g2, g1]; simp [radioRead, radioKept])]
  simp only []
  generalize e3 : Dict.set (Dict.erase r2 "type") "driver" (Val.str "mac80211") = r3
  have g3 : ∀ k, Dict.get? r3 k = if k = "driver" then some (.str "mac80211") else if k = "type" then none else Dict.get? r2 k := by
    intro k
    rw [← e3, Dict.get?_set', Dict.get?_erase']
  generalize e4 : disabledBack r3 = r4
  have g4 : ∀ k, Dict.get? r4 k = if k = "disabled" then Dict.get? d "disabled" else Dict.get? r3 k := by
    intro k
    have hd1 : Dict.get? r3 "disabled" = (Dict.get? d "disabled").bind readVal := by
      rw [g3, g2, g1]; simp [radioRead, radioKept]
    rw [← e4]
    unfold disabledBack
    rcases hdis with e | ⟨i, e⟩
    · rw [hd1, e]
      by_cases k1 : k = "disabled"
      · subst k1; rw [if_pos rfl]; exact hd1.trans (by rw [e]; rfl)
      · rw [if_neg k1]; rfl
    · rw [hd1, e]
      simp only [Option.bind_some, readVal, Dict.get?_set']
      cases i <;> rfl
  rw [hproto r4 (by rw [g4, g3, g2, g1]; simp [radioRead, radioKept]) (by cases dsa <;> simp [g4, g3, g2, g1, radioRead, radioKept])]
  simp only []
  generalize e5 : Dict.set r4 "protocol" (Val.str p) = r5
  have g5 : ∀ k, Dict.get? r5 k = if k = "protocol" then some (.str p) else Dict.get? r4 k := by
    intro k
    rw [← e5, Dict.get?_set']
  obtain ⟨r6, e6, g6⟩ : ∃ r6, channelBack r5 = .ok r6 ∧ ∀ k, Dict.get? r6 k =
      if k = "channel" then some (.int c) else if k = "hwmode" ∧ c ≠ 0 then none else Dict.get? r5 k := by
    have hc1 : Dict.get? r5 "channel" = (some (if c = 0 then Val.str "auto" else .int c)).bind readVal := by
      rw [g5, g4, g3, g2, g1]; simp [radioRead, radioKept]
    unfold channelBack
    by_cases hc : c = 0
    · rw [if_pos hc] at hc1
      rw [getKey_ok hc1]
      simp only [bind, Except.bind, if_true]
      refine ⟨_, rfl, fun k => ?_⟩
      rw [Dict.get?_set', hc]
      simp
    · rw [if_neg hc] at hc1
      rw [getKey_ok hc1]
      simp only [bind, Except.bind, intOf_text]
      rw [if_neg (by
        intro e
        have h1 := congrArg intOf e
        rw [intOf_text] at h1
        rw [show intOf (.str "auto") = .error .valueError by decide +kernel] at h1
        cases h1)]
      refine ⟨_, rfl, fun k => ?_⟩
      rw [Dict.get?_set', Dict.get?_erase']
      simp [hc]
  rw [e6]
  simp only []
  obtain ⟨r7, e7, g7⟩ := hwid r6 (by rw [g6, g5, g4, g3, g2, g1]; simp [radioRead, radioKept])
  refine ⟨r7, e7, fun k => ?_⟩
  rw [g7, g6, g5, g4, g3, g2, g1]
  obtain ⟨q1, q2, q3⟩ := hpw
  obtain ⟨q4, q5⟩ := hclash
  obtain ⟨q6, q7⟩ := hdot
  clear hx g1 g2 g3 g4 g5 g6 g7 e1 e2 e3 e4 e5 e6 e7 hproto hwid hty htxp hdis hht hm
  unfold radioReturned radioRead radioKept
  cases dsa <;> simp only [Bool.false_eq_true, if_false, if_true] at hmv ⊢
  · grind (splits := 60)
  · grind (splits := 60)

/-- **C47.** Radios whose settings survive (`RadioOK`) come back from UCI text, in order, with the same name, protocol, channel, channel width,
power, state, country and other options. What comes with them: the driver, and `band` (new syntax) or, when the channel is automatic, `hwmode` (old syntax). -/
theorem C47_round_trip (env : Env) (dsa : Bool) (config : VDict) (l : List VDict) (hne : l ≠ [])
    (hk : Dict.get? config "radios" = some (.list (l.map .dict))) (h : ∀ d ∈ l, ∃ f p c w, RadioOK env dsa d f p c w) :
    ∃ rs, viaText env.reprC (radiosConv env dsa) (radiosBConv env dsa) config = .ok [("radios", .list (rs.map .dict))] ∧
      List.Forall₂ (fun r d => (∀ k, k ≠ "driver" → k ≠ "band" → k ≠ "hwmode" → Dict.get? r k = Dict.get? d k) ∧
        ∃ f p c w, RadioOK env dsa d f p c w ∧ ∀ k, Dict.get? r k = radioReturned dsa d f p c k) rs l := by
  refine list_sectionTo _ env.reprC "radios" "wireless" (some ["wifi-device"]) (radioFwd env dsa) (radioBack env dsa)
    (fun _ d => radioBlock env dsa d) (fun _ b => netjsonRadio env dsa b) (by decide) (fun i d r => rfl) (fun i b r => rfl) config l hne hk ?_
  refine allIdx_of_getElem (fun j d hj => ?_)
  obtain ⟨f, p, c, w, hd⟩ := h d (List.mem_of_getElem? hj)
  obtain ⟨b, r, b1, b2, b3, b4, b5⟩ := radio_item env dsa d f p c w hd
  refine ⟨b, r, b1, b2, b3, b4, fun k k1 k2 k3 => ?_, f, p, c, w, hd, b5⟩
  rw [b5]
  simp [radioReturned, k1, k2, k3]

/-! ### Examples -/

/-- 802.11n at 2.4 GHz with HT40+, a country and a power -/
def sampleRadio1 : VDict :=
  [("name", .str "radio0"), ("phy", .str "phy0"), ("driver", .str "mac80211"), ("protocol", .str "802.11n"), ("channel", .int 3), ("channel_width", .int 40),
   ("tx_power", .int 8), ("country", .str "IT"), ("disabled", .bool true), ("htmode", .str "HT40+")]
/-- 802.11ac with automatic channel -/
def sampleRadio2 : VDict :=
  [("name", .str "radio1"), ("protocol", .str "802.11ac"), ("channel", .int 0), ("channel_width", .int 80)]

theorem optIn_none {d : VDict} {k : String} {l : List String} (h : Dict.get? d k = none) : OptIn d k l := .inl h
theorem optIn_some {d : VDict} {k : String} {l : List String} (s : String) (hs : s ∈ l) (h : Dict.get? d k = some (.str s)) : OptIn d k l := .inr ⟨s, hs, h⟩

theorem sampleRadio1_ok (dsa : Bool) : RadioOK sampleEnv dsa sampleRadio1 "2g" "802.11n" 3 40 where
  valid := .gn ⟨by decide, ⟨_, rfl⟩, ⟨_, by decide, rfl⟩, ⟨3, by unfold Channel2; omega, rfl⟩, ⟨40, by decide, rfl⟩, .inr ⟨_, rfl⟩⟩ (.inl rfl) (.inl rfl)
  refused := by decide +kernel
  agrees := ⟨.inl rfl, .inl rfl⟩
  protocol := rfl
  channel := rfl
  width := rfl
  syntax_ := .inr (.inl rfl)
  old := by intro h; exact absurd (by decide) h
  options := optionsB_sound (by decide +kernel)
  noTxpower := rfl
  noType := rfl
  name := ⟨_, rfl, by decide⟩
  driver := .inr ⟨_, by decide, rfl⟩
  txPower := .inr ⟨_, rfl⟩
  disabled := .inr ⟨_, rfl⟩
  country := .inr ⟨_, rfl, by decide, by decide, by decide⟩
  htmode := .inr ⟨_, by decide, rfl, rfl, rfl⟩

theorem sampleRadio2_ok (dsa : Bool) : RadioOK sampleEnv dsa sampleRadio2 "5g" "802.11ac" 0 80 where
  valid := .ac ⟨by decide, ⟨_, rfl⟩, ⟨_, by decide, rfl⟩, ⟨0, by unfold Channel5; omega, rfl⟩, ⟨80, by decide, rfl⟩, .inl rfl⟩ (.inl rfl) (.inl rfl)
  refused := by decide +kernel
  agrees := ⟨.inl rfl, .inl rfl⟩
  protocol := rfl
  channel := rfl
  width := rfl
  syntax_ := .inr (.inr rfl)
  old := by intro h; exact absurd (by decide) h
  options := optionsB_sound (by decide +kernel)
  noTxpower := rfl
  noType := rfl
  name := ⟨_, rfl, by decide⟩
  driver := .inl rfl
  txPower := .inl rfl
  disabled := .inl rfl
  country := .inl rfl
  htmode := .inl rfl

/-- the round trip of both, in both syntaxes -/
example (dsa : Bool) : ∃ rs : List VDict, viaText sampleEnv.reprC (radiosConv sampleEnv dsa) (radiosBConv sampleEnv dsa)
    [("radios", .list [.dict sampleRadio1, .dict sampleRadio2])] = .ok [("radios", .list (rs.map .dict))] ∧ rs.length = 2 := by
  obtain ⟨rs, h1, h2⟩ := C47_round_trip sampleEnv dsa [("radios", .list [.dict sampleRadio1, .dict sampleRadio2])] [sampleRadio1, sampleRadio2] (by simp) rfl (by
    intro d hd
    simp only [List.mem_cons, List.not_mem_nil, or_false] at hd
    rcases hd with rfl | rfl
    · exact ⟨_, _, _, _, sampleRadio1_ok dsa⟩
    · exact ⟨_, _, _, _, sampleRadio2_ok dsa⟩)
  exact ⟨rs, h1, by simpa using h2.length_eq⟩

/-- what comes back of the second one in the new syntax -/
example : viaText sampleEnv.reprC (radiosConv sampleEnv true) (radiosBConv sampleEnv true) [("radios", .list [.dict sampleRadio2])] =
    .ok [("radios", .list [.dict [("band", .str "5g"), ("channel", .int 0), ("name", .str "radio1"), ("driver", .str "mac80211"),
      ("protocol", .str "802.11ac"), ("channel_width", .int 80)]])] := by decide +kernel

example : ∃ b, radioBlock sampleEnv true sampleRadio1 = .ok b ∧ Dict.get? b "band" = some (.str "2g") ∧ Dict.get? b "hwmode" = none :=
  C46_band sampleEnv sampleRadio1 "2g" (sampleRadio1_ok true).valid (by decide +kernel) (sampleRadio1_ok true).agrees

example : ∃ b, radioBlock sampleEnv false sampleRadio2 = .ok b ∧ Dict.get? b "band" = none ∧ Dict.get? b "hwmode" = some (.str "11a") :=
  C46_hwmode sampleEnv sampleRadio2 "5g" "802.11ac" (sampleRadio2_ok true).valid (.inr rfl) (by decide +kernel) (sampleRadio2_ok true).agrees rfl

/-! ### What the conditions are for -/

/-- C46: the schema accepts a radio of 6 GHz with `hwmode` 11a, and the section says 5 GHz. -/
theorem C46_needs_agreement : ∃ d, ValidRadio d "6g" ∧ radioRefused d = .ok false ∧
    ∃ b, radioBlock sampleEnv true d = .ok b ∧ Dict.get? b "band" = some (.str "5g") := by
  refine ⟨[("name", .str "radio0"), ("protocol", .str "802.11ax"), ("channel", .int 37), ("channel_width", .int 80), ("hwmode", .str "11a")],
    .ax6 ⟨by decide, ⟨_, rfl⟩, ⟨_, by decide, rfl⟩, ⟨37, by unfold Channel6; omega, rfl⟩, ⟨80, by decide, rfl⟩, .inl rfl⟩ (.inl rfl), by decide +kernel, ?_⟩
  exact ⟨_, rfl, by decide +kernel⟩

/-- C47: in the new syntax 802.11b comes back as 802.11g. -/
theorem C47_needs_not_b : viaText sampleEnv.reprC (radiosConv sampleEnv true) (radiosBConv sampleEnv true)
    [("radios", .list [.dict [("name", .str "radio0"), ("protocol", .str "802.11b"), ("channel", .int 3), ("channel_width", .int 20)]])] =
    .ok [("radios", .list [.dict [("band", .str "2g"), ("channel", .int 3), ("name", .str "radio0"), ("driver", .str "mac80211"),
      ("protocol", .str "802.11g"), ("channel_width", .int 20)]])] := by decide +kernel

/-- C47: the channel width of 802.11ad is lost. -/
theorem C47_needs_width : viaText sampleEnv.reprC (radiosConv sampleEnv true) (radiosBConv sampleEnv true)
    [("radios", .list [.dict [("name", .str "radio0"), ("protocol", .str "802.11ad"), ("channel", .int 2), ("channel_width", .int 160)]])] =
    .ok [("radios", .list [.dict [("band", .str "60g"), ("channel", .int 2), ("name", .str "radio0"), ("driver", .str "mac80211"),
      ("protocol", .str "802.11ad"), ("channel_width", .int 20)]])] := by decide +kernel

/-- C47: the section of a radio of another driver has no `htmode`, and parsing it back raises `AttributeError`. -/
theorem C47_needs_mac80211 : viaText sampleEnv.reprC (radiosConv sampleEnv true) (radiosBConv sampleEnv true)
    [("radios", .list [.dict [("name", .str "radio0"), ("driver", .str "madwifi"), ("protocol", .str "802.11n"), ("channel", .int 3), ("channel_width", .int 20)]])] =
    .error .attributeError := by decide +kernel

end NJ
