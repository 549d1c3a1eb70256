import Verif.Conv

/-!
# Radios (openwrt/converters/radios.py, channels.py, openwrt.py `_validate_radios`)
-/

namespace NJ

/-- channels.py l.5 -/
def channels2ghz : List Int := (List.range 14).map Int.ofNat
/-- `range(a, b, 4)` with `n` elements -/
def every4 (a n : Nat) : List Int := (List.range n).map (fun i => Int.ofNat (a + 4 * i))
/-- channels.py l.6-9 with the 0 inserted at l.11 -/
def channels5ghz : List Int := 0 :: every4 36 8 ++ every4 100 12 ++ every4 149 8
/-- channels.py l.12 -/
def channels6ghz : List Int := every4 37 8 ++ every4 101 12

/-- `value in list` for a list of integers -/
def inInts (v : Val) (l : List Int) : Bool := l.any (fun i => Val.pyEq v (.int i))

/-- `value in list` for a list of texts -/
def inTexts (v : Val) (l : List String) : Bool := l.any (fun s => decide (v = .str s))

/-- radios.py l.78-85 `__intermediate_band_from_hwmode` -/
def bandFromHwmode (hwmode : Val) : Val :=
  if hwmode = .str "11a" then .str "5g" else if inTexts hwmode ["11b", "11g"] then .str "2g" else .none

/-- radios.py l.57-76: the value of the band -/
def bandValue (hwmode band channel protocol : Val) : Val :=
  if band.truthy then band
  else if hwmode.truthy then bandFromHwmode hwmode
  else if protocol = .str "802.11ad" then .str "60g"
  else if inTexts protocol ["802.11b", "802.11g"] then .str "2g"
  else if inTexts protocol ["802.11a", "802.11ac"] then .str "5g"
  else if inInts channel channels2ghz then .str "2g"
  else if inInts channel channels5ghz then .str "5g"
  else if inInts channel channels6ghz then .str "6g"
  else .none

/-- radios.py l.44-76 `__intermediate_band`: the band; `hwmode` and `band` are removed from the radio -/
def radioBand (radio : VDict) : Val × VDict :=
  let (hwmode, r) := popOr radio "hwmode" .none
  let (band, r) := popOr r "band" .none
  (bandValue hwmode band ((Dict.get? r "channel").getD .none) ((Dict.get? r "protocol").getD .none), r)

/-- `v <= n` -/
def leInt (v : Val) (n : Int) : Except PyErr Bool :=
  match v with
  | .int i => .ok (decide (i ≤ n))
  | .bool b => .ok (decide ((if b then 1 else 0) ≤ n))
  | _ => .error .typeError

/-- radios.py l.109-124: from the protocol and the channel -/
def hwmodeFromProtocol (r : VDict) : Except PyErr Val := do
  let protocol ← getKey r "protocol"
  match protocol with
  | .str "802.11a" => pure (.str "11a")
  | .str "802.11b" => pure (.str "11b")
  | .str "802.11g" => pure (.str "11g")
  | .str "802.11ac" => pure (.str "11a")
  | _ => do
    let channel ← getKey r "channel"
    if Val.pyEq channel (.int 0) then pure .none
    else do
      let low ← leInt channel 13
      pure (if low then .str "11g" else .str "11a")

/-- radios.py l.87-124 `__intermediate_hwmode` -/
def radioHwmode (radio : VDict) : Except PyErr (Val × VDict) := do
  let (hwmode, r) := popOr radio "hwmode" .none
  let (band, r) := popOr r "band" .none
  if hwmode.truthy then pure (hwmode, r)
  else if band.truthy && decide (band = .str "2g") then do
    let protocol ← getKey r "protocol"
    pure (if protocol = .str "802.11b" then .str "11b" else .str "11g", r)
  else if band.truthy && decide (band = .str "5g") then pure (.str "11a", r)
  else do
    let h ← hwmodeFromProtocol r
    pure (h, r)

/-- radios.py l.38-42 `__set_intermediate_band` -/
def setBand (dsa : Bool) (radio : VDict) : Except PyErr VDict :=
  if dsa then
    let (band, r) := radioBand radio
    .ok (Dict.set r "band" band)
  else do
    let (hwmode, r) ← radioHwmode radio
    pure (Dict.set r "hwmode" hwmode)

/-- radios.py l.126-142 `__intermediate_htmode` and the assignment of its result -/
def setHtmode (env : Env) (radio : VDict) : Except PyErr VDict := do
  let (protocol, r) ← popKey radio "protocol"
  let (width, r) ← popKey r "channel_width"
  match Dict.get? r "htmode" with
  | some h => pure (Dict.set r "htmode" h)
  | none =>
    let w := (pyStr env.reprC width).toList
    pure (Dict.set r "htmode" (
      if protocol = .str "802.11n" then txt ("HT".toList ++ w)
      else if protocol = .str "802.11ac" then txt ("VHT".toList ++ w)
      else if protocol = .str "802.11ax" then txt ("HE".toList ++ w)
      else .str "NONE"))

/-- radios.py l.19-21: rename tx_power to txpower -/
def renameTxPower (r : VDict) : VDict :=
  match Dict.get? r "tx_power" with
  | some p => Dict.set (Dict.erase r "tx_power") "txpower" p
  | none => r

/-- radios.py l.25-27: channel 0 is automatic -/
def autoChannel (r : VDict) : Except PyErr VDict := do
  let channel ← getKey r "channel"
  pure (if Val.pyEq channel (.int 0) then Dict.set r "channel" (.str "auto") else r)

/-- radios.py l.28-32 -/
def radioWidth (env : Env) (r : VDict) : Except PyErr VDict := do
  let ty ← getKey r "type"
  if ty = .str "mac80211" then setHtmode env r
  else do
    let (_, r) ← popKey r "protocol"
    pure r

/-- radios.py l.33-35 -/
def upperCountry (env : Env) (r : VDict) : Except PyErr VDict :=
  match Dict.get? r "country" with
  | some c => do
    let c ← asText c
    pure (Dict.set r "country" (txt (env.upper c)))
  | none => .ok r

/-- radios.py l.17-36 `__intermediate_radio` -/
def radioBlock (env : Env) (dsa : Bool) (radio : VDict) : Except PyErr VDict := do
  let (name, r) ← popKey radio "name"
  let r := renameTxPower (Dict.update r [(".type", .str "wifi-device"), (".name", name)])
  let (driver, r) := popOr r "driver" (.str "mac80211")
  let r ← setBand dsa (Dict.set r "type" driver)
  let r ← autoChannel r
  let r ← radioWidth env r
  let r ← upperCountry env r
  pure (sortedDict r)

/-- radios.py l.11-14 `to_intermediate_loop` -/
def radioFwd (env : Env) (dsa : Bool) (_ : Option Nat) (block : Val) (result : VDict) : Except PyErr VDict := do
  let d ← asDict block
  let b ← radioBlock env dsa d
  pure (appendTo result "wireless" [.dict b])

/-- `int(v)` -/
def intOf : Val → Except PyErr Val
  | .int i => .ok (.int i)
  | .bool b => .ok (.int (if b then 1 else 0))
  | v => pyInt v

/-- `"802.{0}".format(hwmode)` -/
def protocolOfHwmode (env : Env) (hwmode : Val) : Val := txt ("802.".toList ++ (pyStr env.reprC hwmode).toList)

/-- radios.py l.163-181 `__netjson_protocol` -/
def protocolBack (env : Env) (dsa : Bool) (radio : VDict) : Except PyErr Val := do
  let htmode ← asText ((Dict.get? radio "htmode").getD .none)
  if "HT".toList.isPrefixOf htmode then pure (.str "802.11n")
  else if "VHT".toList.isPrefixOf htmode then pure (.str "802.11ac")
  else if "HE".toList.isPrefixOf htmode then pure (.str "802.11ax")
  else if htmode = "NONE".toList then
    let band := (Dict.get? radio "band").getD .none
    if dsa && band.truthy then
      (if band = .str "2g" then pure (.str "802.11g") else if band = .str "5g" then pure (.str "802.11a")
        else if band = .str "60g" then pure (.str "802.11ad") else .error .keyError)
    else pure (protocolOfHwmode env ((Dict.get? radio "hwmode").getD .none))
  else pure .none

/-- radios.py l.183-192 `__netjson_channel` and the assignment of its result -/
def channelBack (radio : VDict) : Except PyErr VDict := do
  let channel ← getKey radio "channel"
  if channel = .str "auto" then pure (Dict.set radio "channel" (.int 0))
  else do
    let i ← intOf channel
    pure (Dict.set (Dict.erase radio "hwmode") "channel" i)

/-- radios.py l.194-206 `__netjson_channel_width` and the assignment of its result -/
def widthBack (radio : VDict) : Except PyErr VDict := do
  let (htmode, r) ← popKey radio "htmode"
  if htmode = .str "NONE" then pure (Dict.set r "channel_width" (.int 20))
  else do
    let h ← asText htmode
    let w := replaceAll "HE".toList [] (replaceAll "HT".toList [] (replaceAll "VHT".toList [] h))
    if w.contains '+' || w.contains '-' then do
      let i ← pyInt (txt w.dropLast)
      pure (Dict.set (Dict.set r "htmode" htmode) "channel_width" i)
    else do
      let i ← pyInt (txt w)
      pure (Dict.set r "channel_width" i)

/-- radios.py l.153-154 -/
def txPowerBack (r : VDict) : Except PyErr VDict :=
  match Dict.get? r "txpower" with
  | some p => do
    let i ← intOf p
    pure (Dict.set (Dict.erase r "txpower") "tx_power" i)
  | none => .ok r

/-- radios.py l.156-157 -/
def disabledBack (r : VDict) : VDict :=
  match Dict.get? r "disabled" with
  | some v => Dict.set r "disabled" (.bool (decide (v = .str "1")))
  | none => r

/-- radios.py l.150-161 `__netjson_radio` -/
def netjsonRadio (env : Env) (dsa : Bool) (radio : VDict) : Except PyErr VDict := do
  let (_, r) ← popKey radio ".type"
  let (name, r) ← popKey r ".name"
  let r ← txPowerBack (Dict.set r "name" name)
  let (driver, r) ← popKey r "type"
  let r := disabledBack (Dict.set r "driver" driver)
  let protocol ← protocolBack env dsa r
  let r ← channelBack (Dict.set r "protocol" protocol)
  widthBack r

/-- radios.py l.144-148 `to_netjson_loop` -/
def radioBack (env : Env) (dsa : Bool) (_ : Nat) (block : VDict) (result : VDict) : Except PyErr VDict := do
  let r ← netjsonRadio env dsa block
  pure (appendTo result "radios" [.dict r])

def radiosConv (env : Env) (dsa : Bool) : Conv := pureConv "radios" (fun config _ => fwd "radios" (radioFwd env dsa) config)
def radiosBConv (env : Env) (dsa : Bool) : BConv := bwdSimple "wireless" (some ["wifi-device"]) (radioBack env dsa)

/-! ## openwrt.py -/

/-- openwrt.py l.181-192: one radio; `true` when the check raises the error about the channel -/
def radioRefused (radio : VDict) : Except PyErr Bool := do
  let protocol ← getKey radio "protocol"
  pure (inTexts protocol ["802.11n", "802.11ax"] && decide ((Dict.get? radio "band").getD .none = .none) &&
    decide ((Dict.get? radio "hwmode").getD .none = .none) && Val.pyEq ((Dict.get? radio "channel").getD .none) (.int 0))

end NJ
