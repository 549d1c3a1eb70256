import Verif.ZeroTier
import Verif.OpenWrtChecks
import Verif.Wireless
import Verif.Radio
import Verif.OpenVpn
import Verif.Uci

/-!
# The OpenWrt backend (netjsonconfig/backends/openwrt/openwrt.py)

The class whose converters, renderer, parser and checks are those of the other modules. What stays a parameter: the
environment (`Env`: text of non-text values, upper and lower case, the time zone tables, IPv6 addresses), the JSON
Schema validator, `json.loads`, and the identity test of merges.
-/

namespace NJ

/-- openwrt/schema.py: the keys of `schema["properties"]`, ignored by the default converter -/
def knownKeys : List String :=
  ["general", "interfaces", "radios", "dns_servers", "dns_search", "routes", "files", "ip_rules", "ntp", "switch", "led",
   "wireguard_peers", "zerotier", "openvpn"]

/-- openwrt.py l.20-34, forward -/
def openwrtConvs (env : Env) (sh : Val → Bool) (dsa : Bool) : List Conv :=
  [generalConv env, ntpConv, ledConv env, ifacesConv sh env dsa, routesConv env, rulesConv env, switchConv env,
   radiosConv env dsa, wirelessConv env dsa, uciVpnConv env, peersConv, ztConv env, defaultConv env knownKeys]

/-- openwrt.py l.20-34, backward -/
def openwrtBConvs (env : Env) (dsa : Bool) : List BConv :=
  [generalBConv env, ntpBConv, ledBConv env, ifacesBConv env dsa, routesBConv env, rulesBConv, switchBConv env,
   radiosBConv env dsa, wirelessBConv env dsa, uciVpnBConv, peersBConv, ztBConv, defaultBConv env]

/-- openwrt.py l.14-98 -/
def openwrtClass (env : Env) (schema : VDict → Except PyErr Unit) (sh : Val → Bool) (loads : Chars → Option Val) (dsa : Bool) :
    Class where
  pre := validateRadios
  schema := schema
  post := validatePvid
  convs := openwrtConvs env sh dsa
  bconvs := openwrtBConvs env dsa
  native := uciNative env.reprC
  split := uciSplit
  ids := ["name", "config_value", "id"]
  sh := sh
  reprC := env.reprC
  loads := loads
  parser := some parseUci

end NJ
