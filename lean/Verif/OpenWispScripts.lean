import Verif.OpenWisp

/-!
# The scripts of the OpenWISP 1.x archive (netjsonconfig/backends/openwisp/templates/)

The templates are rendered with `trim_blocks` and without `lstrip_blocks` (openwisp.py l.36-42): a line that consists of one tag at its
beginning prints nothing; a tag or comment after white space prints the white space, and takes the line break after it away. The last line break
of a template is dropped. `{{ x.name }}` of a missing key prints nothing.
-/

namespace NJ

/-- the lines of a text that does not end with a line break -/
def joinLines (l : List Chars) : Chars := joinWith ['\n'] l

/-- templates/install.sh l.15-20: the lines for one VPN of layer 2 -/
def installTap (reprC : Val → String) (vpn : VDict) : List Chars :=
  let name := fieldText reprC vpn "name"
  ["echo \"Creating tap ".toList ++ name ++ "\"".toList,
   "openvpn --mktun --dev ".toList ++ name ++ " --dev-type tap".toList,
   "while [ -z \"`grep ".toList ++ name ++ " /proc/net/dev`\" ]; do".toList,
   "  sleep 1".toList,
   "  openvpn --mktun --dev ".toList ++ name ++ " --dev-type tap".toList,
   "done".toList]

/-- templates/install.sh l.34-46: waiting for the address of a bridge -/
def installWait (reprC : Val → String) (bridge : VDict) : List Chars :=
  let name := fieldText reprC bridge "name"
  ["# Waiting for an IP address before starting WiFi configuration:".toList,
   "# For instance if 802.1x is used the IP address to reach the RADIUS server".toList,
   "# could be configured here...".toList,
   "__timeout=10".toList,
   "while [ -z \"$(ip address show dev ".toList ++ name ++ " | grep ".toList ++ fieldText reprC bridge "ip" ++
     ")\" -o $__timeout -le 0 ]; do".toList,
   "  echo \"Waiting for an IP address for bridge ".toList ++ name ++ "\"".toList,
   "  sleep 1".toList,
   "  __timeout=`expr \\( $__timeout - 1 \\)`".toList,
   "  if [ $__timeout -le 0 ]; then".toList,
   "    echo \"Timeout waiting for an IP address on bridge '".toList ++ name ++ "'!\"".toList,
   "    break".toList,
   "  fi".toList,
   "done".toList]

/-- templates/install.sh l.31-47: the lines for one bridge -/
def installBridge (reprC : Val → String) (bridge : VDict) : List Chars :=
  ["echo \"Enabling bridge ".toList ++ fieldText reprC bridge "name" ++ "\"".toList,
   "ifup ".toList ++ fieldText reprC bridge "name"] ++
  (if Dict.get? bridge "proto" = some (.str "static") then installWait reprC bridge else [])

/-- templates/install.sh l.59-63 -/
def installVpns : List Chars :=
  ["# VPNs".toList,
   "echo \"Applying l2 vpn(s) configuration\"".toList,
   "uci -m import openvpn -f $PROGDIR/uci/openvpn.conf".toList,
   "echo \"Enabling l2 vpn(s)\"".toList,
   "/etc/init.d/openvpn start".toList]

/-- templates/install.sh l.71-75 -/
def installCron : List Chars :=
  ["# cron scripts".toList,
   "mkdir -p $PROGDIR/crontabs".toList,
   "rm $PROGDIR/crond.pid >/dev/null 2>&1".toList,
   "echo \"Starting Cron\"".toList,
   "start-stop-daemon -m -p /var/run/openwisp_crond.pid -S -b -x crond -- -f -c $PROGDIR/crontabs/ -l 5".toList]

/-- templates/install.sh l.1-8 -/
def installA : List Chars :=
  ["#!/bin/sh".toList,
   "PROGDIR=$(cd -P -- \"$(dirname $0)\" && pwd -P)".toList,
   [],
   "# Deploy new configuration".toList,
   "echo \"Deploying new configuration\"".toList,
   [],
   "# System".toList,
   "echo \"Changing hostname\"".toList]

/-- templates/install.sh l.10-13 -/
def installB : List Chars :=
  [[],
   "# Networking".toList,
   "echo \"Applying network configuration\"".toList,
   "# VPNs".toList]

/-- templates/install.sh l.22-29 -/
def installC : List Chars :=
  [[],
   "# Network".toList,
   "echo \"Creating bridges\"".toList,
   "uci -m import network -f $PROGDIR/uci/network.conf".toList,
   "# ----------- Openwrt boot-bug workaround".toList,
   "vconfig set_name_type DEV_PLUS_VID_NO_PAD".toList,
   "sleep 5".toList,
   "# ----------- Openwrt boot-bug workaround".toList]

/-- templates/install.sh l.49-53 -/
def installD : List Chars :=
  [[],
   "# Wifi".toList,
   "echo \"Applying wifi configuration\"".toList,
   "uci -m import wireless -f $PROGDIR/uci/wireless.conf".toList,
   "echo \"Enabling wifi\"".toList]

/-- templates/install.sh l.65-69 -/
def installE : List Chars :=
  [[],
   "# Traffic control".toList,
   "echo \"Applying tc configuration\"".toList,
   "$PROGDIR/tc_script.sh start".toList,
   []]

/-- templates/install.sh l.77-78 -/
def installF : List Chars :=
  [[],
   "echo \"New configuration now active\"".toList]

/-- templates/install.sh -/
def installLines (reprC : Val → String) (host : Chars) (taps bridges radios : List VDict) (cron : Bool) : List Chars :=
  installA ++
  ["echo \"".toList ++ host ++ "\" > /proc/sys/kernel/hostname".toList] ++
  installB ++
  taps.flatMap (installTap reprC) ++
  installC ++
  bridges.flatMap (installBridge reprC) ++
  installD ++
  radios.map (fun r => "wifi up ".toList ++ fieldText reprC r "name") ++
  [[]] ++
  (if taps.isEmpty then [] else installVpns) ++
  installE ++
  (if cron then installCron else []) ++
  installF

/-- templates/uninstall.sh l.16-17: the lines for one VPN of layer 2 -/
def uninstallTap (reprC : Val → String) (vpn : VDict) : List Chars :=
  ["echo \"Removing tap ".toList ++ fieldText reprC vpn "name" ++ "\"".toList,
   "openvpn --rmtun --dev ".toList ++ fieldText reprC vpn "name" ++ " --dev-type tap".toList]

/-- templates/uninstall.sh l.28-31 -/
def uninstallCron : List Chars :=
  ["echo \"Stopping Cron\"".toList,
   "start-stop-daemon -p /var/run/openwisp_crond.pid -K".toList,
   "rm -rf  $PROGDIR/crontabs/".toList,
   "rm /var/run/openwisp_crond.pid".toList]

/-- templates/uninstall.sh l.1-14 -/
def uninstallA : List Chars :=
  ["#!/bin/sh".toList,
   [],
   "PROGDIR=$(cd -P -- \"$(dirname $0)\" && pwd -P)".toList,
   [],
   "# Disable traffic control".toList,
   "echo \"Removing tc configuration\"".toList,
   "$PROGDIR/tc_script.sh stop".toList,
   [],
   "# VPNs".toList,
   "echo \"Stopping l2 vpn and removing their configuration\"".toList,
   ("uci changes openvpn | grep \"='openvpn\" | cut -d'.' -f2 | cut -d'=' -f1 | awk '{print \"/var/run/openvpn-\"$1\".pid\"}' " ++
     "| xargs cat | xargs kill").toList,
   "uci changes openvpn | grep \"='openvpn\" | cut -d'.' -f2 | cut -d'=' -f1 | awk '{\"rm /var/run/openvpn-\"$1\".pid\"|getline;print}'".toList,
   "uci revert openvpn".toList,
   []]

/-- templates/uninstall.sh l.19-26 -/
def uninstallB : List Chars :=
  [[],
   "uci revert wireless".toList,
   "uci revert network".toList,
   [],
   "echo \"Restoring original wifi and network configurations\"".toList,
   "/etc/init.d/network restart".toList,
   "wifi".toList,
   []]

/-- templates/uninstall.sh l.33-34 -/
def uninstallC : List Chars :=
  [[],
   "echo \"Configuration un-installed\"".toList]

/-- templates/uninstall.sh -/
def uninstallLines (reprC : Val → String) (taps : List VDict) (cron : Bool) : List Chars :=
  uninstallA ++ taps.flatMap (uninstallTap reprC) ++ uninstallB ++ (if cron then uninstallCron else []) ++ uninstallC

/-- the list `k` of a context, iterated by a template: every entry is a dictionary. Simplification: anything else (refused by the schema) is a
`TypeError`; Jinja would print nothing for the keys of an entry that is no dictionary. -/
def ctxList (ctx : VDict) (k : String) : Except PyErr (List VDict) :=
  match Dict.get? ctx k with
  | none => .ok []
  | some (.list l) => l.mapM (fun v => match v with | .dict d => .ok d | _ => .error .typeError)
  | some _ => .error .typeError

/-- openwisp.py l.89-98 and templates/install.sh, from its context -/
def installText (reprC : Val → String) (ctx : VDict) : Except PyErr Chars := do
  let taps ← ctxList ctx "l2vpn"
  let bridges ← ctxList ctx "bridges"
  let radios ← ctxList ctx "radios"
  pure (joinLines (installLines reprC (fieldText reprC ctx "hostname") taps bridges radios (isGiven ctx "cron")))

/-- openwisp.py l.100-109 and templates/uninstall.sh, from its context -/
def uninstallText (reprC : Val → String) (ctx : VDict) : Except PyErr Chars := do
  let taps ← ctxList ctx "l2vpn"
  pure (joinLines (uninstallLines reprC taps (isGiven ctx "cron")))

/-- templates/vpn_script_up.sh -/
def upText : Chars := joinLines ["#!/bin/sh".toList, [], "rm -f /tmp/will_reboot".toList]

/-- templates/vpn_script_down.sh -/
def downText : Chars := joinLines
  ["#!/bin/sh".toList,
   "# When openvpn lost connection restart AP, after config time".toList,
   "# This will place the AP in safemode".toList,
   "REBOOT_ENABLE=`uci -q get owispmanager.vpn_fail.reboot_enabled || echo 0`".toList,
   "REBOOT_DELAY=`uci -q get owispmanager.vpn_fail.reboot_delay || echo 180`".toList,
   "if [ \"$REBOOT_ENABLE\" -eq \"1\" ]; then".toList,
   "  touch /tmp/will_reboot".toList,
   "  sleep $REBOOT_DELAY".toList,
   "  if [ -f /tmp/will_reboot ]; then".toList,
   "    reboot".toList,
   "  fi".toList,
   "fi".toList,
   "return 0".toList]

/-! ## Traffic control -/

/-- `interface.output_bandwidth`, if it is given and not 0. Simplification: what is given and is no whole number (refused by the schema) is a
`TypeError`, as it is for texts. -/
def tcBand (i : VDict) (k : String) : Except PyErr (Option Int) :=
  if isGiven i k then
    match Dict.get? i k with
    | some (.int n) => .ok (some n)
    | _ => .error .typeError
  else .ok none

/-- `(X / 2)|round|int`: to the next whole number, from the middle to the even one. Simplification: `X / 2` is exact below 2^53. -/
def halfRound (x : Int) : Int := if x % 2 = 0 then x / 2 else if (x / 2) % 2 = 0 then x / 2 else x / 2 + 1

/-- an entry of the tc options: name, output and input bandwidth -/
structure TcEntry where
  name : Chars
  output : Option Int
  input : Option Int

def tcEntry (reprC : Val → String) (i : VDict) : Except PyErr TcEntry := do
  let o ← tcBand i "output_bandwidth"
  let n ← tcBand i "input_bandwidth"
  pure ⟨fieldText reprC i "name", o, n⟩

/-- templates/tc_script.sh l.1-42 -/
def tcHead : List Chars :=
  ["#!/bin/sh /etc/rc.common".toList,
   [],
   "KERNEL_VERSION=`uname -r`".toList,
   ("KERNEL_MODULES=\"sch_htb sch_prio sch_sfq cls_fw sch_dsmark sch_ingress sch_tbf sch_red sch_hfsc act_police cls_tcindex " ++
     "cls_flow cls_route cls_u32\"").toList,
   "KERNEL_MPATH=/lib/modules/$KERNEL_VERSION/".toList,
   [],
   "TC_COMMAND=/usr/sbin/tc".toList,
   [],
   "check_prereq() {".toList,
   "    echo \"Checking prerequisites...\"".toList,
   [],
   "    echo \"Checking kernel modules...\"".toList,
   "    for kmod in $KERNEL_MODULES; do".toList,
   "    if [ ! -f $KERNEL_MPATH/$kmod.ko ]; then".toList,
   "        echo \"Prerequisite error: can't find kernel module '$kmod' in '$KERNEL_MPATH'\"".toList,
   "        exit 1".toList,
   "    fi".toList,
   "    done".toList,
   [],
   "    echo \"Checking tc tool...\"".toList,
   "    if [ ! -x $TC_COMMAND ]; then".toList,
   "        echo \"Prerequisite error: can't find traffic control tool ($TC_COMMAND)\"".toList,
   "        exit 1".toList,
   "    fi".toList,
   [],
   "    echo \"Prerequisites satisfied.\"".toList,
   "}".toList,
   [],
   "load_modules() {".toList,
   "    for kmod in $KERNEL_MODULES; do".toList,
   "        insmod $KERNEL_MPATH/$kmod.ko  >/dev/null 2>&1".toList,
   "    done".toList,
   "}".toList,
   [],
   "unload_modules() {".toList,
   "    for kmod in $KERNEL_MODULES; do".toList,
   "        rmmod $kmod  >/dev/null 2>&1".toList,
   "    done".toList,
   "}".toList,
   [],
   [],
   "stop() {".toList]

/-- every line with its line break -/
def fullLines (l : List Chars) : Chars := l.flatMap (fun x => x ++ ['\n'])

/-- templates/tc_script.sh l.44-53: one interface in `stop()` -/
def tcStop (e : TcEntry) : Chars :=
  sp 4 ++ (if e.output.isSome then fullLines [[], "    tc qdisc del dev ".toList ++ e.name ++ " root".toList, []] ++ sp 4 else []) ++
  sp 4 ++ (if e.input.isSome then fullLines [[], "    tc qdisc del dev ".toList ++ e.name ++ " ingress".toList, []] ++ sp 4 else [])

/-- templates/tc_script.sh l.55-62 -/
def tcMiddle : List Chars :=
  [[],
   "    unload_modules".toList,
   "}".toList,
   [],
   "start() {".toList,
   "    check_prereq".toList,
   "    load_modules".toList,
   []]

/-- templates/tc_script.sh l.66-80: shaping of the output of one interface. `burst X` is `(0.187 * X)|round|int` (a parameter: the product is a
floating point number). -/
def tcOutput (burst : Int → Int) (name : Chars) (o : Int) : List Chars :=
    ["    # shaping output traffic for ".toList ++ name,
     "    # creating parent qdisc for root".toList,
     "    tc qdisc add dev ".toList ++ name ++ " root handle 1: htb default 2".toList,
     [],
     "    # aggregated traffic shaping parent class".toList,
     sp 8,
     "    tc class add dev ".toList ++ name ++ " parent 1 classid 1:1 htb rate ".toList ++ showInt o ++ "kbit burst ".toList ++
       showInt (burst o) ++ "k".toList,
     [],
     sp 4,
     "    # default traffic shaping class".toList,
     "    tc class add dev ".toList ++ name ++ " parent 1:1 classid 1:2 htb rate ".toList ++ showInt (halfRound o) ++
       "kbit ceil ".toList ++ showInt o ++ "kbit".toList,
     []]

/-- templates/tc_script.sh l.90-97: policing of the input of one interface -/
def tcInput (burst : Int → Int) (name : Chars) (n : Int) : List Chars :=
    ["    # policing input traffic for ".toList ++ name,
     "    # creating parent qdisc for ingress".toList,
     "    tc qdisc add dev ".toList ++ name ++ " ingress".toList,
     [],
     sp 4,
     "    # default policer with lowest preference (last checked)".toList,
     "    tc filter add dev ".toList ++ name ++ " parent ffff: preference 0 u32 match u32 0x0 0x0 police rate ".toList ++
       showInt n ++ "kbit burst ".toList ++ showInt (burst n) ++ "k drop flowid :1".toList]

/-- templates/tc_script.sh l.64-102: one interface in `start()` -/
def tcStart (burst : Int → Int) (e : TcEntry) : Chars :=
  sp 4 ++ (match e.output with | some o => fullLines ([] :: tcOutput burst e.name o) ++ sp 8 | none => []) ++
  sp 4 ++ (match e.input with | some n => fullLines ([] :: tcInput burst e.name n) ++ sp 8 | none => [])

/-- templates/tc_script.sh l.104-114 -/
def tcTail : List Chars :=
  [[],
   "}".toList,
   [],
   "boot() {".toList,
   "    start".toList,
   "}".toList,
   [],
   "restart() {".toList,
   "    stop".toList,
   "    start".toList,
   "}".toList]

/-- templates/tc_script.sh -/
def tcLines (burst : Int → Int) (es : List TcEntry) : Chars :=
  fullLines tcHead ++ es.flatMap tcStop ++ fullLines tcMiddle ++ es.flatMap (tcStart burst) ++ joinLines tcTail

/-- openwisp.py l.141-153 `_add_tc_script` and templates/tc_script.sh, from its context -/
def tcText (reprC : Val → String) (burst : Int → Int) (ctx : VDict) : Except PyErr Chars := do
  let is ← ctxList ctx "tc_options"
  let es ← is.mapM (tcEntry reprC)
  pure (tcLines burst es)

/-- the scripts of the templates -/
def owScripts (reprC : Val → String) (burst : Int → Int) : OwScripts where
  install := installText reprC
  uninstall := uninstallText reprC
  up := upText
  down := downText
  tc := tcText reprC burst

end NJ
