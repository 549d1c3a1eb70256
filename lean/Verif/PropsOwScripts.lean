import Verif.OpenWispScripts
import Verif.PropsOwContext

/-!
# C86: what the scripts of the OpenWisp archive do

The scripts are read here line by line, as the shell on the device does: `named a b text` are the words `w` for which `text` has a line that
reads `a`, `w`, `b`.
-/

namespace NJ

/-! ## Specification -/

/-- the lines of a script -/
def linesOf (t : Chars) : List Chars := splitOn '\n' t

/-- what stands between `a` and `b` on a line -/
def between (a b line : Chars) : Option Chars :=
  if a <+: line ∧ b <:+ line.drop a.length then some ((line.drop a.length).take ((line.drop a.length).length - b.length)) else none

/-- the words between `a` and `b` on the lines of a script, from top to bottom -/
def named (a b : String) (t : Chars) : List Chars := (linesOf t).filterMap (between a.toList b.toList)

/-- a line of the script begins with `a` -/
def Calls (a : String) (t : Chars) : Prop := ∃ l ∈ linesOf t, a.toList <+: l

/-- the names of the entries -/
def entryNames (reprC : Val → String) (l : List VDict) : List Chars := l.map (fun e => fieldText reprC e "name")

/-- the VPNs of layer 2, the bridges, and the interfaces whose bandwidth `k` is limited -/
def tapsOf (config : VDict) : List VDict := (entriesOf config "openvpn").filter (fun v => decide (Dict.get? v "dev_type" = some (.str "tap")))
def bridgesOf (config : VDict) : List VDict := (entriesOf config "interfaces").filter (fun v => decide (Dict.get? v "type" = some (.str "bridge")))
def limitedBy (k : String) (config : VDict) : List VDict := (entriesOf config "tc_options").filter (fun i => isGiven i k)

/-- no name, no address of an interface, and not the hostname contains a line break -/
structure OneLine (reprC : Val → String) (config : VDict) : Prop where
  names : ∀ k ∈ ["openvpn", "interfaces", "radios", "tc_options"], ∀ e ∈ entriesOf config k, '\n' ∉ fieldText reprC e "name"
  addresses : ∀ e ∈ entriesOf config "interfaces", ∀ a ∈ entriesOf e "addresses", '\n' ∉ fieldText reprC a "address"
  bridgeIp : ∀ e ∈ entriesOf config "interfaces", '\n' ∉ fieldText reprC e "ip"
  hostname : '\n' ∉ (pyStr reprC (hostSpec config)).toList

/-- what install.sh does -/
structure Installs (reprC : Val → String) (config : VDict) (t : Chars) : Prop where
  /-- the hostname is set, once -/
  hostname : named "echo \"" "\" > /proc/sys/kernel/hostname" t = [(pyStr reprC (hostSpec config)).toList]
  /-- a tap device is created for every VPN of layer 2, in order, and for nothing else -/
  taps : named "openvpn --mktun --dev " " --dev-type tap" t = entryNames reprC (tapsOf config)
  /-- every bridge is brought up, in order, and nothing else -/
  bridges : named "ifup " "" t = entryNames reprC (bridgesOf config)
  /-- every radio is brought up -/
  radios : named "wifi up " "" t = entryNames reprC (entriesOf config "radios")
  /-- the daemon of OpenVPN is started exactly when there are VPNs of layer 2 -/
  openvpn : Calls "/etc/init.d/openvpn start" t ↔ tapsOf config ≠ []
  /-- cron is started exactly when there are files for it -/
  cron : Calls "start-stop-daemon -m -p /var/run/openwisp_crond.pid" t ↔ ∃ f ∈ entriesOf config "files", IsCron f
  /-- every loop is closed -/
  loops : (named "while " "; do" t).length = (named "done" "" t).length

/-- what uninstall.sh does -/
structure Uninstalls (reprC : Val → String) (config : VDict) (t : Chars) : Prop where
  /-- the tap devices of the VPNs are removed -/
  taps : named "openvpn --rmtun --dev " " --dev-type tap" t = entryNames reprC (tapsOf config)
  /-- cron is stopped exactly when there are files for it -/
  cron : Calls "start-stop-daemon -p /var/run/openwisp_crond.pid -K" t ↔ ∃ f ∈ entriesOf config "files", IsCron f

/-- a text for a whole number -/
def number (n : Int) : Chars := showInt n

/-- what tc_script.sh does: start() limits what stop() frees -/
structure Limits (reprC : Val → String) (burst : Int → Int) (config : VDict) (t : Chars) : Prop where
  output : named "    tc qdisc add dev " " root handle 1: htb default 2" t = entryNames reprC (limitedBy "output_bandwidth" config)
  outputFreed : named "    tc qdisc del dev " " root" t = entryNames reprC (limitedBy "output_bandwidth" config)
  input : named "    tc qdisc add dev " " ingress" t = entryNames reprC (limitedBy "input_bandwidth" config)
  inputFreed : named "    tc qdisc del dev " " ingress" t = entryNames reprC (limitedBy "input_bandwidth" config)
  /-- the rates are those of the configuration -/
  outputRate : ∃ ns : List Int, (limitedBy "output_bandwidth" config).map (fun i => Dict.get? i "output_bandwidth") = ns.map (fun n => some (.int n)) ∧
    named "    tc class add dev " "k" t = List.zipWith (fun i n => fieldText reprC i "name" ++ " parent 1 classid 1:1 htb rate ".toList ++ number n ++
      "kbit burst ".toList ++ number (burst n)) (limitedBy "output_bandwidth" config) ns
  inputRate : ∃ ns : List Int, (limitedBy "input_bandwidth" config).map (fun i => Dict.get? i "input_bandwidth") = ns.map (fun n => some (.int n)) ∧
    named "    tc filter add dev " "k drop flowid :1" t = List.zipWith (fun i n => fieldText reprC i "name" ++
      " parent ffff: preference 0 u32 match u32 0x0 0x0 police rate ".toList ++ number n ++ "kbit burst ".toList ++ number (burst n))
      (limitedBy "input_bandwidth" config) ns

/-! ## Reading lines -/

theorem between_self (a b w : Chars) : between a b (a ++ w ++ b) = some w := by
  unfold between
  rw [List.append_assoc, List.drop_left, if_pos ⟨List.prefix_append _ _, List.suffix_append _ _⟩]
  simp

theorem between_self' (a w : Chars) : between a "".toList (a ++ w) = some w := by
  have := between_self a [] w
  rw [List.append_nil] at this
  exact this

theorem between_mid (a b p s y : Chars) : between a b ((a ++ p) ++ y ++ (s ++ b)) = some (p ++ y ++ s) := by
  have := between_self a b (p ++ y ++ s)
  simp only [List.append_assoc] at this ⊢
  exact this

/-- two texts differ at some place -/
def clash : Chars → Chars → Bool
  | a :: as, b :: bs => a != b || clash as bs
  | _, _ => false

theorem clash_prefix {a x : Chars} (h : clash a x = true) (y : Chars) : ¬ a <+: x ++ y := by
  induction a generalizing x with
  | nil => cases x <;> cases h
  | cons c cs ih =>
    cases x with
    | nil => cases h
    | cons d ds =>
      intro hp
      rw [List.cons_append, List.cons_prefix_cons] at hp
      obtain ⟨rfl, hp⟩ := hp
      have : clash cs ds = true := by simpa [clash] using h
      exact ih this hp

/-- a line that begins otherwise -/
theorem between_other {a b x : Chars} (h : clash a x = true) (y : Chars) : between a b (x ++ y) = none := by
  unfold between
  rw [if_neg (fun hp => clash_prefix h y hp.1)]

/-- a line that ends otherwise -/
theorem between_end {a b y : Chars} (h : clash b.reverse y.reverse = true) (x : Chars) : between a b (x ++ y) = none := by
  unfold between
  refine if_neg (fun hp => ?_)
  have h2 : b <:+ x ++ y := hp.2.trans (List.drop_suffix _ _)
  have h3 := List.reverse_prefix.2 h2
  rw [List.reverse_append] at h3
  exact clash_prefix h _ h3

theorem calls_iff (a : String) (t : Chars) : Calls a t ↔ named a "" t ≠ [] := by
  unfold Calls named
  constructor
  · rintro ⟨l, hl, hp⟩ he
    obtain ⟨y, rfl⟩ := hp
    have := (List.filterMap_eq_nil_iff.1 he) _ hl
    rw [between_self'] at this
    cases this
  · intro h
    cases hs : List.filterMap (between a.toList "".toList) (linesOf t) with
    | nil => exact absurd hs h
    | cons w ws =>
      have hw : w ∈ List.filterMap (between a.toList "".toList) (linesOf t) := by rw [hs]; exact List.mem_cons_self
      obtain ⟨l, hl, hb⟩ := List.mem_filterMap.1 hw
      refine ⟨l, hl, ?_⟩
      unfold between at hb
      split at hb
      · rename_i h2; exact h2.1
      · cases hb

theorem named_lines {l : List Chars} (hne : l ≠ []) (h : ∀ x ∈ l, '\n' ∉ x) (a b : String) :
    named a b (joinLines l) = l.filterMap (between a.toList b.toList) := by
  unfold named linesOf joinLines
  rw [splitOn_joinWith l hne h]

theorem filterMap_flatMap' {α β γ : Type} (f : β → Option γ) (g : α → List β) (l : List α) :
    (l.flatMap g).filterMap f = l.flatMap (fun a => (g a).filterMap f) := by
  induction l with
  | nil => rfl
  | cons x xs ih => rw [List.flatMap_cons, List.filterMap_append, ih, List.flatMap_cons]

theorem flatMap_single {α β : Type} (f : α → β) (l : List α) : l.flatMap (fun a => [f a]) = l.map f := by
  induction l with
  | nil => rfl
  | cons x xs ih => rw [List.flatMap_cons, ih]; rfl

theorem flatMap_none {α β : Type} (l : List α) : l.flatMap (fun _ => ([] : List β)) = [] := by
  induction l with
  | nil => rfl
  | cons x xs ih => rw [List.flatMap_cons, ih]; rfl

end NJ
