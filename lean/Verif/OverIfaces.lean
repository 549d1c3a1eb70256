import Verif.OverConv

/-!
# The interfaces converter writes only what it was given, and plain characters
-/

namespace NJ

set_option linter.unusedVariables false
variable {A : Char → Prop} {env : Env}

@[over_rule] theorem over_moveOption {p : VDict × VDict} {k : String} (h0 : Over A p) (h1 : Over A k) : Over A (moveOption p k) := by
  unfold moveOption
  have h := over_get? (k := k) (over_snd h0)
  generalize Dict.get? p.2 k = o at h
  cases o with
  | none => exact h0
  | some v => exact over_mk.2 ⟨over_set h0.1 h1 (over_some.1 h), over_erase h0.2⟩

theorem over_moves (hA : Wide A env) {l : List String} {p : VDict × VDict} (hl : Over A l) (h0 : Over A p) : Over A (l.foldl moveOption p) :=
  over_foldl hl h0 fun _ _ hb ha => over_moveOption hb ha

@[over_rule] theorem over_addL2 (hA : Wide A env) {d e : VDict} (h0 : Over A d) (h1 : Over A e) : Over A (addL2 d e) := by
  unfold addL2
  have h := over_moves hA (l := l2Options) (over_lits hA.plain (by decide +kernel)) (over_mk.2 ⟨h0, h1⟩)
  generalize l2Options.foldl moveOption (d, e) = p at h
  exact over_ite (over_moveOption h (over_lit hA.plain (by decide +kernel))) h

@[over_rule] theorem over_checkBridgeVlan (hA : Wide A env) (b : Bool) {l : List Val} {d : VDict} (h0 : Over A d) : Over A (checkBridgeVlan b l d) := by
  unfold checkBridgeVlan
  have h1 : Over A ((Dict.get? d "ifname").getD (.str "")) := by over
  have h2 := over_addL2 hA (over_nil (α := String × Val)) h0
  generalize (Dict.get? d "ifname").getD (.str "") = x at h1
  generalize addL2 [] d = y at h2
  over

@[over_rule] theorem over_ifaceBlock (hA : Wide A env) (b : Bool) {l : List Val} {u : Chars} {d : VDict} (h0 : Over A u) (h1 : Over A d) :
    Over A (ifaceBlock env b l u d) := by
  unfold ifaceBlock
  dsimp only
  over

@[over_rule] theorem over_addOption {d e : VDict} {o : String} (h0 : Over A d) (h1 : Over A e) (h2 : Over A o) : Over A (addOption d e o) := by
  unfold addOption
  have h := over_get? (k := o) h0
  generalize Dict.get? d o = x at h
  cases x with
  | none => exact h1
  | some v => exact over_ite (over_set h1 h2 (over_some.1 h)) h1

@[over_rule] theorem over_addOptions {d e : VDict} {p : String} {l : List String} (h0 : Over A d) (h1 : Over A e) (h2 : Over A p) (h3 : Over A l) :
    Over A (addOptions p l d e) := by
  unfold addOptions
  exact over_ite (over_foldl h3 (over_set h0 h2 over_vbool) fun _ _ hb ha => over_addOption h1 hb ha) h0

@[over_rule] theorem over_lstripChars {p s : Chars} (h0 : Over A s) : Over A (lstripChars p s) := over_dropWhile h0

@[over_rule] theorem over_vlanDevice (hA : Wide A env) {d e : VDict} (h0 : Over A d) (h1 : Over A e) : Over A (vlanDevice d e) := by
  unfold vlanDevice popOr
  dsimp only
  over

@[over_rule] theorem over_bridgeDevice (hA : Wide A env) {d e : VDict} (h0 : Over A d) (h1 : Over A e) : Over A (bridgeDevice d e) := by
  unfold bridgeDevice
  refine over_bind (over_getKey h1) fun n hn => over_bind (over_asText hn) fun t ht => ?_
  dsimp only
  have h2 : Over A (if "br-".toList <+: t then t else "br-".toList ++ t) := by over
  generalize (if "br-".toList <+: t then t else "br-".toList ++ t) = t' at h2
  have h3 : Over A (Dict.set (Dict.set e "ifname" (txt t')) "device" (txt t')) := by over
  generalize Dict.set (Dict.set e "ifname" (txt t')) "device" (txt t') = i at h3
  have h4 : Over A (Dict.set (Dict.set d "type" (.str "bridge")) "name" (txt t')) := by over
  generalize Dict.set (Dict.set d "type" (.str "bridge")) "name" (txt t') = d1 at h4
  have h5 := over_addOptions h4 h3 (over_lit hA.plain (s := "stp") (by decide +kernel)) (over_lits hA.plain (l := stpOptions) (by decide +kernel))
  generalize addOptions "stp" stpOptions d1 i = d2 at h5
  have h6 := over_addOptions h5 h3 (over_lit hA.plain (s := "igmp_snooping") (by decide +kernel)) (over_lits hA.plain (l := igmpOptions) (by decide +kernel))
  generalize addOptions "igmp_snooping" igmpOptions d2 i = d3 at h6
  have h7 := over_moves hA (l := allOptions ++ stpOptions ++ igmpOptions) (over_lits hA.plain (by decide +kernel)) (over_mk.2 ⟨h6, h3⟩)
  generalize (allOptions ++ stpOptions ++ igmpOptions).foldl moveOption (d3, i) = p at h7
  obtain ⟨p1, p2⟩ := p
  obtain ⟨h8, h9⟩ := over_mk.1 h7
  dsimp only
  over

@[over_rule] theorem over_ifaceDevice (hA : Wide A env) {d : VDict} (h0 : Over A d) : Over A (ifaceDevice env d) := by
  unfold ifaceDevice
  have h := over_addL2 hA (over_nil (α := String × Val)) h0
  generalize addL2 [] d = p at h
  obtain ⟨l2, i⟩ := p
  obtain ⟨h1, h2⟩ := over_mk.1 h
  dsimp only
  refine over_bind (over_getKey h2) fun n hn => over_bind (over_getKey h2) fun m hm => ?_
  have h3 : Over A (if ((Dict.get? i "device").getD .none).truthy = true then i else Dict.set i "device" m) := by over
  generalize (if ((Dict.get? i "device").getD .none).truthy = true then i else Dict.set i "device" m) = j at h3
  refine over_bind (over_getKey h3) fun t ht => over_bind (over_asText ht) fun t' ht' => ?_
  have h4 : Over A (Dict.update l2 [(".type", .str "device"), (".name", .str ("device_" ++ pyStr env.reprC n)), ("name", m)]) := by over
  generalize Dict.update l2 _ = dev at h4
  split
  · refine over_bind (over_vlanDevice hA h4 h3) fun q hq => ?_
    obtain ⟨q1, q2⟩ := q
    obtain ⟨h5, h6⟩ := over_mk.1 hq
    dsimp only
    exact over_ite (over_pure.2 (over_mk.2 ⟨over_ite over_nil h5, h6⟩)) (over_bridgeDevice hA h5 h6)
  · refine over_bind (over_pure.2 (over_mk.2 ⟨h4, h3⟩)) fun q hq => ?_
    obtain ⟨q1, q2⟩ := q
    obtain ⟨h5, h6⟩ := over_mk.1 hq
    dsimp only
    exact over_ite (over_pure.2 (over_mk.2 ⟨over_ite over_nil h5, h6⟩)) (over_bridgeDevice hA h5 h6)

@[over_rule] theorem over_portText (hA : Wide A env) {v : Val} (h0 : Over A v) : Over A (portText env v) := by
  unfold portText
  dsimp only
  over

@[over_rule] theorem over_vlanPorts (hA : Wide A env) {d e : VDict} (h0 : Over A d) (h1 : Over A e) : Over A (vlanPorts env d e) := by
  unfold vlanPorts
  over

@[over_rule] theorem over_vlanSections (hA : Wide A env) {u : Chars} {d : VDict} {v : Val} (h0 : Over A u) (h1 : Over A d) (h2 : Over A v) :
    Over A (vlanSections env u d v) := by
  unfold vlanSections
  dsimp only
  over

@[over_rule] theorem over_blankJoin (hA : Wide A env) {v : Val} (h0 : Over A v) : Over A (blankJoin v) := by
  unfold blankJoin
  over

theorem over_joinedOf (hA : Wide A env) {d : VDict} {k : String} (h0 : Over A (Dict.get? d k)) : Over A (joinedOf d k) := by
  unfold joinedOf
  exact over_ite (over_blankJoin hA (over_optGetD h0 over_vnone)) (over_ok.2 over_vnone)

theorem over_dnsValue (hA : Wide A env) {d e : VDict} {o k : String} {l : List Val} {p : Val} (h0 : Over A (Dict.get? d k)) (h1 : Over A e) :
    Over A (dnsValue d o k l e p) := by
  unfold dnsValue
  have h := over_get? (k := o) h1
  generalize Dict.get? e o = x at h
  cases x with
  | none => exact over_ite (over_ok.2 over_vnone) (over_joinedOf hA h0)
  | some v => exact over_ok.2 (over_some.1 h)

@[over_rule] theorem over_cleanBridge (b : Bool) {d : VDict} (h0 : Over A d) : Over A (cleanBridge b d) := by
  unfold cleanBridge
  exact over_ite (over_eraseList h0) h0

@[over_rule] theorem over_firstBridge (hA : Wide A env) (b : Bool) {d : VDict} (h0 : Over A d) : Over A (firstBridge b d) := by
  unfold firstBridge
  over

@[over_rule] theorem over_nextBridge (hA : Wide A env) {d : VDict} (h0 : Over A d) : Over A (nextBridge d) := by
  unfold nextBridge
  refine over_bind (over_getKey h0) fun n hn => over_bind (over_asText hn) fun t ht => ?_
  dsimp only
  refine over_pure.2 (over_eraseList ?_)
  over

@[over_rule] theorem over_bridgeSection (hA : Wide A env) (b : Bool) (i : Nat) {d : VDict} (h0 : Over A d) : Over A (bridgeSection b i d) := by
  unfold bridgeSection
  over

theorem over_ifaceSection (hA : Wide A env) (b : Bool) (i : Nat) {c d e : VDict} {u : Chars} (h0 : Over A (Dict.get? c "dns_servers"))
    (h1 : Over A (Dict.get? c "dns_search")) (h2 : Over A d) (h3 : Over A e) (h4 : Over A u) : Over A (ifaceSection c b u d i e) := by
  unfold ifaceSection
  dsimp only
  have h5 : Over A (if i > 1 then Dict.set d ".name" (txt (u ++ '_' :: showNat i)) else d) := by over
  generalize (if i > 1 then Dict.set d ".name" (txt (u ++ '_' :: showNat i)) else d) = d' at h5
  refine over_bind (over_getKey h3) fun p hp => over_bind (over_dnsValue hA h0 h5) fun q hq => over_bind (over_dnsValue hA h1 h5) fun r hr => ?_
  over

end NJ
