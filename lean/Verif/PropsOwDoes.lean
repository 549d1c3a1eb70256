import Verif.PropsOwTc
import Verif.SchemaMore

/-!
# C86: the theorems on the scripts of the OpenWisp archive
-/

namespace NJ

theorem tcBand_ok {i : VDict} {k : String} {o : Option Int} (h : tcBand i k = .ok o) :
    (isGiven i k = false ∧ o = none) ∨ (isGiven i k = true ∧ ∃ n, Dict.get? i k = some (.int n) ∧ o = some n) := by
  unfold tcBand at h
  cases hg : isGiven i k with
  | false => rw [hg] at h; cases h; exact Or.inl ⟨rfl, rfl⟩
  | true =>
    rw [hg, if_pos rfl] at h
    split at h
    · rename_i n e
      cases h
      exact Or.inr ⟨rfl, n, e, rfl⟩
    · cases h

/-- the limits of one direction: name and rate -/
def limitsOf (get : TcEntry → Option Int) (es : List TcEntry) : List (Chars × Int) := es.filterMap (fun e => (get e).map (fun o => (e.name, o)))

theorem limits_spec (reprC : Val → String) (get : TcEntry → Option Int) (k : String)
    (hget : ∀ i e, tcEntry reprC i = .ok e → tcBand i k = .ok (get e) ∧ e.name = fieldText reprC i "name") {is : List VDict} {es : List TcEntry}
    (h : is.mapM (tcEntry reprC) = .ok es) :
    ∃ ns : List Int, (is.filter (fun i => isGiven i k)).map (fun i => Dict.get? i k) = ns.map (fun n => some (.int n)) ∧
      limitsOf get es = List.zipWith (fun i n => (fieldText reprC i "name", n)) (is.filter (fun i => isGiven i k)) ns := by
  induction is generalizing es with
  | nil => rw [mapM_ok_nil] at h; cases h; exact ⟨[], rfl, rfl⟩
  | cons i is ih =>
    obtain ⟨e, es', he, hes, rfl⟩ := (mapM_ok_cons _ _ _ _).1 h
    obtain ⟨ns, h1, h2⟩ := ih hes
    obtain ⟨hb, hn⟩ := hget i e he
    unfold limitsOf at h2 ⊢
    rcases tcBand_ok hb with ⟨hg, ho⟩ | ⟨hg, n, hv, ho⟩
    · refine ⟨ns, ?_, ?_⟩
      · rw [List.filter_cons_of_neg (by rw [hg]; decide), h1]
      · rw [List.filter_cons_of_neg (by rw [hg]; decide), List.filterMap_cons_none (by rw [ho]; rfl), h2]
    · refine ⟨n :: ns, ?_, ?_⟩
      · rw [List.filter_cons_of_pos (by rw [hg]), List.map_cons, h1, hv]; rfl
      · rw [List.filter_cons_of_pos (by rw [hg]), List.filterMap_cons_some (by rw [ho]; rfl), h2, hn]; rfl

theorem zip_names {reprC : Val → String} {l : List VDict} {ns : List Int} (h : l.length = ns.length) :
    (List.zipWith (fun i n => (fieldText reprC i "name", n)) l ns).map (·.1) = entryNames reprC l := by
  induction l generalizing ns with
  | nil => rfl
  | cons x xs ih =>
    cases ns with
    | nil => cases h
    | cons n ns =>
      rw [List.zipWith_cons_cons, List.map_cons, ih (Nat.succ.inj h)]
      rfl

theorem zip_map {reprC : Val → String} (g : Chars → Int → Chars) (l : List VDict) (ns : List Int) :
    (List.zipWith (fun i n => (fieldText reprC i "name", n)) l ns).map (fun p => g p.1 p.2) =
      List.zipWith (fun i n => g (fieldText reprC i "name") n) l ns := by
  induction l generalizing ns with
  | nil => rfl
  | cons x xs ih =>
    cases ns with
    | nil => rfl
    | cons n ns => rw [List.zipWith_cons_cons, List.map_cons, ih]; rfl

theorem found_isSome (get : TcEntry → Option Int) (es : List TcEntry) :
    es.flatMap (fun e => if (get e).isSome then [e.name] else []) = (limitsOf get es).map (·.1) := by
  unfold limitsOf
  induction es with
  | nil => rfl
  | cons e es ih =>
    rw [List.flatMap_cons, ih]
    cases h : get e with
    | none => rw [List.filterMap_cons_none (by rw [h]; rfl)]; rfl
    | some o => rw [List.filterMap_cons_some (by rw [h]; rfl)]; rfl

theorem found_some (get : TcEntry → Option Int) (g : Chars → Int → Chars) (es : List TcEntry) :
    es.flatMap (fun e => (get e).elim [] (fun o => [g e.name o])) = (limitsOf get es).map (fun p => g p.1 p.2) := by
  unfold limitsOf
  induction es with
  | nil => rfl
  | cons e es ih =>
    rw [List.flatMap_cons, ih]
    cases h : get e with
    | none => rw [List.filterMap_cons_none (by rw [h]; rfl)]; rfl
    | some o => rw [List.filterMap_cons_some (by rw [h]; rfl)]; rfl

theorem match_nil {α : Type} (o : Option Int) : o.elim ([] : List α) (fun _ => []) = [] := by cases o <;> rfl

theorem tcEntry_ok {reprC : Val → String} {i : VDict} {e : TcEntry} (h : tcEntry reprC i = .ok e) :
    tcBand i "output_bandwidth" = .ok e.output ∧ tcBand i "input_bandwidth" = .ok e.input ∧ e.name = fieldText reprC i "name" := by
  unfold tcEntry at h
  obtain ⟨o, h1, h⟩ := bind_ok_iff.1 h
  obtain ⟨n, h2, h⟩ := bind_ok_iff.1 h
  cases pure_ok_iff.1 h
  exact ⟨h1, h2, rfl⟩

theorem limits_of {reprC : Val → String} {burst : Int → Int} {config : VDict} {t : Chars}
    (h : tcText reprC burst [("tc_options", (Dict.get? config "tc_options").getD (.list []))] = .ok t) (ho : OneLine reprC config) :
    Limits reprC burst config t := by
  unfold tcText at h
  obtain ⟨is, h1, h⟩ := bind_ok_iff.1 h
  obtain ⟨es, h2, h⟩ := bind_ok_iff.1 h
  cases pure_ok_iff.1 h
  have hi : entriesOf config "tc_options" = is := ctxList_entries rfl h1
  have hn : ∀ e ∈ es, '\n' ∉ e.name := by
    intro e he
    have : ∀ e ∈ es, ∃ i ∈ is, tcEntry reprC i = .ok e := by
      clear * - h2
      induction is generalizing es with
      | nil => rw [mapM_ok_nil] at h2; cases h2; exact fun e he => nomatch he
      | cons i is ih =>
        obtain ⟨x, xs, hx, hxs, rfl⟩ := (mapM_ok_cons _ _ _ _).1 h2
        intro e he
        rcases List.mem_cons.1 he with rfl | he
        · exact ⟨i, List.mem_cons_self, hx⟩
        · obtain ⟨j, hj, hje⟩ := ih xs hxs e he
          exact ⟨j, List.mem_cons_of_mem _ hj, hje⟩
    obtain ⟨i, hm, hie⟩ := this e he
    rw [(tcEntry_ok hie).2.2]
    exact ho.names "tc_options" (by decide) i (hi ▸ hm)
  obtain ⟨ns, a1, a2⟩ := limits_spec reprC (·.output) "output_bandwidth" (fun i e he => ⟨(tcEntry_ok he).1, (tcEntry_ok he).2.2⟩) h2
  obtain ⟨ms, b1, b2⟩ := limits_spec reprC (·.input) "input_bandwidth" (fun i e he => ⟨(tcEntry_ok he).2.1, (tcEntry_ok he).2.2⟩) h2
  rw [← hi] at a1 a2 b1 b2
  change (limitedBy "output_bandwidth" config).map _ = _ at a1
  change _ = List.zipWith _ (limitedBy "output_bandwidth" config) ns at a2
  change (limitedBy "input_bandwidth" config).map _ = _ at b1
  change _ = List.zipWith _ (limitedBy "input_bandwidth" config) ms at b2
  have la : (limitedBy "output_bandwidth" config).length = ns.length := by
    have := congrArg List.length a1
    rwa [List.length_map, List.length_map] at this
  have lb : (limitedBy "input_bandwidth" config).length = ms.length := by
    have := congrArg List.length b1
    rwa [List.length_map, List.length_map] at this
  have na := zip_names (reprC := reprC) la
  have nb := zip_names (reprC := reprC) lb
  rw [← a2] at na
  rw [← b2] at nb
  refine ⟨?_, ?_, ?_, ?_, ⟨ns, a1, ?_⟩, ⟨ms, b1, ?_⟩⟩
  · rw [tc_add_root burst es hn]
    unfold tcFound
    simp only [ite_self, match_nil, List.append_nil, List.nil_append, flatMap_none]
    exact (found_some (·.output) (fun n _ => n) es).trans na
  · rw [tc_del_root burst es hn]
    unfold tcFound
    simp only [ite_self, match_nil, List.append_nil, flatMap_none]
    exact (found_isSome (·.output) es).trans na
  · rw [tc_add_ingress burst es hn]
    unfold tcFound
    simp only [ite_self, match_nil, List.append_nil, List.nil_append, flatMap_none]
    exact (found_some (·.input) (fun n _ => n) es).trans nb
  · rw [tc_del_ingress burst es hn]
    unfold tcFound
    simp only [ite_self, match_nil, List.append_nil, List.nil_append, flatMap_none]
    exact (found_isSome (·.input) es).trans nb
  · rw [tc_class burst es hn, ← zip_map (fun n o => n ++ " parent 1 classid 1:1 htb rate ".toList ++ number o ++ "kbit burst ".toList ++ number (burst o)), ← a2]
    unfold tcFound
    simp only [ite_self, match_nil, List.append_nil, List.nil_append, flatMap_none]
    exact found_some (·.output) (fun n o => n ++ " parent 1 classid 1:1 htb rate ".toList ++ number o ++ "kbit burst ".toList ++ number (burst o)) es
  · rw [tc_filter burst es hn, ← zip_map (fun n o => n ++ " parent ffff: preference 0 u32 match u32 0x0 0x0 police rate ".toList ++ number o ++
      "kbit burst ".toList ++ number (burst o)), ← b2]
    unfold tcFound
    simp only [ite_self, match_nil, List.append_nil, List.nil_append, flatMap_none]
    exact found_some (·.input) (fun n o => n ++ " parent ffff: preference 0 u32 match u32 0x0 0x0 police rate ".toList ++ number o ++
      "kbit burst ".toList ++ number (burst o)) es

/-- **C86.** For every configuration whose names, addresses and hostname have no line breaks: the scripts that generate() adds do what the
configuration says. install.sh sets the hostname, creates a tap device for every VPN of layer 2, brings up every bridge and every radio, and
starts cron exactly when there are files for it; uninstall.sh removes the tap devices install.sh creates and stops cron exactly when install.sh
starts it; start() of tc_script.sh limits the bandwidths to the configured rates, and stop() frees exactly what start() limits. -/
theorem C86_scripts {reprC : Val → String} {burst : Int → Int} {config : VDict} {fs : List Val} (h : owAdded (owScripts reprC burst) config = .ok fs)
    (ho : OneLine reprC config) :
    ∃ install uninstall tc vpn, fs = [owScript "/install.sh".toList install, owScript "/uninstall.sh".toList uninstall] ++ vpn ++
        [owScript "/tc_script.sh".toList tc] ∧
      Installs reprC config install ∧ Uninstalls reprC config uninstall ∧ Limits reprC burst config tc := by
  obtain ⟨ctx, install, uninstall, tc, hc, h1, h2, h3, rfl⟩ := C65_scripts h
  exact ⟨install, uninstall, tc, _, rfl, installs_of hc h1 ho, uninstalls_of hc h2 ho, limits_of h3 ho⟩

/-- **C86.** The same, for the archive: the members `install.sh`, `uninstall.sh` and `tc_script.sh` are there, executable; `config` is the
configuration when the archive is made. Their bytes are those of the texts when the texts are ASCII (see C22 for what happens otherwise). -/
theorem C86_archive {cls : Class} {reprC : Val → String} {burst : Int → Int} {st st' : BState} {ms : List Member}
    (h : owGenerate cls (owScripts reprC burst) st = (st', .ok ms)) :
    ∃ st1 text, owRender cls false st = (st1, .ok text) ∧ (OneLine reprC st1.config →
      ∃ install uninstall tc, Installs reprC st1.config install ∧ Uninstalls reprC st1.config uninstall ∧ Limits reprC burst st1.config tc ∧
        (⟨"install.sh".toList, 0o755, (utf8 install).take install.length⟩ : Member) ∈ ms ∧
        (⟨"uninstall.sh".toList, 0o755, (utf8 uninstall).take uninstall.length⟩ : Member) ∈ ms ∧
        (⟨"tc_script.sh".toList, 0o755, (utf8 tc).take tc.length⟩ : Member) ∈ ms) := by
  obtain ⟨st1, text, i, u, tc, vpn, hr, ha, _, hm⟩ := C65_scripts_in_archive cls _ st st' ms h
  refine ⟨st1, text, hr, fun ho => ?_⟩
  obtain ⟨i', u', tc', vpn', he, h1, h2, h3⟩ := C86_scripts ha ho
  rw [he] at hm
  have m1 := hm "/install.sh".toList i' (by simp)
  have m2 := hm "/uninstall.sh".toList u' (by simp)
  have m3 := hm "/tc_script.sh".toList tc' (by simp)
  rw [show memberName "/install.sh".toList = "install.sh".toList by decide +kernel] at m1
  rw [show memberName "/uninstall.sh".toList = "uninstall.sh".toList by decide +kernel] at m2
  rw [show memberName "/tc_script.sh".toList = "tc_script.sh".toList by decide +kernel] at m3
  exact ⟨i', u', tc', h1, h2, h3, m1, m2, m3⟩

/-! ## Cases -/

/-- a device with a VPN of layer 2, a VPN of layer 3, two bridges, a radio, limits for two interfaces and a crontab -/
def scriptsSample : VDict :=
  [("general", .dict [("hostname", .str "ap1")]),
   ("interfaces", .list [
     .dict [("name", .str "eth0"), ("type", .str "ethernet")],
     .dict [("name", .str "br0"), ("type", .str "bridge"), ("bridge_members", .list [.str "eth0", .str "tap0"]),
       ("addresses", .list [.dict [("proto", .str "static"), ("family", .str "ipv4"), ("address", .str "10.0.0.1"), ("mask", .int 24)]])],
     .dict [("name", .str "br1"), ("type", .str "bridge"), ("bridge_members", .list [.str "eth1"])]]),
   ("radios", .list [.dict [("name", .str "radio0"), ("protocol", .str "802.11n"), ("channel", .int 3), ("channel_width", .int 20),
     ("phy", .str "phy0"), ("driver", .str "mac80211"), ("disabled", .bool false)]]),
   ("openvpn", .list [
     .dict [("name", .str "tap0"), ("mode", .str "p2p"), ("proto", .str "udp"), ("dev", .str "tap0"), ("dev_type", .str "tap"),
       ("remote", .list [.dict [("host", .str "vpn.example.com"), ("port", .int 1194)]])],
     .dict [("name", .str "tun0"), ("mode", .str "p2p"), ("proto", .str "udp"), ("dev", .str "tun0"), ("dev_type", .str "tun"),
       ("remote", .list [.dict [("host", .str "vpn.example.com"), ("port", .int 1194)]])]]),
   ("tc_options", .list [
     .dict [("name", .str "tap0"), ("output_bandwidth", .int 2049), ("input_bandwidth", .int 0)],
     .dict [("name", .str "eth0"), ("output_bandwidth", .int 1024), ("input_bandwidth", .int 512)]]),
   ("files", .list [.dict [("path", .str "/crontabs/root"), ("contents", .str "0 4 * * * reboot"), ("mode", .str "0644")]])]

theorem sample_oneLine : OneLine (fun _ => "") scriptsSample := by
  refine ⟨by decide +kernel, by decide +kernel, by decide +kernel, by decide +kernel⟩

/-- what is read in a script -/
def readings (t : Chars) : List (List Chars) :=
  [named "echo \"" "\" > /proc/sys/kernel/hostname" t, named "openvpn --mktun --dev " " --dev-type tap" t, named "ifup " "" t,
   named "wifi up " "" t, named "openvpn --rmtun --dev " " --dev-type tap" t, named "    tc qdisc add dev " " root handle 1: htb default 2" t,
   named "    tc qdisc del dev " " root" t, named "    tc qdisc add dev " " ingress" t, named "    tc qdisc del dev " " ingress" t]

/-- what is read in install.sh, uninstall.sh and tc_script.sh of a configuration -/
def scriptReadings (config : VDict) : Except PyErr (List (List (List Chars))) := do
  let sc := owScripts (fun _ => "") (fun n => n * 187 / 1000)
  let ctx ← owContext config
  let a ← sc.install ctx
  let b ← sc.uninstall ctx
  let c ← sc.tc [("tc_options", (Dict.get? config "tc_options").getD (.list []))]
  pure [readings a, readings b, readings c]

/-- the configuration is valid, its names have no line breaks, and the scripts are not trivial -/
theorem C86_sample : schemaValidate owispSchema sampleEnv.ip6 scriptsSample = .ok () ∧ OneLine (fun _ => "") scriptsSample ∧
    scriptReadings scriptsSample = .ok
      [[["ap1".toList], ["tap0".toList], ["br0".toList, "br1".toList], ["radio0".toList], [], [], [], [], []],
       [[], [], [], [], ["tap0".toList], [], [], [], []],
       [[], [], [], [], [], ["tap0".toList, "eth0".toList], ["tap0".toList, "eth0".toList], ["eth0".toList], ["eth0".toList]]] :=
  ⟨by decide +kernel, sample_oneLine, by decide +kernel⟩

/-- a device whose radio has a line break in its name -/
def brokenSample : VDict :=
  [("general", .dict [("hostname", .str "ap1")]),
   ("radios", .list [.dict [("name", .str "radio0\nifup wan"), ("protocol", .str "802.11n"), ("channel", .int 3), ("channel_width", .int 20),
     ("phy", .str "phy0"), ("driver", .str "mac80211"), ("disabled", .bool false)]])]

/-- **C86, limit.** The schema accepts line breaks in the names of radios: such a name adds a command to install.sh. -/
theorem C86_needs_one_line : schemaValidate owispSchema sampleEnv.ip6 brokenSample = .ok () ∧ bridgesOf brokenSample = [] ∧
    scriptReadings brokenSample = .ok
      [[["ap1".toList], [], ["wan".toList], ["radio0".toList], [], [], [], [], []], [[], [], [], [], [], [], [], [], []],
       [[], [], [], [], [], [], [], [], []]] :=
  ⟨by decide +kernel, by decide +kernel, by decide +kernel⟩

/-- a device whose bridge is named after a command -/
def commandSample : VDict :=
  [("general", .dict [("hostname", .str "ap1")]),
   ("interfaces", .list [.dict [("name", .str "br0;reboot"), ("type", .str "bridge"), ("bridge_members", .list [.str "eth0"])]])]

/-- **C86, limit.** The names are not quoted: the schema accepts the name `br0;reboot` for a bridge, and install.sh has the line
`ifup br0;reboot`, which is two commands for the shell. -/
theorem C86_not_quoted : schemaValidate owispSchema sampleEnv.ip6 commandSample = .ok () ∧ OneLine (fun _ => "") commandSample ∧
    ∃ ctx t, owContext commandSample = .ok ctx ∧ installText (fun _ => "") ctx = .ok t ∧ "ifup br0;reboot".toList ∈ linesOf t := by
  refine ⟨by decide +kernel, ⟨by decide +kernel, by decide +kernel, by decide +kernel, by decide +kernel⟩, ?_⟩
  have h : (match owContext commandSample >>= installText (fun _ => "") with
    | .error _ => false
    | .ok t => decide ("ifup br0;reboot".toList ∈ linesOf t)) = true := by decide +kernel
  cases ha : owContext commandSample >>= installText (fun _ => "") with
  | error e => rw [ha] at h; cases h
  | ok t =>
    rw [ha] at h
    obtain ⟨ctx, h1, h2⟩ := bind_ok_iff.1 ha
    exact ⟨ctx, t, h1, h2, of_decide_eq_true h⟩

end NJ
