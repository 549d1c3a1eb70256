import Verif.PropsHistoryReal
import Verif.PropsValidSample
import Verif.PropsValidVpnSample

/-!
# C91: a configuration with an inline key, a device map, a custom package and a file given twice; and why the conditions are needed
-/

namespace NJ

private def o (l : VDict) : Val := .dict l
private def l (l : List Val) : Val := .list l
private def s (x : String) : Val := .str x

/-- a server whose CA is in the directory -/
def historyVpn (dir : String) : VDict :=
  [("name", s "ab"), ("mode", s "server"), ("proto", s "udp"), ("dev", s "tun0"), ("dev_type", s "tun"), ("ca", s (dir ++ "ca.pem")), ("cert", s "c.pem"),
   ("key", s "k.pem"), ("dh", s "dh.pem"), ("tls_server", .bool true), ("tls_auth", s "SECRET KEY OF MANY WORDS")]

def historyZt : VDict := [("name", s "zt"), ("networks", l [o [("id", s "9536600adf654321"), ("ifname", s "owzt0")]])]

def historyConfig (dir : String) : VDict :=
  [("general", o [("hostname", s "router")]), ("openvpn", l [o (historyVpn dir)]), ("zerotier", l [o historyZt]),
   ("olsrd", l [o [("config_name", s "olsrd"), ("IpVersion", s "4")]]),
   ("files", l [o [("path", s "/etc/a"), ("mode", s "0644"), ("contents", s "one")], o [("path", s "/etc/a"), ("mode", s "0644"), ("contents", s "two")]])]

/-- the text, or the exception -/
def answerText : Except PyErr Answer → String ⊕ PyErr
  | .ok (.text t) => .inl (String.ofList t)
  | .ok _ => .inl "other"
  | .error e => .inr e

theorem history_renders : ∃ t, (render (validClass true) false ⟨historyConfig "/etc/x509/", none⟩).2 = .ok t := by
  cases h : (render (validClass true) false ⟨historyConfig "/etc/x509/", none⟩).2 with
  | ok t => exact ⟨t, rfl⟩
  | error e =>
    have : (match (render (validClass true) false ⟨historyConfig "/etc/x509/", none⟩).2 with | .ok _ => true | .error _ => false) = true := by decide +kernel
    rw [h] at this
    cases this

theorem history_accepted : MadeAccepted validEnv (historyConfig "/etc/x509/") := by
  refine ⟨?_, ?_⟩
  · intro x hx vpn hv
    have hx : x = [o (historyVpn "/etc/x509/")] := (Val.list.inj (Option.some.inj (show some (l [o (historyVpn "/etc/x509/")]) = some (.list x) from hx))).symm
    subst hx
    have hv : vpn = historyVpn "/etc/x509/" := Val.dict.inj (List.mem_singleton.1 hv)
    subst hv
    exact ⟨by decide, fun _ _ => Or.inr (Or.inr ⟨"tun0", rfl, by decide +kernel⟩)⟩
  · intro x hx vpn hv
    have hx : x = [o historyZt] := (Val.list.inj (Option.some.inj (show some (l [o historyZt]) = some (.list x) from hx))).symm
    subst hx
    have hv : vpn = historyZt := Val.dict.inj (List.mem_singleton.1 hv)
    subst hv
    decide +kernel

/-- whatever was asked before, the same archive -/
example (past : List Call) : (ask (validClass true) .generate (afterCalls (validClass true) past ⟨historyConfig "/etc/x509/", none⟩)).2 =
    (ask (validClass true) .generate ⟨historyConfig "/etc/x509/", none⟩).2 := by
  obtain ⟨t, h⟩ := history_renders
  exact C91_openwrt validEnv _ _ true _ t h history_accepted past .generate (by decide)

/-- a directory with a character that paths of files cannot have: the file of the key gets a path that `validate` refuses, and the second `render` fails -/
theorem C91_needs_paths :
    (match (ask (validClass true) (.render false) ⟨historyConfig "/etc/x@509/", none⟩).2 with | .ok _ => true | .error _ => false) = true ∧
    answerText (ask (validClass true) (.render false) (afterCalls (validClass true) [.render false] ⟨historyConfig "/etc/x@509/", none⟩)).2 = .inr .validation := by
  decide +kernel

/-- a configuration that cannot be rendered: after the exception the same call gives a text (C69) -/
theorem C91_needs_render :
    answerText (ask (validClass true) (.render false) ⟨[("general", o [("hostname", s "router")]), ("mypkg", l [o [("config_name", s "x"), ("config_value", .int 1)]])], none⟩).2 =
      .inr .attributeError ∧
    answerText (ask (validClass true) (.render false) (afterCalls (validClass true) [.generate]
      ⟨[("general", o [("hostname", s "router")]), ("mypkg", l [o [("config_name", s "x"), ("config_value", .int 1)]])], none⟩)).2 =
      .inl "package system\n\nconfig system 'system'\n\toption hostname 'router'\n" := by
  decide +kernel

/-- `json` differs: the custom package is changed in place, the first definition of the file is gone, the files of the converters are there -/
theorem C91_needs_not_json :
    (match (ask (validClass true) .json (afterCalls (validClass true) [.render true] ⟨historyConfig "/etc/x509/", none⟩)).2 with
      | .ok (.doc d) => some (Dict.get? d "olsrd", (filesOf d).map fun f => (filePath f).toOption.map String.ofList)
      | _ => none) =
    some (some (l [o [("IpVersion", s "4"), (".type", s "olsrd"), (".name", s "olsrd_1")]]),
      [some "/etc/a", some "/etc/x509/tun0_tls_auth.key", some "/etc/openwisp/zerotier/devicemap"]) := by
  decide +kernel

/-- the other backends -/
example (past : List Call) (files : Bool) : (ask wgSample (.render files) (afterCalls wgSample past ⟨wgConfig, none⟩)).2 = (ask wgSample (.render files) ⟨wgConfig, none⟩).2 := by
  obtain ⟨t, h⟩ := (C81_wireguard sampleEnv (fun _ => false) (fun _ => none) wgConfig (wf_of (n := 9) (by decide +kernel)) (by decide +kernel) (each_of (by decide +kernel))).1 false
  exact C91_wireguard _ _ _ _ t h past _ (by simp)

example (past : List Call) (files : Bool) : (ask ovpnSample (.render files) (afterCalls ovpnSample past ⟨ovpnConfig, none⟩)).2 =
    (ask ovpnSample (.render files) ⟨ovpnConfig, none⟩).2 := by
  obtain ⟨t, h⟩ := (C81_openvpn sampleEnv (fun _ => false) (fun _ => none) ovpnConfig (wf_of (n := 9) (by decide +kernel)) (by decide +kernel) (each_of (by decide +kernel))).1 false
  refine C91_openvpn _ _ _ _ t h ?_ past _ (by simp)
  intro x hx vpn hv
  have hx : x = [o (ovpnServer []), o ovpnClient] :=
    (Val.list.inj (Option.some.inj (show some (l [o (ovpnServer []), o ovpnClient]) = some (.list x) from hx))).symm
  subst hx
  simp only [List.mem_cons, List.not_mem_nil, or_false] at hv
  rcases hv with hv | hv
  · have hv : vpn = ovpnServer [] := Val.dict.inj hv
    subst hv
    exact ⟨by decide, fun _ _ => Or.inr (Or.inr ⟨"tun0", rfl, by decide +kernel⟩)⟩
  · have hv : vpn = ovpnClient := Val.dict.inj hv
    subst hv
    exact ⟨by decide, fun k hk => by rw [show Dict.get? ovpnClient "tls_auth" = none from by decide] at hk; cases hk⟩

end NJ
