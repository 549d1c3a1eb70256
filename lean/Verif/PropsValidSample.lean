import Verif.PropsValidNeeds

/-!
# C66: a configuration that is valid and tame
-/

namespace NJ

private def o (l : VDict) : Val := .dict l
private def l (l : List Val) : Val := .list l
private def s (x : String) : Val := .str x
private def eth (more : VDict) : Val := o ([("name", s "eth0"), ("type", s "ethernet")] ++ more)
private def addr (more : VDict) : Val :=
  o ([("proto", s "static"), ("family", s "ipv4"), ("address", s "10.0.0.1"), ("mask", .int 24)] ++ more)
private def wifi (more enc : VDict) : Val :=
  o [("name", s "wlan0"), ("type", s "wireless"), ("wireless", o ([("radio", s "radio0"), ("mode", s "access_point"), ("ssid", s "MyNet")] ++ more ++ enc))]

/-! ## Valid and tame configurations -/

mutual
/-- no key twice in any object -/
def wfB : Val → Bool
  | .list l => wfBL l
  | .dict d => decide (Dict.keys d).Nodup && wfBD d
  | _ => true
  termination_by structural v => v
def wfBL : List Val → Bool
  | [] => true
  | v :: vs => wfB v && wfBL vs
  termination_by structural v => v
def wfBD : List (String × Val) → Bool
  | [] => true
  | (_, v) :: r => wfB v && wfBD r
  termination_by structural v => v
end

mutual
theorem wfB_sound : (v : Val) → wfB v = true → v.WF
  | .none, _ => .none
  | .bool _, _ => .bool _
  | .int _, _ => .int _
  | .str _, _ => .str _
  | .list l, h => .list l (wfBL_sound l (by simpa [wfB] using h))
  | .dict d, h => by
    simp only [wfB, Bool.and_eq_true, decide_eq_true_eq] at h
    exact .dict d h.1 (wfBD_sound d h.2)
theorem wfBL_sound : (l : List Val) → wfBL l = true → ∀ v ∈ l, v.WF
  | [], _, _, hv => nomatch hv
  | v :: vs, h, w, hw => by
    simp only [wfBL, Bool.and_eq_true] at h
    rcases List.mem_cons.1 hw with e | hw
    · rw [e]; exact wfB_sound v h.1
    · exact wfBL_sound vs h.2 w hw
theorem wfBD_sound : (d : List (String × Val)) → wfBD d = true → ∀ p ∈ d, p.2.WF
  | [], _, _, hv => nomatch hv
  | (k, v) :: r, h, w, hw => by
    simp only [wfBD, Bool.and_eq_true] at h
    rcases List.mem_cons.1 hw with e | hw
    · rw [e]; exact wfB_sound v h.1
    · exact wfBD_sound r h.2 w hw
end

/-- a configuration with many sections -/
def validSample : VDict :=
  [("general", o [("hostname", s "router"), ("timezone", s "Europe/Rome"), ("ula_prefix", s "fd8e::/48")]),
   ("ntp", o [("enabled", .bool true), ("server", l [s "0.pool.ntp.org"])]),
   ("led", l [o [("name", s "USB1"), ("sysfs", s "tp-link:green:usb1"), ("trigger", s "usbdev"), ("dev", s "1-1.1"), ("interval", .int 50)]]),
   ("interfaces", l [
     eth [("addresses", l [addr [("gateway", s "10.0.0.254")], o [("proto", s "static"), ("family", s "ipv4"), ("address", s "10.1.0.1"), ("mask", .int 16)]])],
     o [("name", s "lan"), ("type", s "bridge"), ("bridge_members", l [s "eth1", s "eth2"]),
       ("vlan_filtering", l [o [("vlan", .int 10), ("ports", l [o [("ifname", s "eth1"), ("tagging", s "t"), ("primary_vid", .bool true)]])]]),
       ("addresses", l [o [("proto", s "dhcp"), ("family", s "ipv4")]])],
     wifi [("network", l [s "lan"])] [("encryption", o [("protocol", s "wpa2_personal"), ("key", s "passphrase")])],
     o [("name", s "wg0"), ("type", s "wireguard"), ("private_key", s "QFdbnuYr7rrF4eONCAs7FhZwP7BXX/jD/jq2LXCpaXI="), ("port", .int 51820),
       ("addresses", l [addr []])]]),
   ("dns_servers", l [s "8.8.8.8"]),
   ("routes", l [o [("device", s "eth0"), ("destination", s "192.168.3.1/24"), ("next", s "192.168.2.1"), ("cost", .int 0)]]),
   ("ip_rules", l [o [("in", s "eth0"), ("src", s "192.168.1.0/24"), ("lookup", s "100")]]),
   ("switch", l [o [("name", s "switch0"), ("reset", .bool true), ("enable_vlan", .bool true),
     ("vlan", l [o [("device", s "switch0"), ("vlan", .int 1), ("ports", s "0t 2 3 4 5")]])]]),
   ("radios", l [o [("name", s "radio0"), ("phy", s "phy0"), ("driver", s "mac80211"), ("protocol", s "802.11n"), ("channel", .int 3),
     ("channel_width", .int 20)]]),
   ("openvpn", l [o [("name", s "server"), ("mode", s "server"), ("proto", s "udp"), ("dev", s "tun0"), ("dev_type", s "tun"), ("ca", s "ca.pem"),
     ("cert", s "cert.pem"), ("key", s "key.pem"), ("dh", s "dh.pem"), ("tls_server", .bool true)]]),
   ("zerotier", l [o [("name", s "global"), ("networks", l [o [("id", s "9536600adf654321"), ("ifname", s "owzt654321")]])]]),
   ("files", l [o [("path", s "/etc/motd"), ("mode", s "0644"), ("contents", s "welcome")]]),
   ("luci", l [o [("config_name", s "core"), ("config_value", s "main"), ("lang", s "auto")]])]

theorem validSample_tame : Tame validEnv.ip6 validSample := by decide +kernel

theorem validSample_wf : (Val.dict validSample).WF := wfB_sound _ (by decide +kernel)

theorem validEnv_tz : ∀ z ∈ timezones.map (·.1), (validEnv.tz z).isSome = true := by
  intro z hz
  obtain ⟨p, hp, rfl⟩ := List.mem_map.1 hz
  exact (Dict.has_iff timezones p.1).2 (List.mem_map_of_mem hp)

theorem validSample_valid (dsa : Bool) : validate (validClass dsa) validSample = .ok () := by
  cases dsa <;> decide +kernel

/-- the hypotheses of `C66_render` are met by it; the text is produced -/
example (dsa files : Bool) (e : PyErr) (he : (render (validClass dsa) files ⟨validSample, none⟩).2 = .error e) : e = .validation :=
  C66_render validEnv _ _ dsa files validSample validEnv_tz validSample_wf (validSample_valid dsa) validSample_tame e he

/-- and those of `C66_generate` -/
example (dsa : Bool) (e : PyErr) (he : (generate (validClass dsa) ⟨validSample, none⟩).2 = .error e) : e = .validation :=
  C66_generate validEnv _ _ dsa validSample validEnv_tz validSample_wf (validSample_valid dsa) validSample_tame e he

theorem validSample_renders : ((render (validClass true) true ⟨validSample, none⟩).2.map fun t => decide (t.length > 2000)) = .ok true := by
  decide +kernel

end NJ
