import Verif.PropsMeaning
import Verif.PropsHistorySample

/-!
# C95: a configuration with metadata; and a list, which is a package
-/

namespace NJ

private def o (l : VDict) : Val := .dict l

/-- a configuration with a VPN, a network of ZeroTier, a package and files, and its metadata, in other places -/
def metaConfig : VDict := ("type", .str "DeviceConfiguration") :: ("owner", o [("name", .str "me")]) :: historyConfig "/etc/x509/" ++ [("revision", .int 7)]

theorem meta_meaning : meaning owSchema true metaConfig = meaning owSchema true (historyConfig "/etc/x509/") := by decide +kernel

/-- every call, after every history, answers the same on both -/
theorem C95_sample (past : List Call) (q : Call) : SameAnswer
    (ask (openwrtClass validEnv (owValidate validEnv.ip6) (fun _ => false) jsonLoads true) q (afterCalls (openwrtClass validEnv (owValidate validEnv.ip6) (fun _ => false)
      jsonLoads true) past ⟨metaConfig, none⟩)).2
    (ask (openwrtClass validEnv (owValidate validEnv.ip6) (fun _ => false) jsonLoads true) q (afterCalls (openwrtClass validEnv (owValidate validEnv.ip6) (fun _ => false)
      jsonLoads true) past ⟨historyConfig "/etc/x509/", none⟩)).2 :=
  C95_same validEnv _ true _ owSchema true List.mem_cons_self _ _ meta_meaning past q

/-- and these are answers, not exceptions -/
example : ∃ t, (render (validClass true) false ⟨historyConfig "/etc/x509/", none⟩).2 = .ok t := history_renders

/-- a list under another key is a package of OpenWrt: it changes the text -/
theorem C95_needs_no_list : (render (validClass true) false ⟨[("olsrd", .list [o [("config_name", .str "olsrd")]])], none⟩).2 ≠
    (render (validClass true) false ⟨[], none⟩).2 := by
  have h : ((render (validClass true) false ⟨[("olsrd", .list [o [("config_name", .str "olsrd")]])], none⟩).2.toOption == (render (validClass true) false ⟨[], none⟩).2.toOption) = false := by
    decide +kernel
  intro e
  rw [e] at h
  simp at h

end NJ
