import Verif.PropsHistoryOwisp
import Verif.PropsValidOwispSample

/-!
# C91 for OpenWISP 1.x: a configuration with a VPN of layer 2, its hook, and a file. `C65_needs_distinct_paths` shows why the paths are to be distinct.
-/

namespace NJ

def historyOw : VDict :=
  (owispSample.filter fun p => p.1 = "openvpn") ++ [("files", .list [.dict [("path", .str "/etc/a"), ("mode", .str "0644"), ("contents", .str "a")]])]

/-- the paths of the files after `generate` -/
def owPathsLeft (config : VDict) : Option (List Chars) :=
  match owGenerate owispTest sampleScripts ⟨config, none⟩ with
  | (st, .ok _) => ((filesOf st.config).mapM filePath).toOption
  | _ => none

theorem owHistory_paths : owPathsLeft historyOw =
    some (["/etc/a", "/install.sh", "/uninstall.sh", "/openvpn/up.sh", "/tc_script.sh"].map String.toList) := by
  decide +kernel

/-- whatever was asked before, the same archive -/
example (past : List Call) : (owAsk owispTest sampleScripts .generate (owAfter owispTest sampleScripts past ⟨historyOw, none⟩)).2 =
    (owAsk owispTest sampleScripts .generate ⟨historyOw, none⟩).2 := by
  have h := owHistory_paths
  unfold owPathsLeft at h
  split at h
  · next st ms e =>
    cases hp : (filesOf st.config).mapM filePath with
    | error e => rw [hp] at h; cases h
    | ok ps =>
      rw [hp] at h
      have h : ps = _ := Option.some.inj h
      subst h
      exact C91_openwisp validEnv _ _ _ _ _ st ms e _ hp (by decide +kernel) (by decide +kernel) past .generate (by decide) (fun h => absurd h (by decide))
  · cases h

end NJ
