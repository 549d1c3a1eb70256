import Verif.PropsOwScripts

/-!
# C86: install.sh and uninstall.sh
-/

namespace NJ

theorem between_other3 {a b x : Chars} (h : clash a x = true) (y z : Chars) : between a b (x ++ y ++ z) = none := by
  rw [List.append_assoc]; exact between_other h _

theorem between_other5 {a b x : Chars} (h : clash a x = true) (y z u v : Chars) : between a b (x ++ y ++ z ++ u ++ v) = none := by
  simp only [List.append_assoc]; exact between_other h _

/-- skips a line -/
local macro "skipLine" : tactic => `(tactic|
  rw [List.filterMap_cons_none (by first
    | decide +kernel
    | exact between_other (by decide +kernel) _
    | exact between_other3 (by decide +kernel) _ _
    | exact between_other5 (by decide +kernel) _ _ _ _
    | exact between_end (by decide +kernel) _)])

local macro "skipLines" : tactic => `(tactic| (repeat skipLine))

/-- the parts of install.sh, read one by one -/
theorem install_parts (reprC : Val → String) (host : Chars) (taps bridges radios : List VDict) (cron : Bool) (f : Chars → Option Chars) :
    (installLines reprC host taps bridges radios cron).filterMap f =
      installA.filterMap f ++ ["echo \"".toList ++ host ++ "\" > /proc/sys/kernel/hostname".toList].filterMap f ++ installB.filterMap f ++
      taps.flatMap (fun v => (installTap reprC v).filterMap f) ++ installC.filterMap f ++
      bridges.flatMap (fun v => (installBridge reprC v).filterMap f) ++ installD.filterMap f ++
      radios.flatMap (fun r => ["wifi up ".toList ++ fieldText reprC r "name"].filterMap f) ++ [([] : Chars)].filterMap f ++
      (if taps.isEmpty then [] else installVpns.filterMap f) ++ installE.filterMap f ++ (if cron then installCron.filterMap f else []) ++
      installF.filterMap f := by
  unfold installLines
  simp only [List.filterMap_append, filterMap_flatMap', ← flatMap_single]
  have e1 : List.filterMap f (if taps.isEmpty = true then [] else installVpns) = if taps.isEmpty = true then [] else List.filterMap f installVpns := by
    split <;> rfl
  have e2 : List.filterMap f (if cron = true then installCron else []) = if cron = true then List.filterMap f installCron else [] := by
    split <;> rfl
  rw [e1, e2]

theorem bridge_parts (reprC : Val → String) (v : VDict) (f : Chars → Option Chars) :
    (installBridge reprC v).filterMap f =
      ["echo \"Enabling bridge ".toList ++ fieldText reprC v "name" ++ "\"".toList, "ifup ".toList ++ fieldText reprC v "name"].filterMap f ++
      (if Dict.get? v "proto" = some (.str "static") then (installWait reprC v).filterMap f else []) := by
  unfold installBridge
  rw [List.filterMap_append]
  congr 1
  split <;> rfl

/-- the lines that are the same in every install.sh -/
def installFixed : List Chars := installA ++ installB ++ installC ++ installD ++ [[]] ++ installE ++ installF

theorem install_query (reprC : Val → String) (host : Chars) (taps bridges radios : List VDict) (cron : Bool) {f : Chars → Option Chars}
    {H V C : List Chars} {T B R : VDict → List Chars} (hf : installFixed.filterMap f = [])
    (hh : ["echo \"".toList ++ host ++ "\" > /proc/sys/kernel/hostname".toList].filterMap f = H)
    (ht : ∀ v, (installTap reprC v).filterMap f = T v) (hb : ∀ v, (installBridge reprC v).filterMap f = B v)
    (hr : ∀ r, ["wifi up ".toList ++ fieldText reprC r "name"].filterMap f = R r)
    (hv : installVpns.filterMap f = V) (hc : installCron.filterMap f = C) :
    (installLines reprC host taps bridges radios cron).filterMap f =
      H ++ taps.flatMap T ++ bridges.flatMap B ++ radios.flatMap R ++ (if taps.isEmpty then [] else V) ++ (if cron then C else []) := by
  unfold installFixed at hf
  simp only [List.filterMap_append, List.append_eq_nil_iff] at hf
  obtain ⟨⟨⟨⟨⟨⟨a, b⟩, c⟩, d⟩, n⟩, e⟩, g⟩ := hf
  rw [install_parts, a, b, c, d, n, e, g, hh, hv, hc]
  simp only [ht, hb, hr, List.append_nil, List.nil_append]

theorem install_host (reprC : Val → String) (host : Chars) (taps bridges radios : List VDict) (cron : Bool) :
    (installLines reprC host taps bridges radios cron).filterMap (between "echo \"".toList "\" > /proc/sys/kernel/hostname".toList) =
      [host] ++ taps.flatMap (fun _ => []) ++ bridges.flatMap (fun _ => []) ++ radios.flatMap (fun _ => []) ++
      (if taps.isEmpty then [] else []) ++ (if cron then [] else []) := by
  refine install_query reprC host taps bridges radios cron (by decide +kernel) ?_ (fun v => ?_) (fun v => ?_) (fun r => ?_) (by decide +kernel)
    (by decide +kernel)
  · rw [List.filterMap_cons_some (between_self _ _ _)]; rfl
  · unfold installTap
    skipLines
    rfl
  · rw [bridge_parts]
    skipLines
    unfold installWait
    skipLines
    split <;> rfl
  · skipLines; rfl

theorem install_mktun (reprC : Val → String) (host : Chars) (taps bridges radios : List VDict) (cron : Bool) :
    (installLines reprC host taps bridges radios cron).filterMap (between "openvpn --mktun --dev ".toList " --dev-type tap".toList) =
      [] ++ taps.flatMap (fun v => [fieldText reprC v "name"]) ++ bridges.flatMap (fun _ => []) ++ radios.flatMap (fun _ => []) ++
      (if taps.isEmpty then [] else []) ++ (if cron then [] else []) := by
  refine install_query reprC host taps bridges radios cron (by decide +kernel) ?_ (fun v => ?_) (fun v => ?_) (fun r => ?_) (by decide +kernel)
    (by decide +kernel)
  · skipLines; rfl
  · unfold installTap
    skipLines
    rw [List.filterMap_cons_some (between_self _ _ _)]; skipLines; rfl
  · rw [bridge_parts]
    skipLines
    unfold installWait
    skipLines
    split <;> rfl
  · skipLines; rfl

theorem install_ifup (reprC : Val → String) (host : Chars) (taps bridges radios : List VDict) (cron : Bool) :
    (installLines reprC host taps bridges radios cron).filterMap (between "ifup ".toList "".toList) =
      [] ++ taps.flatMap (fun _ => []) ++ bridges.flatMap (fun v => [fieldText reprC v "name"]) ++ radios.flatMap (fun _ => []) ++
      (if taps.isEmpty then [] else []) ++ (if cron then [] else []) := by
  refine install_query reprC host taps bridges radios cron (by decide +kernel) ?_ (fun v => ?_) (fun v => ?_) (fun r => ?_) (by decide +kernel)
    (by decide +kernel)
  · skipLines; rfl
  · unfold installTap
    skipLines
    rfl
  · rw [bridge_parts]
    skipLines
    rw [List.filterMap_cons_some (between_self' _ _)]
    unfold installWait
    skipLines
    split <;> rfl
  · skipLines; rfl

theorem install_wifi (reprC : Val → String) (host : Chars) (taps bridges radios : List VDict) (cron : Bool) :
    (installLines reprC host taps bridges radios cron).filterMap (between "wifi up ".toList "".toList) =
      [] ++ taps.flatMap (fun _ => []) ++ bridges.flatMap (fun _ => []) ++ radios.flatMap (fun r => [fieldText reprC r "name"]) ++
      (if taps.isEmpty then [] else []) ++ (if cron then [] else []) := by
  refine install_query reprC host taps bridges radios cron (by decide +kernel) ?_ (fun v => ?_) (fun v => ?_) (fun r => ?_) (by decide +kernel)
    (by decide +kernel)
  · skipLines; rfl
  · unfold installTap
    skipLines
    rfl
  · rw [bridge_parts]
    skipLines
    unfold installWait
    skipLines
    split <;> rfl
  · rw [List.filterMap_cons_some (between_self' _ _)]; rfl

theorem install_openvpn (reprC : Val → String) (host : Chars) (taps bridges radios : List VDict) (cron : Bool) :
    (installLines reprC host taps bridges radios cron).filterMap (between "/etc/init.d/openvpn start".toList "".toList) =
      [] ++ taps.flatMap (fun _ => []) ++ bridges.flatMap (fun _ => []) ++ radios.flatMap (fun _ => []) ++
      (if taps.isEmpty then [] else [[]]) ++ (if cron then [] else []) := by
  refine install_query reprC host taps bridges radios cron (by decide +kernel) ?_ (fun v => ?_) (fun v => ?_) (fun r => ?_) (by decide +kernel)
    (by decide +kernel)
  · skipLines; rfl
  · unfold installTap
    skipLines
    rfl
  · rw [bridge_parts]
    skipLines
    unfold installWait
    skipLines
    split <;> rfl
  · skipLines; rfl

theorem install_cron (reprC : Val → String) (host : Chars) (taps bridges radios : List VDict) (cron : Bool) :
    (installLines reprC host taps bridges radios cron).filterMap (between "start-stop-daemon -m -p /var/run/openwisp_crond.pid".toList "".toList) =
      [] ++ taps.flatMap (fun _ => []) ++ bridges.flatMap (fun _ => []) ++ radios.flatMap (fun _ => []) ++
      (if taps.isEmpty then [] else []) ++ (if cron then [" -S -b -x crond -- -f -c $PROGDIR/crontabs/ -l 5".toList] else []) := by
  refine install_query reprC host taps bridges radios cron (by decide +kernel) ?_ (fun v => ?_) (fun v => ?_) (fun r => ?_) (by decide +kernel)
    (by decide +kernel)
  · skipLines; rfl
  · unfold installTap
    skipLines
    rfl
  · rw [bridge_parts]
    skipLines
    unfold installWait
    skipLines
    split <;> rfl
  · skipLines; rfl

theorem install_while (reprC : Val → String) (host : Chars) (taps bridges radios : List VDict) (cron : Bool) :
    (installLines reprC host taps bridges radios cron).filterMap (between "while ".toList "; do".toList) =
      [] ++ taps.flatMap (fun v => ["[ -z \"`grep ".toList ++ fieldText reprC v "name" ++ " /proc/net/dev`\" ]".toList]) ++ bridges.flatMap (fun v => (if Dict.get? v "proto" = some (.str "static") then ["[ -z \"$(ip address show dev ".toList ++ (fieldText reprC v "name" ++ (" | grep ".toList ++ (fieldText reprC v "ip" ++ ")\" -o $__timeout -le 0 ]".toList)))] else [])) ++ radios.flatMap (fun _ => []) ++
      (if taps.isEmpty then [] else []) ++ (if cron then [] else []) := by
  refine install_query reprC host taps bridges radios cron (by decide +kernel) ?_ (fun v => ?_) (fun v => ?_) (fun r => ?_) (by decide +kernel)
    (by decide +kernel)
  · skipLines; rfl
  · unfold installTap
    skipLines
    rw [show "while [ -z \"`grep ".toList = "while ".toList ++ "[ -z \"`grep ".toList by decide +kernel,
      show " /proc/net/dev`\" ]; do".toList = " /proc/net/dev`\" ]".toList ++ "; do".toList by decide +kernel,
      List.filterMap_cons_some (between_mid _ _ _ _ _)]
    skipLines
    rfl
  · rw [bridge_parts]
    skipLines
    unfold installWait
    skipLines
    rw [show "while [ -z \"$(ip address show dev ".toList = "while ".toList ++ "[ -z \"$(ip address show dev ".toList by decide +kernel,
      show ")\" -o $__timeout -le 0 ]; do".toList = ")\" -o $__timeout -le 0 ]".toList ++ "; do".toList by decide +kernel]
    simp only [List.append_assoc]
    rw [List.filterMap_cons_some (b := "[ -z \"$(ip address show dev ".toList ++ (fieldText reprC v "name" ++ (" | grep ".toList ++
      (fieldText reprC v "ip" ++ ")\" -o $__timeout -le 0 ]".toList)))) (by
        have := between_self "while ".toList "; do".toList ("[ -z \"$(ip address show dev ".toList ++ (fieldText reprC v "name" ++ (" | grep ".toList ++
          (fieldText reprC v "ip" ++ ")\" -o $__timeout -le 0 ]".toList))))
        simp only [List.append_assoc] at this
        exact this)]
    simp only [← List.append_assoc]
    skipLines
    split <;> rfl
  · skipLines; rfl

theorem install_done (reprC : Val → String) (host : Chars) (taps bridges radios : List VDict) (cron : Bool) :
    (installLines reprC host taps bridges radios cron).filterMap (between "done".toList "".toList) =
      [] ++ taps.flatMap (fun _ => [[]]) ++ bridges.flatMap (fun v => (if Dict.get? v "proto" = some (.str "static") then [[]] else [])) ++ radios.flatMap (fun _ => []) ++
      (if taps.isEmpty then [] else []) ++ (if cron then [] else []) := by
  refine install_query reprC host taps bridges radios cron (by decide +kernel) ?_ (fun v => ?_) (fun v => ?_) (fun r => ?_) (by decide +kernel)
    (by decide +kernel)
  · skipLines; rfl
  · unfold installTap
    skipLines
    decide +kernel
  · rw [bridge_parts]
    skipLines
    unfold installWait
    skipLines
    split <;> decide +kernel
  · skipLines; rfl

end NJ
