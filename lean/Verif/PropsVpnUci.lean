import Mathlib.Tactic.SplitIfs
import Verif.PropsVpnRound
import Verif.PropsRoutes
import Verif.PropsWifiRound

/-!
# C79: OpenVPN in OpenWrt, through UCI text and back
-/

namespace NJ

/-! ## What a configuration must satisfy -/

/-- a server: a host and a port, maybe a protocol, and nothing else -/
def RemoteOK (v : Val) : Prop :=
  ∃ (d : VDict) (h : String) (p : Int), v = .dict d ∧ Dict.get? d "host" = some (.str h) ∧ IsWord h.toList ∧ Dict.get? d "port" = some (.int p) ∧
    (Dict.get? d "proto" = none ∨ ∃ q : String, Dict.get? d "proto" = some (.str q) ∧ IsWord q.toList) ∧
    ∀ k, k ≠ "host" → k ≠ "port" → k ≠ "proto" → Dict.get? d k = none

/-- a cipher without quotes in its name -/
def UciCipherOK (v : Val) : Prop :=
  CipherOK v ∧ ∀ (d : VDict) (n : String), v = .dict d → Dict.get? d "cipher" = some (.str n) → ∀ c ∈ n.toList, c ≠ '\'' ∧ c ≠ '"'

/-- the values that come back -/
def UciVpnValue (k : String) (v : Val) : Prop :=
  if k = "data_ciphers" then ∃ l, v = .list l ∧ l ≠ [] ∧ ∀ x ∈ l, UciCipherOK x
  else if k = "remote" then ∃ l, v = .list l ∧ l ≠ [] ∧ ∀ x ∈ l, RemoteOK x
  else if k = "tls_auth" then ∃ s : String, v = .str s ∧ s ≠ "" ∧ PlainText s.toList ∧ (splitOn ' ' (strip s.toList)).length = 2
  else if k = "tls_cipher" then ∃ s : String, v = .str s ∧ ∀ w ∈ splitOn ':' s.toList, w ≠ [] ∧ PlainText w
  else if k = "server_bridge" then ∃ s : String, v = .str s ∧ (s = "" ∨ s ≠ "1" ∧ PlainText s.toList)
  else Survives (Dict.get? openvpnProps k) v

/-- An OpenVPN configuration of OpenWrt: the name is one word, `disabled` is a boolean, options are of the type that the schema
gives them or empty. -/
structure UciVpnOK (c : VDict) : Prop where
  nodup : (Dict.keys c).Nodup
  name : ∃ n, Dict.get? c "name" = some (.str n) ∧ IsWord n.toList
  disabled : ∀ v, Dict.get? c "disabled" = some v → ∃ b, v = .bool b
  enabled : Dict.get? c "enabled" = none
  options : ∀ k v, Dict.get? c k = some v → k ≠ "name" → k ≠ "disabled" → IsWord k.toList ∧ k.toList.head? ≠ some '.' ∧
    (v = .str "" ∧ k ≠ "script_security" ∧ k ≠ "remote" ∨ k = "fragment" ∧ v = .int 0 ∨ UciVpnValue k v)

/-! ## Specification -/

/-- **Specification.** The option as it is configured, if it is written: empty texts are not (except for `server_bridge`, where
it means that there is no parameter), no `fragment` of size zero, and `status_version` only with `status`. -/
def vpnWritten (c : VDict) (k : String) : Option Val :=
  match Dict.get? c k with
  | none => none
  | some v =>
    if v = .str "" ∧ k ≠ "server_bridge" then none
    else if k = "fragment" ∧ v = .int 0 then none
    else if k = "status_version" ∧ (Dict.get? c "status" = none ∨ Dict.get? c "status" = some (.str "")) then none
    else some v

/-- **Specification.** The same server; the protocol `auto`, the default, is not written. -/
def RemoteSame (a b : Val) : Prop :=
  ∃ x y, a = .dict x ∧ b = .dict y ∧ ∀ k, Dict.get? x k = if k = "proto" ∧ Dict.get? y k = some (.str "auto") then none else Dict.get? y k

/-- **Specification.** The same value of an option: for ciphers and servers, dictionaries with the same items in the same order;
otherwise equal values. -/
def OptionSame (k : String) (w v : Val) : Prop :=
  if k = "data_ciphers" then SameDicts w v
  else if k = "remote" then ∃ x y, w = .list x ∧ v = .list y ∧ List.Forall₂ RemoteSame x y
  else w = v

/-- **Specification.** What comes back: the name as UCI allows it, whether the VPN is disabled, and the written options. -/
structure UciVpnSame (out c : VDict) : Prop where
  name : ∃ n : String, Dict.get? c "name" = some (.str n) ∧ Dict.get? out "name" = some (txt (uciName n.toList))
  disabled : Dict.get? out "disabled" = some (.bool (Dict.get? c "disabled" == some (.bool true)))
  options : ∀ k, k ≠ "name" → k ≠ "disabled" → vpnWritten c k = none ∧ Dict.get? out k = none ∨
    ∃ v w, vpnWritten c k = some v ∧ Dict.get? out k = some w ∧ OptionSame k w v

/-! ## Servers and ciphers -/

theorem showInt_nospace (i : Int) : showInt i ≠ [] ∧ ∀ c ∈ showInt i, isSpace c = false ∧ c ≠ '\'' ∧ c ≠ '"' := by
  have hd : ∀ c, isDigit c = true → isSpace c = false ∧ c ≠ '\'' ∧ c ≠ '"' := by
    intro c hc
    refine ⟨?_, by rintro rfl; exact absurd hc (by decide), by rintro rfl; exact absurd hc (by decide)⟩
    simp only [isDigit, Bool.and_eq_true, decide_eq_true_eq] at hc
    unfold isSpace
    simp only [Bool.or_eq_false_iff, beq_eq_false_iff_ne, Bool.and_eq_false_iff, decide_eq_false_iff_not]
    omega
  cases i with
  | ofNat n => exact ⟨showNat_ne_nil n, fun c hc => hd c (showNat_digits n c hc)⟩
  | negSucc n =>
    refine ⟨by simp [showInt], fun c hc => ?_⟩
    rcases List.mem_cons.1 hc with rfl | hc
    · decide
    · exact hd c (showNat_digits _ c hc)

theorem word_plain {s : Chars} (h : ∀ c ∈ s, isSpace c = false ∧ c ≠ '\'' ∧ c ≠ '"') : PlainText s := by
  refine ⟨fun c hc => ⟨?_, (h c hc).2.1, (h c hc).2.2⟩, fun hi => ?_⟩
  · rintro rfl; exact absurd (h _ hc).1 (by decide)
  · exact absurd (h ' ' (hi.subset (by simp))).1 (by decide)

/-- words with single spaces between them -/
theorem words_plain {l : List Chars} (h : ∀ s ∈ l, IsWord s) : PlainText (joinWith [' '] l) := by
  have key : ∀ l : List Chars, (∀ s ∈ l, IsWord s) → (∀ c ∈ joinWith [' '] l, c ≠ '\n' ∧ c ≠ '\'' ∧ c ≠ '"') ∧
      ¬ [' ', ' '] <:+: joinWith [' '] l ∧ (joinWith [' '] l).head? ≠ some ' ' := by
    intro l
    induction l with
    | nil => intro _; exact ⟨by simp [joinWith], by simp [joinWith], by simp [joinWith]⟩
    | cons w ws ih =>
      intro h
      obtain ⟨i1, i2, i3⟩ := ih (fun s hs => h s (by simp [hs]))
      obtain ⟨hne, hw⟩ := h w (by simp)
      have hsp : ' ' ∉ w := fun hm => absurd (hw _ hm).1 (by decide)
      have hp := word_plain hw
      have hhead : ∀ r, (w ++ r).head? ≠ some ' ' := by
        intro r
        cases w with
        | nil => exact absurd rfl hne
        | cons x xs => intro e; simp at e; subst e; exact hsp (by simp)
      cases ws with
      | nil =>
        refine ⟨by simpa [joinWith] using hp.1, ?_, by simpa [joinWith] using hhead []⟩
        intro hi
        exact hsp (by simpa [joinWith] using hi.subset (a := ' ') (by simp))
      | cons v vs =>
        rw [show joinWith [' '] (w :: v :: vs) = w ++ ' ' :: joinWith [' '] (v :: vs) by simp [joinWith]]
        generalize joinWith [' '] (v :: vs) = r at i1 i2 i3
        refine ⟨?_, ?_, hhead _⟩
        · intro c hc
          rcases List.mem_append.1 hc with hc | hc
          · exact hp.1 c hc
          · rcases List.mem_cons.1 hc with rfl | hc
            · decide
            · exact i1 c hc
        · rintro ⟨a, b, e⟩
          rw [List.append_assoc] at e
          rcases List.append_eq_append_iff.1 e with ⟨x, h1, h2⟩ | ⟨x, h1, h2⟩
          · cases x with
            | nil =>
              simp only [List.nil_append, List.cons_append, List.cons.injEq] at h2
              rw [← h2.2] at i3; exact i3 rfl
            | cons y ys =>
              simp only [List.cons_append, List.nil_append, List.cons.injEq] at h2
              exact hsp (by rw [h1, ← h2.1]; simp)
          · cases x with
            | nil =>
              simp only [List.nil_append, List.cons_append, List.cons.injEq] at h2
              rw [h2.2] at i3; exact i3 rfl
            | cons y ys =>
              simp only [List.cons_append, List.cons.injEq] at h2
              exact i2 ⟨ys, b, by rw [h2.2]; simp⟩
  obtain ⟨h1, h2, _⟩ := key l h
  exact ⟨h1, fun hi => h2 (List.IsInfix.trans ⟨[' ', ' '], [], rfl⟩ hi)⟩

theorem remote_ok (env : Env) {v : Val} (h : RemoteOK v) :
    ∃ t : String, remoteText env v = .ok (.str t) ∧ PlainText t.toList ∧ ∃ w, remoteBack (.str t) = .ok w ∧ RemoteSame w v := by
  obtain ⟨d, host, p, rfl, h1, hw, h2, h3, h4⟩ := h
  have hi : IsWord (showInt p) := showInt_nospace p
  have hp : parseInt (showInt p) = some p := parseInt_showInt p
  have hbase : (host ++ " " ++ String.ofList (showInt p)).toList = joinWith [' '] [host.toList, showInt p] := by simp [joinWith]
  have htext : remoteText env (.dict d) = .ok (.str (match Dict.get? d "proto" with
      | some q => if q = .str "auto" then host ++ " " ++ String.ofList (showInt p) else host ++ " " ++ String.ofList (showInt p) ++ " " ++ pyStr env.reprC q
      | none => host ++ " " ++ String.ofList (showInt p))) := by
    unfold remoteText
    dsimp only
    rw [getKey_ok h1, getKey_ok h2]
    rfl
  have two : (∀ q, Dict.get? d "proto" = some q → q = .str "auto") →
      ∃ w, remoteBack (.str (host ++ " " ++ String.ofList (showInt p))) = .ok w ∧ RemoteSame w (.dict d) := by
    intro hq
    refine ⟨.dict [("host", .str host), ("port", .int p)], ?_, _, d, rfl, rfl, ?_⟩
    · unfold remoteBack
      simp only [asText, bind, Except.bind]
      rw [hbase, words_join _ (by simpa using ⟨hw, hi⟩)]
      simp [pyInt, txt, hp]
      rfl
    · intro k
      by_cases e1 : k = "host"
      · subst e1; rw [h1]; rfl
      by_cases e2 : k = "port"
      · subst e2; rw [h2]; rfl
      by_cases e3 : k = "proto"
      · subst e3
        cases e : Dict.get? d "proto" with
        | none => rfl
        | some q => rw [hq q e]; rfl
      · rw [h4 k e1 e2 e3]
        simp [Dict.get?, Ne.symm e1, Ne.symm e2, e3]
  rcases h3 with h3 | ⟨q, h3, hq⟩
  · rw [h3] at htext
    refine ⟨_, htext, ?_, two (by rw [h3]; simp)⟩
    rw [hbase]; exact words_plain (by simpa using ⟨hw, hi⟩)
  · rw [h3] at htext
    by_cases ha : q = "auto"
    · subst ha
      refine ⟨_, htext, ?_, two (by rw [h3]; simp)⟩
      show PlainText (host ++ " " ++ String.ofList (showInt p)).toList
      rw [hbase]; exact words_plain (by simpa using ⟨hw, hi⟩)
    · dsimp only at htext
      rw [if_neg (by simpa using ha)] at htext
      have h3t : (host ++ " " ++ String.ofList (showInt p) ++ " " ++ pyStr env.reprC (.str q)).toList = joinWith [' '] [host.toList, showInt p, q.toList] := by
        simp [joinWith, pyStr]
      refine ⟨_, htext, ?_, .dict [("host", .str host), ("port", .int p), ("proto", .str q)], ?_, _, d, rfl, rfl, ?_⟩
      · rw [h3t]; exact words_plain (by simpa using ⟨hw, hi, hq⟩)
      · unfold remoteBack
        simp only [asText, bind, Except.bind]
        rw [h3t, words_join _ (by simpa using ⟨hw, hi, hq⟩)]
        simp [pyInt, txt, hp]
        rfl
      · intro k
        by_cases e1 : k = "host"
        · subst e1; rw [h1]; rfl
        by_cases e2 : k = "port"
        · subst e2; rw [h2]; rfl
        by_cases e3 : k = "proto"
        · subst e3; rw [h3, if_neg (by simpa using ha)]; rfl
        · rw [h4 k e1 e2 e3]
          simp [Dict.get?, Ne.symm e1, Ne.symm e2, Ne.symm e3]

theorem remotes_ok (env : Env) {l : List Val} (h : ∀ x ∈ l, RemoteOK x) :
    ∃ ts : List Val, l.mapM (remoteText env) = .ok ts ∧ ts.length = l.length ∧ (∀ v ∈ ts, ∃ s, v = .str s ∧ PlainText s.toList) ∧
      ∃ ws, ts.mapM remoteBack = .ok ws ∧ List.Forall₂ RemoteSame ws l := by
  induction l with
  | nil => exact ⟨[], rfl, rfl, by simp, [], rfl, .nil⟩
  | cons v l ih =>
    obtain ⟨ts, i1, i0, i2, ws, i3, i4⟩ := ih (fun x hx => h x (by simp [hx]))
    obtain ⟨t, h1, h2, w, h3, h4⟩ := remote_ok env (h v (by simp))
    refine ⟨.str t :: ts, ?_, by simp [i0], ?_, w :: ws, ?_, .cons h4 i4⟩
    · rw [mapM_ok_cons]; exact ⟨_, _, h1, i1, rfl⟩
    · intro x hx
      rcases List.mem_cons.1 hx with rfl | hx
      · exact ⟨t, rfl, h2⟩
      · exact i2 x hx
    · rw [mapM_ok_cons]; exact ⟨_, _, h3, i3, rfl⟩

theorem mapM_source {α β : Type} {f : α → Except PyErr β} {l : List α} {r : List β} (h : l.mapM f = .ok r) {y : β} (hy : y ∈ r) : ∃ x ∈ l, f x = .ok y := by
  induction l generalizing r with
  | nil => cases h; cases hy
  | cons a l ih =>
    rw [mapM_ok_cons] at h
    obtain ⟨b, bs, h1, h2, rfl⟩ := h
    rcases List.mem_cons.1 hy with rfl | hy
    · exact ⟨a, by simp, h1⟩
    · obtain ⟨x, hx, e⟩ := ih h2 hy
      exact ⟨x, by simp [hx], e⟩

theorem uci_ciphers_ok (env : Env) {l : List Val} (hne : l ≠ []) (h : ∀ x ∈ l, UciCipherOK x) :
    ∃ ts, l.mapM (cipherText env) = .ok ts ∧ joinWith [':'] ts ≠ [] ∧ PlainText (joinWith [':'] ts) ∧
      splitOn ':' (joinWith [':'] ts) = ts ∧ List.Forall₂ SameDict (ts.map cipherBack) l := by
  obtain ⟨ts, h1, h2, h3, h4, h5⟩ := ciphers_ok env hne (fun x hx => (h x hx).1)
  refine ⟨ts, h1, h2.1.ne, word_plain ?_, h4, h5⟩
  have hq : ∀ t ∈ ts, ∀ c ∈ t, c ≠ '\'' ∧ c ≠ '"' := by
    intro t ht
    obtain ⟨v, hv, e⟩ := mapM_source h1 ht
    obtain ⟨d, n, o, rfl, hs, _⟩ := (h v hv).1
    have hc : Dict.get? d "cipher" = some (.str n) := by rw [hs]; rfl
    have ho : Dict.get? d "optional" = some (.bool o) := by rw [hs]; simp [Dict.get?]
    have hn := (h _ hv).2 d n rfl hc
    unfold cipherText at e
    dsimp only at e
    rw [getKey_ok hc, getKey_ok ho] at e
    have e := Except.ok.inj e
    subst e
    intro c hm
    split at hm
    · rcases List.mem_cons.1 hm with rfl | hm
      · decide
      · exact hn c hm
    · exact hn c hm
  intro c hc
  refine ⟨h3 c hc, ?_⟩
  clear h1 h2 h3 h4 h5
  induction ts with
  | nil => simp [joinWith] at hc
  | cons t ts ih =>
    cases ts with
    | nil => exact hq t (by simp) c (by simpa [joinWith] using hc)
    | cons u us =>
      simp only [joinWith, List.mem_append, List.mem_singleton] at hc ih
      rcases hc with (hc | rfl) | hc
      · exact hq t (by simp) c hc
      · decide
      · exact ih (fun t ht => hq t (by simp at ht ⊢; tauto)) hc

/-! ## The section -/

/-- the form that an option has in the section; `t` gives the text of the ciphers, `r` the texts of the servers -/
def uciVpnForm (t r : Val → Val) (k : String) (v : Val) : Val :=
  if k = "server_bridge" ∧ v = .str "" then .bool true
  else if k = "data_ciphers" then t v
  else if k = "remote" then r v
  else if k = "tls_cipher" then .list ((splitOn ':' (optionText (some v))).map txt)
  else v

theorem written_some {c : VDict} (h : UciVpnOK c) {k : String} {v : Val} (hk : vpnWritten c k = some v) (h1 : k ≠ "name") (h2 : k ≠ "disabled") :
    Dict.get? c k = some v ∧ IsWord k.toList ∧ k.toList.head? ≠ some '.' ∧ UciVpnValue k v := by
  unfold vpnWritten at hk
  cases hg : Dict.get? c k with
  | none => rw [hg] at hk; cases hk
  | some w =>
    rw [hg] at hk
    dsimp only at hk
    split_ifs at hk with e1 e2 e3
    cases hk
    obtain ⟨o1, o2, o3⟩ := h.options k v hg h1 h2
    refine ⟨rfl, o1, o2, ?_⟩
    rcases o3 with ⟨rfl, _, _⟩ | ⟨rfl, rfl⟩ | o3
    · by_cases hb : k = "server_bridge"
      · subst hb
        unfold UciVpnValue
        simp
      · exact absurd ⟨rfl, hb⟩ e1
    · exact absurd ⟨rfl, rfl⟩ e2
    · exact o3

/-- the section, option by option -/
def uciVpnItem (t r : Val → Val) (c : VDict) (k : String) : Option Val :=
  if k = ".name" then (Dict.get? c "name").map (fun v => txt (uciName (optionText (some v))))
  else if k = ".type" then some (.str "openvpn")
  else if k = "enabled" then some (.bool (!(Dict.get? c "disabled" == some (.bool true))))
  else if k = "name" then none
  else if k = "disabled" then none
  else (vpnWritten c k).map (uciVpnForm t r k)

/-- the options before those of servers and ciphers become texts -/
theorem uci_vpn_pre {c : VDict} (h : UciVpnOK c) :
    ∃ (c3 : VDict) (n : String), (Dict.keys c3).Nodup ∧ Dict.get? c "name" = some (.str n) ∧ IsWord n.toList ∧
      (∀ env, uciVpnBlock env c = vpnBlock env removedUci c3) ∧ ∀ k, vpnShown (· = Val.str "") c3 k = uciVpnItem id id c k := by
  obtain ⟨n, hn, hw⟩ := h.name
  have hz : isZero (Dict.get? c "fragment") = decide (Dict.get? c "fragment" = some (.int 0)) := by
    cases hf : Dict.get? c "fragment" with
    | none => rfl
    | some v =>
      rcases (h.options _ v hf (by decide) (by decide)).2.2 with ⟨rfl, _⟩ | ⟨_, rfl⟩ | hv
      · rfl
      · rfl
      · cases v with
        | int i => simp [isZero, Bool.beq_eq_decide_eq]
        | bool b => simp [UciVpnValue, Survives, openvpnProps, Dict.get?] at hv
        | none => rfl
        | str s => simp [isZero]
        | list l => simp [isZero]
        | dict d => simp [isZero]
  generalize hc0 : (if isZero (Dict.get? c "fragment") then Dict.erase c "fragment" else c) = c0
  have g0 : ∀ k, Dict.get? c0 k = if k = "fragment" ∧ Dict.get? c k = some (.int 0) then none else Dict.get? c k := by
    intro k
    rw [← hc0, hz]
    by_cases hf : Dict.get? c "fragment" = some (.int 0)
    · simp only [hf, decide_true, if_true, Dict.get?_erase']
      by_cases hk : k = "fragment"
      · subst hk; simp [hf]
      · simp [hk]
    · simp only [hf, decide_false, Bool.false_eq_true, if_false]
      by_cases hk : k = "fragment"
      · subst hk; simp [hf]
      · simp [hk]
  have n0 : (Dict.keys c0).Nodup := by
    rw [← hc0]; split
    · exact Dict.nodup_erase h.nodup _
    · exact h.nodup
  have e1 : Dict.get? c0 "name" = some (.str n) := by rw [g0, if_neg (by simp), hn]
  have hd : ((Dict.get? (Dict.erase c0 "name") "disabled").getD (.bool false)).truthy = (Dict.get? c "disabled" == some (.bool true)) := by
    rw [Dict.get?_erase', if_neg (by decide), g0, if_neg (by simp)]
    cases hv : Dict.get? c "disabled" with
    | none => rfl
    | some v =>
      obtain ⟨b, rfl⟩ := h.disabled v hv
      cases b <;> rfl
  generalize hc2 : Dict.update (Dict.erase (Dict.erase c0 "name") "disabled") [(".name", txt (uciName n.toList)), (".type", .str "openvpn"),
    ("enabled", .bool (!(Dict.get? c "disabled" == some (.bool true))))] = c2
  have g2 : ∀ k, Dict.get? c2 k = if k = "enabled" then some (.bool (!(Dict.get? c "disabled" == some (.bool true)))) else
      if k = ".type" then some (.str "openvpn") else if k = ".name" then some (txt (uciName n.toList)) else
      if k = "disabled" then none else if k = "name" then none else Dict.get? c0 k := by
    intro k; rw [← hc2]; simp only [Dict.update_cons, Dict.update_nil, Dict.get?_set', Dict.get?_erase']
  have n2 : (Dict.keys c2).Nodup := by
    rw [← hc2]; exact Dict.nodup_update (Dict.nodup_erase (Dict.nodup_erase n0 _) _) _
  have n3 : (Dict.keys (tlsCipherList c2)).Nodup := by
    unfold tlsCipherList
    split
    · split
      · exact n2
      · exact Dict.nodup_set n2 _ _
    · exact n2
  have g3 : ∀ k, Dict.get? (tlsCipherList c2) k = (Dict.get? c2 k).map (fun v =>
      if k = "tls_cipher" ∧ v ≠ .str "" then .list ((splitOn ':' (optionText (some v))).map txt) else v) := by
    intro k
    have hcip : Dict.get? c2 "tls_cipher" = Dict.get? c "tls_cipher" := by
      rw [g2, if_neg (by decide), if_neg (by decide), if_neg (by decide), if_neg (by decide), if_neg (by decide), g0, if_neg (by simp)]
    unfold tlsCipherList
    cases hv : Dict.get? c2 "tls_cipher" with
    | none =>
      by_cases hk : k = "tls_cipher"
      · subst hk; simp [hv]
      · simp [hk]
    | some v =>
      have hs : ∃ s : String, v = .str s ∧ (s ≠ "" → ∀ w ∈ splitOn ':' s.toList, w ≠ []) := by
        rw [hcip] at hv
        rcases (h.options _ v hv (by decide) (by decide)).2.2 with ⟨rfl, _⟩ | ⟨e, rfl⟩ | hv
        · exact ⟨"", rfl, fun e => absurd rfl e⟩
        · exact absurd e (by decide)
        · unfold UciVpnValue at hv
          rw [if_neg (by decide), if_neg (by decide), if_neg (by decide), if_pos rfl] at hv
          obtain ⟨s, rfl, hs⟩ := hv
          exact ⟨s, rfl, fun _ w hw => (hs w hw).1⟩
      obtain ⟨s, rfl, hs⟩ := hs
      dsimp only
      by_cases he : s = ""
      · subst he
        rw [if_pos rfl]
        by_cases hk : k = "tls_cipher"
        · subst hk; simp [hv]
        · simp [hk]
      · rw [if_neg he, Dict.get?_set']
        by_cases hk : k = "tls_cipher"
        · subst hk
          rw [if_pos rfl, hv, List.filter_eq_self.2 (fun w hw => by simpa using hs he w hw)]
          simp [he, optionText]
        · simp [hk]
  refine ⟨tlsCipherList c2, n, n3, hn, hw, ?_, ?_⟩
  · intro env
    unfold uciVpnBlock
    dsimp only
    rw [hc0, popKey_ok e1]
    simp only [bind, Except.bind, asText, popOr]
    rw [hd, hc2]
  · generalize tlsCipherList c2 = c3 at g3 n3
    have g : ∀ k, Dict.get? c3 k = if k = "enabled" then some (.bool (!(Dict.get? c "disabled" == some (.bool true)))) else
      if k = ".type" then some (.str "openvpn") else if k = ".name" then some (txt (uciName n.toList)) else
      if k = "disabled" then none else if k = "name" then none else
      (if k = "fragment" ∧ Dict.get? c k = some (.int 0) then none else Dict.get? c k).map (fun v =>
      if k = "tls_cipher" ∧ v ≠ .str "" then .list ((splitOn ':' (optionText (some v))).map txt) else v) := by
      intro k
      rw [g3, g2, g0]
      by_cases k1 : k = "enabled"
      · subst k1; simp
      by_cases k2 : k = ".type"
      · subst k2; simp
      by_cases k3 : k = ".name"
      · subst k3; simp
      by_cases k4 : k = "disabled"
      · subst k4; simp
      by_cases k5 : k = "name"
      · subst k5; simp
      simp only [k1, k2, k3, k4, k5, if_false]
    clear g3 g2 g0
    have hstat : vpnKept (· = Val.str "") c3 "status" = none ↔ Dict.get? c "status" = none ∨ Dict.get? c "status" = some (.str "") := by
      unfold vpnKept
      rw [g, if_neg (by decide), if_neg (by decide), if_neg (by decide), if_neg (by decide), if_neg (by decide), if_neg (by simp)]
      cases hv : Dict.get? c "status" with
      | none => simp
      | some v => by_cases e : v = .str "" <;> simp [e]
    have hne : txt (uciName n.toList) ≠ .str "" := by
      intro e
      have := congrArg String.toList (Val.str.inj e)
      rw [String.toList_ofList] at this
      exact hw.1 (by simpa [uciName] using this)
    intro k
    unfold vpnShown uciVpnItem
    by_cases k3 : k = ".name"
    · subst k3
      rw [if_neg (by simp), if_pos rfl]
      unfold vpnKept
      rw [g]
      simp [hn, hne, optionText]
    rw [if_neg (c := k = ".name") k3]
    by_cases k2 : k = ".type"
    · subst k2
      rw [if_neg (by simp), if_pos rfl]
      unfold vpnKept
      rw [g]
      simp
    rw [if_neg (c := k = ".type") k2]
    by_cases k1 : k = "enabled"
    · subst k1
      rw [if_neg (by simp), if_pos rfl]
      unfold vpnKept
      rw [g]
      simp
    rw [if_neg (c := k = "enabled") k1]
    by_cases k5 : k = "name"
    · subst k5
      rw [if_neg (by simp), if_pos rfl]
      unfold vpnKept
      rw [g]
      simp
    rw [if_neg (c := k = "name") k5]
    by_cases k4 : k = "disabled"
    · subst k4
      rw [if_neg (by simp), if_pos rfl]
      unfold vpnKept
      rw [g]
      simp
    rw [if_neg (c := k = "disabled") k4]
    have gk := g k
    simp only [k1, k2, k3, k4, k5, if_false] at gk
    unfold vpnWritten
    simp only [hstat]
    unfold vpnKept
    rw [gk]
    cases hv : Dict.get? c k with
    | none => simp
    | some v =>
      obtain ⟨_, _, ho⟩ := h.options k v hv k5 k4
      by_cases hfr : k = "fragment"
      · subst hfr
        by_cases hv0 : v = .int 0
        · subst hv0; simp
        · by_cases hvs : v = .str ""
          · subst hvs; simp
          · simp [hv0, hvs, uciVpnForm]
      by_cases hst : k = "status_version"
      · subst hst
        by_cases hs : Dict.get? c "status" = none ∨ Dict.get? c "status" = some (.str "")
        · by_cases hvs : v = .str "" <;> simp [hs, hvs]
        · by_cases hvs : v = .str ""
          · subst hvs; simp
          · simp [hs, hvs, uciVpnForm]
      by_cases hb : k = "server_bridge"
      · subst hb
        by_cases hvs : v = .str ""
        · subst hvs; simp [uciVpnForm]
        · simp [hvs, uciVpnForm]
      by_cases hc : k = "tls_cipher"
      · subst hc
        by_cases hvs : v = .str ""
        · subst hvs; simp
        · simp [hvs, uciVpnForm]
      by_cases hvs : v = .str ""
      · subst hvs
        have : k ≠ "script_security" ∧ k ≠ "remote" := by
          rcases ho with ho | ho | ho
          · exact ho.2
          · exact absurd ho.1 hfr
          · unfold UciVpnValue at ho
            split_ifs at ho with f1 f2 f3
            · obtain ⟨_, e, _⟩ := ho; cases e
            · obtain ⟨_, e, _⟩ := ho; cases e
            · subst f3; decide
            · exact absurd rfl ho.1
        simp [hfr, hst, hb, hc, this]
      · simp [hfr, hst, hb, hc, hvs, uciVpnForm]

theorem uci_vpn_block (env : Env) {c : VDict} (h : UciVpnOK c) :
    ∃ (b : VDict) (n : String) (t : Chars) (ts : List Chars) (rs ws : List Val), uciVpnBlock env c = .ok (b, none) ∧ (Dict.keys b).Nodup ∧
      Dict.get? c "name" = some (.str n) ∧ IsWord n.toList ∧
      (∀ k, Dict.get? b k = uciVpnItem (fun _ => txt t) (fun _ => .list rs) c k) ∧
      (∀ v, vpnWritten c "data_ciphers" = some v → t ≠ [] ∧ PlainText t ∧ splitOn ':' t = ts ∧ SameDicts (.list (ts.map cipherBack)) v) ∧
      (∀ v, vpnWritten c "remote" = some v → rs ≠ [] ∧ (∀ v ∈ rs, ∃ s, v = .str s ∧ PlainText s.toList) ∧ rs.mapM remoteBack = .ok ws ∧
        OptionSame "remote" (.list ws) v) := by
  obtain ⟨c3, n, n3, hn, hw, hblk, hg⟩ := uci_vpn_pre h
  rw [hblk]
  have hkept := fun k => kept_get removedUci_iff (by decide) n3 (remove := removedUci) (falsy := (· = Val.str "")) (c := c3) k
  have n4 := dropRemoved_nodup n3 removedUci
  unfold vpnBlock
  generalize dropRemoved removedUci (bareBridge c3) = c4 at hkept n4
  have form_other : ∀ (t r t' r' : Val → Val) (k : String), k ≠ "remote" ∨ r = r' → k ≠ "data_ciphers" ∨ t = t' →
      uciVpnItem t r c k = uciVpnItem t' r' c k := by
    intro t r t' r' k h1 h2
    unfold uciVpnItem
    have : uciVpnForm t r k = uciVpnForm t' r' k := by
      funext v
      unfold uciVpnForm
      rcases h1 with h1 | rfl <;> rcases h2 with h2 | rfl <;> simp [*]
    rw [this]
  have hrem : Dict.get? c4 "remote" = vpnWritten c "remote" := by
    rw [hkept]
    have := hg "remote"
    unfold vpnShown at this
    rw [if_neg (by simp)] at this
    rw [this]
    unfold uciVpnItem
    simp only [show ("remote" = ".name") = False by simp, show ("remote" = ".type") = False by simp, show ("remote" = "enabled") = False by simp,
      show ("remote" = "name") = False by simp, show ("remote" = "disabled") = False by simp, if_false]
    cases vpnWritten c "remote" <;> simp [uciVpnForm]
  obtain ⟨c5, rs, ws, e5, n5, g5, hr⟩ : ∃ c5 rs ws, remotesText env c4 = .ok c5 ∧ (Dict.keys c5).Nodup ∧
      (∀ k, Dict.get? c5 k = if k = "remote" then (vpnWritten c "remote").map (fun _ => .list rs) else Dict.get? c4 k) ∧
      (∀ v, vpnWritten c "remote" = some v → rs ≠ [] ∧ (∀ v ∈ rs, ∃ s, v = .str s ∧ PlainText s.toList) ∧ rs.mapM remoteBack = .ok ws ∧
        OptionSame "remote" (.list ws) v) := by
    cases e : vpnWritten c "remote" with
    | none =>
      refine ⟨c4, [], [], ?_, n4, ?_, fun v hv => by cases hv⟩
      · unfold remotesText; rw [hrem, e]
      · intro k
        by_cases hk : k = "remote"
        · subst hk; rw [if_pos rfl, hrem, e]; rfl
        · rw [if_neg hk]
    | some v =>
      obtain ⟨_, _, _, hv⟩ := written_some h e (by decide) (by decide)
      unfold UciVpnValue at hv
      rw [if_neg (by decide), if_pos rfl] at hv
      obtain ⟨l, rfl, hne, hl⟩ := hv
      obtain ⟨ts, i1, i0, i2, ws, i3, i4⟩ := remotes_ok env hl
      refine ⟨Dict.set c4 "remote" (.list ts), ts, ws, ?_, Dict.nodup_set n4 _ _, ?_, ?_⟩
      · unfold remotesText
        rw [hrem, e]
        dsimp only
        rw [i1]; rfl
      · intro k
        rw [Dict.get?_set']; rfl
      · intro v hv
        cases hv
        refine ⟨fun e => ?_, i2, i3, ?_⟩
        · subst e
          exact hne (List.length_eq_zero_iff.1 (by simpa using i0.symm))
        · unfold OptionSame
          rw [if_neg (by decide), if_pos rfl]
          exact ⟨_, _, rfl, rfl, i4⟩
  rw [e5]
  simp only [bind, Except.bind]
  have g6 : ∀ k, Dict.get? (statusVersion c5) k = uciVpnItem id (fun _ => .list rs) c k := by
    intro k
    rw [statusVersion_get, g5, g5, if_neg (c := "status" = "remote") (by decide), hkept "status"]
    by_cases hk : k = "remote"
    · subst hk
      rw [if_neg (by simp), if_pos rfl]
      unfold uciVpnItem
      simp only [show ("remote" = ".name") = False by simp, show ("remote" = ".type") = False by simp, show ("remote" = "enabled") = False by simp,
        show ("remote" = "name") = False by simp, show ("remote" = "disabled") = False by simp, if_false]
      cases vpnWritten c "remote" <;> simp [uciVpnForm]
    · rw [if_neg (c := k = "remote") hk, hkept k, form_other id (fun _ => .list rs) id id k (.inl hk) (.inr rfl), ← hg k]
      rfl
  have n6 := statusVersion_nodup n5
  generalize statusVersion c5 = c6 at g6 n6
  have hdc : ∀ t r, uciVpnItem t r c "data_ciphers" = (vpnWritten c "data_ciphers").map t := by
    intro t r
    unfold uciVpnItem
    simp only [show ("data_ciphers" = ".name") = False by simp, show ("data_ciphers" = ".type") = False by simp, show ("data_ciphers" = "enabled") = False by simp,
      show ("data_ciphers" = "name") = False by simp, show ("data_ciphers" = "disabled") = False by simp, if_false]
    cases vpnWritten c "data_ciphers" <;> simp [uciVpnForm]
  obtain ⟨c7, t, ts, e7, n7, g7, ht⟩ : ∃ c7 t ts, dataCiphers env c6 = .ok c7 ∧ (Dict.keys c7).Nodup ∧
      (∀ k, Dict.get? c7 k = uciVpnItem (fun _ => txt t) (fun _ => .list rs) c k) ∧
      (∀ v, vpnWritten c "data_ciphers" = some v → t ≠ [] ∧ PlainText t ∧ splitOn ':' t = ts ∧ SameDicts (.list (ts.map cipherBack)) v) := by
    cases e : vpnWritten c "data_ciphers" with
    | none =>
      refine ⟨c6, [], [], ?_, n6, ?_, fun v hv => by cases hv⟩
      · unfold dataCiphers
        rw [g6, hdc, e]; rfl
      · intro k
        rw [g6]
        by_cases hk : k = "data_ciphers"
        · subst hk; rw [hdc, hdc, e]; rfl
        · exact form_other _ _ _ _ _ (.inr rfl) (.inl hk)
    | some v =>
      obtain ⟨_, _, _, hv⟩ := written_some h e (by decide) (by decide)
      unfold UciVpnValue at hv
      rw [if_pos rfl] at hv
      obtain ⟨l, rfl, hne, hl⟩ := hv
      obtain ⟨ts, i1, i2, i3, i4, i5⟩ := uci_ciphers_ok env hne hl
      refine ⟨Dict.set c6 "data_ciphers" (txt (joinWith [':'] ts)), joinWith [':'] ts, ts, ?_, Dict.nodup_set n6 _ _, ?_, ?_⟩
      · unfold dataCiphers
        rw [g6, hdc, e]
        simp only [Option.map_some, Option.getD_some, id]
        rw [if_neg (by cases l with
          | nil => exact absurd rfl hne
          | cons => simp [Val.truthy]), i1]
        rfl
      · intro k
        rw [Dict.get?_set']
        by_cases hk : k = "data_ciphers"
        · subst hk; rw [if_pos rfl, hdc, e]; rfl
        · rw [if_neg hk, g6]; exact form_other _ _ _ _ _ (.inr rfl) (.inl hk)
      · intro v hv
        cases hv
        exact ⟨i2, i3, i4, _, _, rfl, rfl, i5⟩
  rw [e7]
  have hta : Dict.get? c7 "tls_auth" = vpnWritten c "tls_auth" := by
    rw [g7]
    unfold uciVpnItem
    simp only [show ("tls_auth" = ".name") = False by simp, show ("tls_auth" = ".type") = False by simp, show ("tls_auth" = "enabled") = False by simp,
      show ("tls_auth" = "name") = False by simp, show ("tls_auth" = "disabled") = False by simp, if_false]
    cases vpnWritten c "tls_auth" <;> simp [uciVpnForm]
  have e8 : tlsAuth env c7 = .ok (c7, none) := by
    unfold tlsAuth
    rw [hta]
    cases e : vpnWritten c "tls_auth" with
    | none => rfl
    | some v =>
      obtain ⟨_, _, _, hv⟩ := written_some h e (by decide) (by decide)
      unfold UciVpnValue at hv
      rw [if_neg (by decide), if_neg (by decide), if_pos rfl] at hv
      obtain ⟨s, rfl, hne, _, hs2⟩ := hv
      simp only [Option.getD_some]
      rw [if_neg (by simp [Val.truthy, hne])]
      simp only [asText, bind, Except.bind]
      rw [if_pos hs2]
      rfl
  dsimp only
  rw [e8]
  exact ⟨sortedDict c7, n, t, ts, rs, ws, rfl, sortedDict_nodup n7, hn, hw, fun k => by rw [get?_sortedDict n7, g7], ht, hr⟩

/-! ## Back -/

/-- `type_cast`, item by item -/
theorem typeCast_want (props : Dict String JType) (item : VDict) (W : String → Option Val) (hn : (Dict.keys item).Nodup)
    (h : ∀ k, (Dict.get? item k = none ∧ W k = none) ∨ ∃ r v, Dict.get? item k = some r ∧ W k = some v ∧ castValue (Dict.get? props k) r = .ok v) :
    ∃ out, typeCast props item = .ok out ∧ (Dict.keys out).Nodup ∧ ∀ k, Dict.get? out k = W k := by
  have hcast : ∀ p ∈ item, castValue (Dict.get? props p.1) p.2 = .ok ((W p.1).getD .none) := by
    intro p hp
    have hg := Dict.get?_of_mem hn (k := p.1) (v := p.2) hp
    rcases h p.1 with ⟨h1, _⟩ | ⟨r, v, h1, h2, h3⟩
    · rw [h1] at hg; cases hg
    · rw [h1] at hg
      cases hg
      rw [h2, h3]; rfl
  refine ⟨_, typeCast_ok props _ item hcast, ?_, ?_⟩
  · have : Dict.keys (item.map (fun p => (p.1, (W p.1).getD .none))) = Dict.keys item := by unfold Dict.keys; rw [List.map_map]; rfl
    rw [this]; exact hn
  · intro k
    rw [Dict.get?_map_val item (fun p => (W p.1).getD .none)]
    rcases h k with ⟨h1, h2⟩ | ⟨r, v, h1, h2, _⟩
    · rw [h1, h2]; rfl
    · rw [h1]; simp [h2]

/-- the options as they are read from the text, before servers and ciphers are taken apart -/
def vpnReadForm (t : Chars) (rs : List Val) (k : String) (v : Val) : Val :=
  if k = "data_ciphers" then txt t else if k = "remote" then .list rs else v

theorem written_dotted {c : VDict} (h : UciVpnOK c) {k : String} (hk : k.toList.head? = some '.') (h1 : k ≠ "name") (h2 : k ≠ "disabled") :
    vpnWritten c k = none := by
  cases e : vpnWritten c k with
  | none => rfl
  | some v => exact absurd hk (written_some h e h1 h2).2.2.1

theorem written_enabled {c : VDict} (h : UciVpnOK c) : vpnWritten c "enabled" = none := by
  unfold vpnWritten; rw [h.enabled]

/-- the written options, plain and read back -/
theorem written_plain {c : VDict} (h : UciVpnOK c) {t : Chars} {rs : List Val}
    (ht : ∀ v, vpnWritten c "data_ciphers" = some v → t ≠ [] ∧ PlainText t)
    (hr : ∀ v, vpnWritten c "remote" = some v → rs ≠ [] ∧ ∀ v ∈ rs, ∃ s, v = .str s ∧ PlainText s.toList)
    {k : String} {v : Val} (hk : vpnWritten c k = some v) (h1 : k ≠ "name") (h2 : k ≠ "disabled") :
    PlainVal (uciVpnForm (fun _ => txt t) (fun _ => .list rs) k v) ∧
      ∃ r, readVal (uciVpnForm (fun _ => txt t) (fun _ => .list rs) k v) = some r ∧
        (k = "server_bridge" → (r = .str "1" ↔ v = .str "") ∧ (v ≠ .str "" → r = v) ∧ ∃ s, v = .str s) ∧
        (k = "tls_cipher" → ∃ s : String, v = .str s ∧ r = .list ((splitOn ':' s.toList).map txt)) ∧
        (k ≠ "server_bridge" → k ≠ "tls_cipher" → castValue (Dict.get? openvpnProps k) r = .ok (vpnReadForm t rs k v)) := by
  obtain ⟨_, _, _, hv⟩ := written_some h hk h1 h2
  by_cases k1 : k = "data_ciphers"
  · subst k1
    obtain ⟨i1, i2⟩ := ht v hk
    have e : uciVpnForm (fun _ => txt t) (fun _ => .list rs) "data_ciphers" v = txt t := by simp [uciVpnForm]
    rw [e]
    have hne : String.ofList t ≠ "" := by
      intro e
      have := congrArg String.toList e
      rw [String.toList_ofList] at this
      exact i1 this
    refine ⟨by show PlainText _; rw [String.toList_ofList]; exact i2, txt t, by simp [txt, readVal, hne], by simp, by simp, fun _ _ => rfl⟩
  by_cases k2 : k = "remote"
  · subst k2
    obtain ⟨i1, i2⟩ := hr v hk
    have e : uciVpnForm (fun _ => txt t) (fun _ => .list rs) "remote" v = .list rs := by simp [uciVpnForm]
    rw [e]
    refine ⟨i2, .list rs, ?_, by simp, by simp, fun _ _ => rfl⟩
    cases rs with
    | nil => exact absurd rfl i1
    | cons => rfl
  by_cases k3 : k = "tls_cipher"
  · subst k3
    unfold UciVpnValue at hv
    rw [if_neg (by decide), if_neg (by decide), if_neg (by decide), if_pos rfl] at hv
    obtain ⟨s, rfl, hs⟩ := hv
    have e : uciVpnForm (fun _ => txt t) (fun _ => .list rs) "tls_cipher" (.str s) = .list ((splitOn ':' s.toList).map txt) := by simp [uciVpnForm, optionText]
    rw [e]
    refine ⟨?_, .list ((splitOn ':' s.toList).map txt), ?_, by simp, fun _ => ⟨s, rfl, rfl⟩, by simp⟩
    · intro v hv
      obtain ⟨w, hw, rfl⟩ := List.mem_map.1 hv
      exact ⟨_, rfl, by rw [String.toList_ofList]; exact (hs w hw).2⟩
    · cases e : splitOn ':' s.toList with
      | nil => exact absurd e (splitOn_ne_nil _ _)
      | cons => rfl
  by_cases k4 : k = "server_bridge"
  · subst k4
    unfold UciVpnValue at hv
    rw [if_neg (by decide), if_neg (by decide), if_neg (by decide), if_neg (by decide), if_pos rfl] at hv
    obtain ⟨s, rfl, hs⟩ := hv
    by_cases he : s = ""
    · subst he
      have e : uciVpnForm (fun _ => txt t) (fun _ => .list rs) "server_bridge" (.str "") = .bool true := by simp [uciVpnForm]
      rw [e]
      exact ⟨trivial, .str "1", rfl, by simp, by simp, by simp⟩
    · have e : uciVpnForm (fun _ => txt t) (fun _ => .list rs) "server_bridge" (.str s) = .str s := by simp [uciVpnForm, he]
      rw [e]
      rcases hs with hs | ⟨hs1, hs⟩
      · exact absurd hs he
      · exact ⟨hs, .str s, by simp [readVal, he], by simp [he, hs1], by simp, by simp⟩
  have e : uciVpnForm (fun _ => txt t) (fun _ => .list rs) k v = v := by simp [uciVpnForm, k1, k2, k3, k4]
  have e' : vpnReadForm t rs k v = v := by simp [vpnReadForm, k1, k2]
  rw [e, e']
  by_cases k5 : k = "tls_auth"
  · subst k5
    unfold UciVpnValue at hv
    rw [if_neg (by decide), if_neg (by decide), if_pos rfl] at hv
    obtain ⟨s, rfl, hne, hp, _⟩ := hv
    exact ⟨hp, .str s, by simp [readVal, hne], by simp, by simp, fun _ _ => rfl⟩
  · have hv : Survives (Dict.get? openvpnProps k) v := by
      unfold UciVpnValue at hv
      rwa [if_neg k1, if_neg k2, if_neg k5, if_neg k3, if_neg k4] at hv
    obtain ⟨r, s1, s2⟩ := survives_spec hv
    exact ⟨survives_plain hv, r, s1, fun e => absurd e k4, fun e => absurd e k3, fun _ _ => s2⟩

theorem uci_vpn_item (env : Env) {c : VDict} (h : UciVpnOK c) :
    ∃ b out, uciVpnBlock env c = .ok (b, none) ∧ PlainBlock b ∧ skipBlock (some ["openvpn"]) (blockBack env.reprC b) = false ∧
      uciNetjsonVpn (blockBack env.reprC b) = .ok out ∧ UciVpnSame out c := by
  obtain ⟨b, n, t, ts, rs, ws, hblk, hnod, hn, hw, hb, ht, hr⟩ := uci_vpn_block env h
  have hplv := fun {k v} => written_plain h (t := t) (rs := rs) (fun v hv => ⟨(ht v hv).1, (ht v hv).2.1⟩) (fun v hv => ⟨(hr v hv).1, (hr v hv).2.1⟩) (k := k) (v := v)
  have hname : IsWord (uciName n.toList) := by
    refine ⟨by simpa [uciName] using hw.1, fun c hc => ?_⟩
    obtain ⟨a, ha, rfl⟩ := List.mem_map.1 hc
    split
    · decide
    · split
      · decide
      · exact hw.2 a ha
  have hplain : PlainBlock b := by
    refine ⟨hnod, ⟨"openvpn", by rw [hb]; rfl, by decide +kernel, by decide, by decide⟩, ⟨String.ofList (uciName n.toList), ?_, by rw [String.toList_ofList]; exact hname⟩, ?_⟩
    · rw [hb]
      unfold uciVpnItem
      rw [if_pos rfl, hn]
      rfl
    · intro k v hk h1 h2
      rw [hb] at hk
      unfold uciVpnItem at hk
      rw [if_neg h2, if_neg h1] at hk
      split_ifs at hk with k1 k2 k3
      · subst k1
        cases hk
        exact ⟨by decide +kernel, by decide, trivial⟩
      · obtain ⟨w, hw1, rfl⟩ := Option.map_eq_some_iff.1 hk
        obtain ⟨_, i1, i2, _⟩ := written_some h hw1 k2 k3
        exact ⟨i1, i2, (hplv hw1 k2 k3).1⟩
  generalize hx : blockBack env.reprC b = x
  have hget : ∀ k, Dict.get? x k = if k = ".type" ∨ k = ".name" then uciVpnItem (fun _ => txt t) (fun _ => .list rs) c k else
      (uciVpnItem (fun _ => txt t) (fun _ => .list rs) c k).bind readVal := by
    intro k; rw [← hx, get?_blockBack _ hplain, hb]
  have hxn : (Dict.keys x).Nodup := by rw [← hx]; exact blockBack_nodup _ hplain
  have gname : Dict.get? x ".name" = some (txt (uciName n.toList)) := by
    rw [hget, if_pos (.inr rfl)]
    unfold uciVpnItem
    rw [if_pos rfl, hn]; rfl
  have gtype : Dict.get? x ".type" = some (.str "openvpn") := by rw [hget]; rfl
  have gen : Dict.get? x "enabled" = some (.str (if Dict.get? c "disabled" == some (.bool true) then "0" else "1")) := by
    rw [hget, if_neg (by decide)]
    unfold uciVpnItem
    rw [if_neg (by decide), if_neg (by decide), if_pos rfl]
    cases (Dict.get? c "disabled" == some (.bool true)) <;> rfl
  have gopt : ∀ k, k ≠ ".name" → k ≠ ".type" → k ≠ "enabled" → k ≠ "name" → k ≠ "disabled" →
      Dict.get? x k = ((vpnWritten c k).map (uciVpnForm (fun _ => txt t) (fun _ => .list rs) k)).bind readVal := by
    intro k h1 h2 h3 h4 h5
    rw [hget, if_neg (by simp [h1, h2])]
    unfold uciVpnItem
    rw [if_neg h1, if_neg h2, if_neg h3, if_neg h4, if_neg h5]
  -- the bridge
  generalize hx1 : (if Dict.get? x "server_bridge" = some (.str "1") then Dict.set x "server_bridge" (.str "") else x) = x1
  have n1 : (Dict.keys x1).Nodup := by
    rw [← hx1]; split
    · exact Dict.nodup_set hxn _ _
    · exact hxn
  have g1 : ∀ k, Dict.get? x1 k = if k = "server_bridge" then vpnWritten c k else Dict.get? x k := by
    intro k
    have hsb := gopt "server_bridge" (by decide) (by decide) (by decide) (by decide) (by decide)
    rw [← hx1]
    by_cases hk : k = "server_bridge"
    · subst hk
      rw [if_pos (c := "server_bridge" = "server_bridge") rfl]
      cases e : vpnWritten c "server_bridge" with
      | none => rw [e] at hsb; rw [if_neg (by rw [hsb]; simp), hsb]; rfl
      | some v =>
        obtain ⟨_, r, i1, i2, _, _⟩ := hplv e (by decide) (by decide)
        obtain ⟨j1, j2, _⟩ := i2 rfl
        rw [e, Option.map_some, Option.bind_some, i1] at hsb
        rw [hsb]
        by_cases hv : v = .str ""
        · rw [if_pos (by rw [j1.2 hv]), Dict.get?_set', if_pos rfl, hv]
        · rw [if_neg (by rw [Option.some.injEq, j1]; exact hv), hsb, j2 hv]
    · rw [if_neg (c := k = "server_bridge") hk]
      split
      · rw [Dict.get?_set', if_neg hk]
      · rfl
  generalize hx3 : Dict.erase (Dict.set (Dict.erase (Dict.set (Dict.erase x1 "enabled") "disabled" (.bool (Dict.get? c "disabled" == some (.bool true)))) ".name")
    "name" (txt (uciName n.toList))) ".type" = x3
  have n3 : (Dict.keys x3).Nodup := by
    rw [← hx3]
    exact Dict.nodup_erase (Dict.nodup_set (Dict.nodup_erase (Dict.nodup_set (Dict.nodup_erase n1 _) _ _) _) _ _) _
  have g3 : ∀ k, Dict.get? x3 k = if k = "name" then some (txt (uciName n.toList)) else
      if k = "disabled" then some (.bool (Dict.get? c "disabled" == some (.bool true))) else
      if k = "server_bridge" then vpnWritten c k else ((vpnWritten c k).map (uciVpnForm (fun _ => txt t) (fun _ => .list rs) k)).bind readVal := by
    intro k
    rw [← hx3]
    simp only [Dict.get?_set', Dict.get?_erase', g1]
    by_cases k1 : k = ".type"
    · subst k1
      rw [written_dotted h (by decide) (by decide) (by decide)]
      rfl
    rw [if_neg k1]
    by_cases k2 : k = "name"
    · rw [if_pos k2, if_pos k2]
    rw [if_neg k2, if_neg (c := k = "name") k2]
    by_cases k3 : k = ".name"
    · subst k3
      rw [written_dotted h (by decide) (by decide) (by decide)]
      rfl
    rw [if_neg k3]
    by_cases k4 : k = "disabled"
    · rw [if_pos k4, if_pos k4]
    rw [if_neg k4, if_neg (c := k = "disabled") k4]
    by_cases k5 : k = "enabled"
    · subst k5
      rw [written_enabled h]
      rfl
    rw [if_neg k5, gopt k k3 k1 k5 k2 k4]
  clear g1
  -- the ciphers of the control channel
  obtain ⟨x4, e4, n4, g4⟩ : ∃ x4, tlsCipherText x3 = .ok x4 ∧ (Dict.keys x4).Nodup ∧ ∀ k, Dict.get? x4 k =
      if k = "tls_cipher" then vpnWritten c k else Dict.get? x3 k := by
    have hc := g3 "tls_cipher"
    rw [if_neg (by decide), if_neg (by decide), if_neg (by decide)] at hc
    unfold tlsCipherText
    cases e : vpnWritten c "tls_cipher" with
    | none =>
      rw [e] at hc
      rw [hc]
      refine ⟨x3, rfl, n3, fun k => ?_⟩
      by_cases hk : k = "tls_cipher"
      · subst hk; rw [if_pos rfl, hc, e]; rfl
      · rw [if_neg hk]
    | some v =>
      obtain ⟨_, r, i1, _, i3, _⟩ := hplv e (by decide) (by decide)
      obtain ⟨s, rfl, rfl⟩ := i3 rfl
      rw [e, Option.map_some, Option.bind_some, i1] at hc
      rw [hc]
      have hm : ((splitOn ':' s.toList).map txt).mapM textItem = .ok (splitOn ':' s.toList) := by
        generalize splitOn ':' s.toList = l
        induction l with
        | nil => rfl
        | cons w l ih =>
          rw [List.map_cons, mapM_ok_cons]
          exact ⟨w, l, by simp [textItem, txt], ih, rfl⟩
      have hj : txt (joinWith [':'] (splitOn ':' s.toList)) = .str s := by
        rw [joinWith_splitOn]; simp [txt]
      refine ⟨Dict.set x3 "tls_cipher" (.str s), ?_, Dict.nodup_set n3 _ _, fun k => ?_⟩
      · cases e' : splitOn ':' s.toList with
        | nil => exact absurd e' (splitOn_ne_nil _ _)
        | cons a l =>
          rw [e'] at hm hj
          rw [List.map_cons] at hm ⊢
          dsimp only
          rw [hm]
          show Except.ok (Dict.set x3 "tls_cipher" (txt (joinWith [':'] (a :: l)))) = _
          rw [hj]
      · rw [Dict.get?_set']
        by_cases hk : k = "tls_cipher"
        · subst hk; rw [if_pos rfl, if_pos rfl, e]
        · rw [if_neg hk, if_neg hk]
  -- the types
  obtain ⟨x5, e5, n5, g5⟩ := typeCast_want openvpnProps x4 (fun k => if k = "name" then some (txt (uciName n.toList)) else
      if k = "disabled" then some (.bool (Dict.get? c "disabled" == some (.bool true))) else (vpnWritten c k).map (vpnReadForm t rs k)) n4 (by
    intro k
    rw [g4, g3]
    by_cases k1 : k = "name"
    · subst k1; exact .inr ⟨_, _, rfl, rfl, rfl⟩
    by_cases k2 : k = "disabled"
    · subst k2; exact .inr ⟨_, _, rfl, rfl, rfl⟩
    simp only [k1, k2, if_false]
    cases e : vpnWritten c k with
    | none => left; simp
    | some v =>
      right
      obtain ⟨_, r, i1, i2, i3, i4⟩ := hplv e k1 k2
      by_cases k3 : k = "tls_cipher"
      · subst k3
        obtain ⟨s, rfl, _⟩ := i3 rfl
        exact ⟨_, _, rfl, rfl, rfl⟩
      by_cases k4 : k = "server_bridge"
      · subst k4
        exact ⟨v, _, rfl, rfl, rfl⟩
      rw [if_neg k3, if_neg k4, Option.map_some, Option.bind_some, i1]
      exact ⟨_, _, rfl, rfl, i4 k4 k3⟩)
  have e6 : bareBridgeBack x5 = x5 := by
    unfold bareBridgeBack
    rw [if_neg]
    rw [g5]
    simp only [show ("server_bridge" = "name") = False by simp, show ("server_bridge" = "disabled") = False by simp, if_false]
    cases e : vpnWritten c "server_bridge" with
    | none => simp
    | some v =>
      obtain ⟨_, r, _, i2, _⟩ := hplv e (by decide) (by decide)
      obtain ⟨_, _, s, rfl⟩ := i2 rfl
      simp [vpnReadForm]
  -- the servers
  obtain ⟨x7, e7, g7⟩ : ∃ x7, remotesBack x5 = .ok x7 ∧ ∀ k, Dict.get? x7 k =
      if k = "remote" then (vpnWritten c k).map (fun _ => .list ws) else Dict.get? x5 k := by
    have hc := g5 "remote"
    simp only [show ("remote" = "name") = False by simp, show ("remote" = "disabled") = False by simp, if_false] at hc
    unfold remotesBack
    cases e : vpnWritten c "remote" with
    | none =>
      rw [e] at hc
      rw [hc]
      refine ⟨x5, rfl, fun k => ?_⟩
      by_cases hk : k = "remote"
      · subst hk; rw [if_pos rfl, hc, e]; rfl
      · rw [if_neg hk]
    | some v =>
      rw [e, show (some v).map (vpnReadForm t rs "remote") = some (.list rs) by simp [vpnReadForm]] at hc
      rw [hc]
      refine ⟨Dict.set x5 "remote" (.list ws), ?_, fun k => ?_⟩
      · dsimp only
        rw [(hr v e).2.2.1]; rfl
      · rw [Dict.get?_set']
        by_cases hk : k = "remote"
        · subst hk; rw [if_pos rfl, if_pos rfl, e]; rfl
        · rw [if_neg hk, if_neg hk]
  -- the ciphers
  obtain ⟨x8, e8, g8⟩ : ∃ x8, dataCiphersBack x7 = .ok x8 ∧ ∀ k, Dict.get? x8 k =
      if k = "data_ciphers" then (vpnWritten c k).map (fun _ => .list (ts.map cipherBack)) else Dict.get? x7 k := by
    have hc := g7 "data_ciphers"
    rw [if_neg (by decide), g5] at hc
    simp only [show ("data_ciphers" = "name") = False by simp, show ("data_ciphers" = "disabled") = False by simp, if_false] at hc
    unfold dataCiphersBack
    cases e : vpnWritten c "data_ciphers" with
    | none =>
      rw [e] at hc
      rw [hc]
      refine ⟨x7, rfl, fun k => ?_⟩
      by_cases hk : k = "data_ciphers"
      · subst hk; rw [if_pos rfl, hc, e]; rfl
      · rw [if_neg hk]
    | some v =>
      obtain ⟨i1, _, i3, _⟩ := ht v e
      rw [e, show (some v).map (vpnReadForm t rs "data_ciphers") = some (txt t) by simp [vpnReadForm]] at hc
      rw [hc]
      refine ⟨Dict.set x7 "data_ciphers" (.list (ts.map cipherBack)), ?_, fun k => ?_⟩
      · have hne : String.ofList t ≠ "" := by
          intro e
          have := congrArg String.toList e
          rw [String.toList_ofList] at this
          exact i1 this
        simp only [Option.getD_some]
        rw [if_neg (by simp [Val.truthy, txt, hne])]
        simp only [txt, asText, bind, Except.bind, String.toList_ofList, i3]
        rfl
      · rw [Dict.get?_set']
        by_cases hk : k = "data_ciphers"
        · subst hk; rw [if_pos rfl, if_pos rfl, e]; rfl
        · rw [if_neg hk, if_neg hk]
  refine ⟨b, x8, hblk, hplain, ?_, ?_, ⟨n, hn, ?_⟩, ?_, ?_⟩
  · rw [hx]
    unfold skipBlock
    cases x with
    | nil => simp at gname
    | cons p r => rw [gtype]; rfl
  · rw [hx]
    unfold uciNetjsonVpn
    dsimp only
    rw [hx1]
    have hen : Dict.get? x1 "enabled" = Dict.get? x "enabled" := by
      rw [← hx1]; split
      · rw [Dict.get?_set', if_neg (by decide)]
      · rfl
    have hnm : Dict.get? x1 ".name" = Dict.get? x ".name" := by
      rw [← hx1]; split
      · rw [Dict.get?_set', if_neg (by decide)]
      · rfl
    have hty : Dict.get? x1 ".type" = Dict.get? x ".type" := by
      rw [← hx1]; split
      · rw [Dict.get?_set', if_neg (by decide)]
      · rfl
    have hpop : popOr x1 "enabled" (.str "0") = (.str (if Dict.get? c "disabled" == some (.bool true) then "0" else "1"), Dict.erase x1 "enabled") := by
      unfold popOr; rw [hen, gen]; rfl
    rw [hpop]
    dsimp only
    have hdis : decide (Val.str (if Dict.get? c "disabled" == some (.bool true) then "0" else "1") = .str "0") =
        (Dict.get? c "disabled" == some (.bool true)) := by
      cases (Dict.get? c "disabled" == some (.bool true)) <;> simp
    rw [hdis, popKey_ok (v := txt (uciName n.toList)) (by rw [Dict.get?_set', if_neg (by decide), Dict.get?_erase', if_neg (by decide), hnm, gname])]
    simp only [bind, Except.bind]
    rw [popKey_ok (v := .str "openvpn") (by
      rw [Dict.get?_set', if_neg (by decide), Dict.get?_erase', if_neg (by decide), Dict.get?_set', if_neg (by decide), Dict.get?_erase',
        if_neg (by decide), hty, gtype])]
    dsimp only
    rw [hx3, e4]
    dsimp only
    unfold netjsonVpn
    rw [e5]
    simp only [bind, Except.bind]
    rw [e6, e7]
    exact e8
  · rw [g8, if_neg (by decide), g7, if_neg (by decide), g5]
    rfl
  · rw [g8, if_neg (by decide), g7, if_neg (by decide), g5]
    rfl
  · intro k k1 k2
    rw [g8, g7, g5]
    cases e : vpnWritten c k with
    | none => left; simp [k1, k2]
    | some v =>
      right
      refine ⟨v, ?_⟩
      by_cases k3 : k = "data_ciphers"
      · subst k3
        refine ⟨_, rfl, rfl, ?_⟩
        unfold OptionSame
        rw [if_pos rfl]
        exact (ht v e).2.2.2
      by_cases k4 : k = "remote"
      · subst k4
        exact ⟨_, rfl, rfl, (hr v e).2.2.2⟩
      · refine ⟨v, rfl, by simp [k1, k2, k3, k4, vpnReadForm], ?_⟩
        unfold OptionSame
        rw [if_neg k3, if_neg k4]

/-- **C79.** The VPNs of an OpenWrt configuration, converted to UCI text and back, are the same list of VPNs: each with its name (as
UCI allows it), whether it is disabled, and all the options that are written, with the values they were given. -/
theorem C79_round_trip (env : Env) (config : VDict) (l : List VDict) (hne : l ≠ [])
    (hk : Dict.get? config "openvpn" = some (.list (l.map .dict))) (h : ∀ c ∈ l, UciVpnOK c) :
    ∃ rs, viaText env.reprC (uciVpnConv env) uciVpnBConv config = .ok [("openvpn", .list (rs.map .dict))] ∧ List.Forall₂ UciVpnSame rs l := by
  obtain ⟨bs, hbs⟩ : ∃ bs : List VDict, List.Forall₂ (fun c b => uciVpnBlock env c = .ok (b, none) ∧ PlainBlock b ∧
      skipBlock (some ["openvpn"]) (blockBack env.reprC b) = false ∧ ∃ out, uciNetjsonVpn (blockBack env.reprC b) = .ok out ∧ UciVpnSame out c) l bs := by
    apply forall2_of_forall
    intro c hc
    obtain ⟨b, out, h1, h2, h3, h4, h5⟩ := uci_vpn_item env (h c hc)
    exact ⟨b, h1, h2, h3, out, h4, h5⟩
  have hbne : bs ≠ [] := by
    rintro rfl
    cases hbs
    exact hne rfl
  have hpl : ∀ b ∈ bs, PlainBlock b ∧ skipBlock (some ["openvpn"]) (blockBack env.reprC b) = false := by
    clear hk h hne hbne
    induction hbs with
    | nil => simp
    | cons h1 _ ih =>
      intro b hb
      rcases List.mem_cons.1 hb with rfl | hb
      · exact ⟨h1.2.1, h1.2.2.1⟩
      · exact ih b hb
  obtain ⟨outs, h1, h2⟩ : ∃ outs : List VDict, List.Forall₂ (fun r o => uciNetjsonVpn r = .ok o) (bs.map (blockBack env.reprC)) outs ∧ List.Forall₂ UciVpnSame outs l := by
    clear hk h hne hbne hpl
    induction hbs with
    | nil => exact ⟨[], .nil, .nil⟩
    | cons h1 _ ih =>
      obtain ⟨outs, i1, i2⟩ := ih
      obtain ⟨o, j1, j2⟩ := h1.2.2.2
      exact ⟨o :: outs, .cons j1 i1, .cons j2 i2⟩
  refine ⟨outs, ?_, h2⟩
  obtain ⟨t, ht1, ht2⟩ := text_back env.reprC [("openvpn", bs)] (by simp) (by
    intro p hp
    simp only [List.mem_singleton] at hp
    subst hp
    exact (by decide +kernel : IsWord "openvpn".toList)) (by
    intro p hp b hb
    simp only [List.mem_singleton] at hp
    subst hp
    exact (hpl b hb).1)
  have hsk : ∀ b ∈ bs.map (blockBack env.reprC), skipBlock (some ["openvpn"]) b = false := by
    intro b hb
    obtain ⟨c, hc, rfl⟩ := List.mem_map.1 hb
    exact (hpl c hc).2
  have hsec := backFold_section (some ["openvpn"]) (vpnBack uciNetjsonVpn) "openvpn" (fun _ => uciNetjsonVpn) (fun _ _ _ => rfl)
    (bs.map (blockBack env.reprC)) outs (by simpa using hbne) hsk (mapIdxM_const 1 h1)
  have hrun := bwd_split "openvpn" (some ["openvpn"]) () (fun i b (acc : Unit × VDict) => do let r ← vpnBack uciNetjsonVpn i b acc.2; pure ((), r))
    [] [("openvpn", .list ((bs.map (blockBack env.reprC)).map .dict))] [("openvpn", .list ((bs.map (blockBack env.reprC)).map .dict))]
    (bs.map (blockBack env.reprC)) [] _ (by simp) hsk (by simp) hsec
  refine viaText_eq (inter := [("openvpn", .list (bs.map .dict))]) (inter' := [("openvpn", .list ((bs.map (blockBack env.reprC)).map .dict))]) (text := t) ?_ ?_ ht1 ht2 rfl ?_
  · show Dict.has config "openvpn" = true
    simp [Dict.has, hk]
  · show (vpnRun (uciVpnBlock env) config []).2 = _
    unfold vpnRun
    rw [hk]
    simp only [Option.getD_some]
    rw [vpnBlocks_none config (hbs.imp (fun _ _ h => h.1))]
    have : (bs.map Val.dict).isEmpty = false := by
      cases bs with
      | nil => exact absurd rfl hbne
      | cons => rfl
    simp only [bind, Except.bind, this]
    rfl
  · exact congrArg Prod.snd hrun

/-! ## The hypotheses are met -/

def sampleUciVpn : VDict :=
  [("name", .str "home.vpn"), ("dev", .str "tun0"), ("disabled", .bool true), ("fragment", .int 0), ("script_security", .int 1), ("port", .int 1194), ("persist_key", .bool false),
   ("remote", .list [.dict [("host", .str "vpn1.example.com"), ("port", .int 1194), ("proto", .str "udp")],
     .dict [("port", .int 443), ("host", .str "10.0.0.1"), ("proto", .str "auto")]]),
   ("data_ciphers", .list [.dict [("cipher", .str "AES-128-GCM"), ("optional", .bool false)], .dict [("optional", .bool true), ("cipher", .str "AES-256-GCM")]]),
   ("tls_cipher", .str "TLS-A:TLS-B"), ("server_bridge", .str ""), ("tls_auth", .str "/etc/x/tls.key 1"), ("up", .str ""), ("status_version", .int 2)]

theorem sample_uci_vpn : UciVpnOK sampleUciVpn := by
  refine ⟨by decide +kernel, ⟨"home.vpn", rfl, by decide +kernel⟩, ?_, by rfl, ?_⟩
  · intro v hv
    exact ⟨true, (Option.some.inj hv).symm⟩
  · intro k v hk h1 h2
    have hm := Dict.mem_of_get? hk
    simp only [sampleUciVpn, List.mem_cons, List.not_mem_nil, or_false, Prod.mk.injEq] at hm
    have hsv : ∀ {k : String} {v : Val}, k ∉ ["data_ciphers", "remote", "tls_auth", "tls_cipher", "server_bridge"] → survivesB (Dict.get? openvpnProps k) v = true → UciVpnValue k v := by
      intro k v hk hv
      simp only [List.mem_cons, List.not_mem_nil, or_false, not_or] at hk
      unfold UciVpnValue
      rw [if_neg hk.1, if_neg hk.2.1, if_neg hk.2.2.1, if_neg hk.2.2.2.1, if_neg hk.2.2.2.2]
      exact survivesB_sound hv
    rcases hm with ⟨rfl, rfl⟩ | ⟨rfl, rfl⟩ | ⟨rfl, rfl⟩ | ⟨rfl, rfl⟩ | ⟨rfl, rfl⟩ | ⟨rfl, rfl⟩ | ⟨rfl, rfl⟩ | ⟨rfl, rfl⟩ | ⟨rfl, rfl⟩ | ⟨rfl, rfl⟩ | ⟨rfl, rfl⟩ |
      ⟨rfl, rfl⟩ | ⟨rfl, rfl⟩ | ⟨rfl, rfl⟩
    · exact absurd rfl h1
    · exact ⟨by decide +kernel, by decide, .inr (.inr (hsv (by decide) (by decide +kernel)))⟩
    · exact absurd rfl h2
    · exact ⟨by decide +kernel, by decide, .inr (.inl ⟨rfl, rfl⟩)⟩
    · exact ⟨by decide +kernel, by decide, .inr (.inr (hsv (by decide) (by decide +kernel)))⟩
    · exact ⟨by decide +kernel, by decide, .inr (.inr (hsv (by decide) (by decide +kernel)))⟩
    · exact ⟨by decide +kernel, by decide, .inr (.inr (hsv (by decide) (by decide +kernel)))⟩
    · refine ⟨by decide +kernel, by decide, .inr (.inr ?_)⟩
      unfold UciVpnValue
      rw [if_neg (by decide), if_pos rfl]
      refine ⟨_, rfl, by simp, ?_⟩
      intro x hx
      have other : ∀ {d : VDict} {k : String}, Dict.keys d = ["host", "port", "proto"] ∨ Dict.keys d = ["port", "host", "proto"] →
          k ≠ "host" → k ≠ "port" → k ≠ "proto" → Dict.get? d k = none := by
        intro d k hd h1 h2 h3
        rw [Dict.get?_eq_none_iff]
        rcases hd with hd | hd <;> rw [hd] <;> simp [h1, h2, h3]
      simp only [List.mem_cons, List.not_mem_nil, or_false] at hx
      rcases hx with rfl | rfl
      · exact ⟨_, _, _, rfl, rfl, by decide +kernel, rfl, .inr ⟨_, rfl, by decide +kernel⟩, fun k => other (.inl rfl)⟩
      · exact ⟨_, _, _, rfl, rfl, by decide +kernel, rfl, .inr ⟨_, rfl, by decide +kernel⟩, fun k => other (.inr rfl)⟩
    · refine ⟨by decide +kernel, by decide, .inr (.inr ?_)⟩
      unfold UciVpnValue
      rw [if_pos rfl]
      refine ⟨_, rfl, by simp, ?_⟩
      intro x hx
      simp only [List.mem_cons, List.not_mem_nil, or_false] at hx
      rcases hx with rfl | rfl
      · refine ⟨⟨_, "AES-128-GCM", false, rfl, fun k => rfl, by decide, by decide +kernel, by decide⟩, ?_⟩
        intro d n hd hn
        cases hd
        have := Option.some.inj hn
        cases this
        decide +kernel
      · refine ⟨⟨_, "AES-256-GCM", true, rfl, ?_, by decide, by decide +kernel, by decide⟩, ?_⟩
        · intro k
          by_cases e1 : k = "cipher"
          · subst e1; rfl
          by_cases e2 : k = "optional"
          · subst e2; rfl
          · simp [Dict.get?, Ne.symm e1, Ne.symm e2]
        · intro d n hd hn
          cases hd
          have := Option.some.inj hn
          cases this
          decide +kernel
    · refine ⟨by decide +kernel, by decide, .inr (.inr ?_)⟩
      unfold UciVpnValue
      rw [if_neg (by decide), if_neg (by decide), if_neg (by decide), if_pos rfl]
      exact ⟨_, rfl, by decide +kernel⟩
    · exact ⟨by decide +kernel, by decide, .inl ⟨rfl, by decide, by decide⟩⟩
    · refine ⟨by decide +kernel, by decide, .inr (.inr ?_)⟩
      unfold UciVpnValue
      rw [if_neg (by decide), if_neg (by decide), if_pos rfl]
      exact ⟨_, rfl, by decide, by decide +kernel, by decide +kernel⟩
    · exact ⟨by decide +kernel, by decide, .inl ⟨rfl, by decide, by decide⟩⟩
    · exact ⟨by decide +kernel, by decide, .inr (.inr (hsv (by decide) (by decide +kernel)))⟩

example : ∃ rs, viaText sampleEnv.reprC (uciVpnConv sampleEnv) uciVpnBConv [("openvpn", .list ([sampleUciVpn].map .dict))] =
    .ok [("openvpn", .list (rs.map .dict))] ∧ List.Forall₂ UciVpnSame rs [sampleUciVpn] := by
  refine C79_round_trip sampleEnv _ [sampleUciVpn] (by simp) rfl ?_
  intro c hc
  simp only [List.mem_singleton] at hc
  subst hc
  exact sample_uci_vpn

/-- C79 needs its conditions: an option whose text is `1` comes back empty for `server_bridge`. -/
theorem C79_needs_bridge : viaText sampleEnv.reprC (uciVpnConv sampleEnv) uciVpnBConv
    [("openvpn", .list [.dict [("name", .str "v"), ("server_bridge", .str "1")]])] =
    .ok [("openvpn", .list [.dict [("server_bridge", .str ""), ("disabled", .bool false), ("name", .str "v")]])] := by decide +kernel

end NJ
