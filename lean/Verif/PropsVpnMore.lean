import Verif.PropsVpnRound
import Verif.PropsBackend

/-!
# OpenVPN: data ciphers (C58), automatic clients (C61), limits of the round trip (C57), archive
-/

namespace NJ

/-! ## C58 -/

/-- the text of a cipher: its name, after a question mark when it is optional -/
def cipherSpec (v : Val) : Chars :=
  match v with
  | .dict d => match Dict.get? d "cipher", Dict.get? d "optional" with
    | some (.str n), some (.bool true) => '?' :: n.toList
    | some (.str n), _ => n.toList
    | _, _ => []
  | _ => []

theorem cipherSpec_eq (env : Env) {l : List Val} {ts : List Chars} (h : ∀ x ∈ l, CipherOK x) (hm : l.mapM (cipherText env) = .ok ts) : ts = l.map cipherSpec := by
  induction l generalizing ts with
  | nil => cases hm; rfl
  | cons v l ih =>
    rw [mapM_ok_cons] at hm
    obtain ⟨t, ts', h1, h2, rfl⟩ := hm
    rw [List.map_cons, ← ih (fun x hx => h x (by simp [hx])) h2]
    congr 1
    obtain ⟨d, n, o, rfl, hs, _⟩ := h v (by simp)
    have e1 : Dict.get? d "cipher" = some (.str n) := by rw [hs]; rfl
    have e2 : Dict.get? d "optional" = some (.bool o) := by rw [hs]; simp [Dict.get?]
    have h1 : (do
      let name ← getKey d "cipher"
      let optional ← getKey d "optional"
      pure (if optional.truthy then '?' :: (pyStr env.reprC name).toList else (pyStr env.reprC name).toList) : Except PyErr Chars) = .ok t := h1
    rw [getKey_ok e1, getKey_ok e2] at h1
    unfold cipherSpec
    dsimp only
    cases o with
    | true => rw [e1, e2]; cases h1; rfl
    | false => rw [e1, e2]; cases h1; rfl

/-- **C58.** A list of data ciphers is rendered as their names with colons between them, optional ones after a question mark,
and the text is read as the same list. (Through the whole object: `C57_round_trip`.) -/
theorem C58_ciphers (env : Env) (c : VDict) (l : List Val) (hne : l ≠ []) (h : ∀ x ∈ l, CipherOK x)
    (hk : Dict.get? c "data_ciphers" = some (.list l)) :
    ∃ c', dataCiphers env c = .ok c' ∧ Dict.get? c' "data_ciphers" = some (txt (joinWith [':'] (l.map cipherSpec))) ∧
      ∀ r, Dict.get? r "data_ciphers" = some (txt (joinWith [':'] (l.map cipherSpec))) →
        ∃ r' v, dataCiphersBack r = .ok r' ∧ Dict.get? r' "data_ciphers" = some v ∧ SameDicts v (.list l) := by
  obtain ⟨ts, h1, h2, _, h4, h5⟩ := ciphers_ok env hne h
  have e := cipherSpec_eq env h h1
  subst e
  refine ⟨Dict.set c "data_ciphers" (txt (joinWith [':'] (l.map cipherSpec))), ?_, by rw [Dict.get?_set', if_pos rfl], ?_⟩
  · unfold dataCiphers
    rw [hk]
    simp only [Option.getD_some]
    rw [if_neg (by cases l with
      | nil => exact absurd rfl hne
      | cons => simp [Val.truthy]), h1]
    rfl
  · intro r hr
    refine ⟨Dict.set r "data_ciphers" (.list ((l.map cipherSpec).map cipherBack)), _, ?_, by rw [Dict.get?_set', if_pos rfl], _, _, rfl, rfl, h5⟩
    unfold dataCiphersBack
    rw [hr]
    simp only [Option.getD_some]
    have hne : String.ofList (joinWith [':'] (l.map cipherSpec)) ≠ "" := by
      intro e
      have := congrArg String.toList e
      rw [String.toList_ofList] at this
      exact h2.1.ne this
    rw [if_neg (by simp [Val.truthy, txt, hne])]
    simp only [txt, asText, bind, Except.bind, String.toList_ofList, h4]
    rfl

/-! ## C61: automatic clients -/

/-- **Specification.** What the client asks of the certificate of the server: "server" when the server asks for "client" -/
def certSpec (v : Option Val) : Val := if v = some (.str "client") then .str "server" else .str ""

/-- **Specification.** A path is used only when there are contents too -/
def fileSpec (pc : Val × Val) (server : VDict) (k : String) : Option Val :=
  if pc.1.truthy ∧ pc.2.truthy then some pc.1 else Dict.get? server k

/-- **Specification.** Every option of the client -/
def clientOption (host : Val) (server : VDict) (ca cert key : Val × Val) (k : String) : Option Val :=
  if k = "mode" then some (.str "p2p")
  else if k = "nobind" then some (.bool true)
  else if k = "resolv_retry" then some (.str "infinite")
  else if k = "remote" then
    some (.list [.dict [("host", host), ("port", match Dict.get? server "port" with
      | some p => if p.truthy then p else .int 1195
      | none => .int 1195)]])
  else if k = "proto" then some (.str (if Dict.get? server "proto" = some (.str "tcp-server") then "tcp-client" else "udp"))
  else if k = "pull" then if (Dict.get? server "server").isSome ∨ (Dict.get? server "server_bridge").isSome then some (.bool true) else none
  else if k = "tls_client" then some (.bool (match Dict.get? server "tls_server" with
    | some v => v.truthy
    | none => false))
  else if k = "ns_cert_type" then some (certSpec (Dict.get? server k))
  else if k = "remote_cert_tls" then some (certSpec (Dict.get? server k))
  else if k = "tls_auth" then
    match Dict.get? server k with
    | some (.str t) => if t = "" ∨ (splitOn ' ' (strip t.toList)).length = 2 then none else some (.str t)
    | _ => none
  else if k = "script_security" then if (Dict.get? server k).isSome then some (.int 2) else none
  else if k = "log" then
    match Dict.get? server k with
    | some (.str t) => some (txt (replaceAll "/var/log/openvpn/".toList "/var/log/".toList t.toList))
    | _ => none
  else if k = "ca" then fileSpec ca server k
  else if k = "cert" then fileSpec cert server k
  else if k = "key" then fileSpec key server k
  else if k ∈ copyKeys then Dict.get? server k
  else none

/-- **Specification.** The files of the client -/
def clientFiles (ca cert key : Val × Val) : List Val :=
  [ca, cert, key].flatMap (fun pc => if pc.1.truthy ∧ pc.2.truthy then
    [.dict [("path", pc.1), ("contents", pc.2), ("mode", .str "0600")]] else [])

theorem foldl_copyKey (server : VDict) (ks : List String) (client : VDict) (k : String) :
    Dict.get? (ks.foldl (copyKey server) client) k = if k ∈ ks then (Dict.get? server k).or (Dict.get? client k) else Dict.get? client k := by
  induction ks generalizing client with
  | nil => simp
  | cons x ks ih =>
    rw [List.foldl_cons, ih]
    have hx : Dict.get? (copyKey server client x) k = if k = x then (Dict.get? server k).or (Dict.get? client k) else Dict.get? client k := by
      unfold copyKey
      split
      · next v e =>
        rw [Dict.get?_set']
        by_cases hk : k = x
        · subst hk; simp [e]
        · simp [hk]
      · next e =>
        by_cases hk : k = x
        · subst hk; simp [e]
        · simp [hk]
    rw [hx]
    by_cases h1 : k = x
    · subst h1
      by_cases h2 : k ∈ ks
      · simp [h2]
        cases Dict.get? server k <;> rfl
      · simp [h2]
    · simp [h1]

theorem certType_ok {o : Option Val} {v : Val} (h : certType (o.getD .none) = .ok v) : v = certSpec o := by
  unfold certType at h
  unfold certSpec
  cases o with
  | none => cases h; rfl
  | some w =>
    simp only [Option.getD_some] at h
    split at h <;> first
      | (cases h; first | rfl | simp)
      | cases h

theorem clientFile_spec (key : String) (pc : Val × Val) (c : VDict) (fs : List Val) :
    (clientFile key pc.1 pc.2 (c, fs)).2 = fs ++ (if pc.1.truthy ∧ pc.2.truthy then
      [.dict [("path", pc.1), ("contents", pc.2), ("mode", .str "0600")]] else []) ∧
    ∀ k, Dict.get? (clientFile key pc.1 pc.2 (c, fs)).1 k = if k = key ∧ (pc.1.truthy ∧ pc.2.truthy) then some pc.1 else Dict.get? c k := by
  unfold clientFile
  by_cases h : pc.1.truthy ∧ pc.2.truthy
  · rw [if_pos (by simp [h.1, h.2]), if_pos h]
    refine ⟨rfl, fun k => ?_⟩
    rw [Dict.get?_set']
    by_cases hk : k = key <;> simp [hk, h]
  · rw [if_neg (by simpa using h), if_neg h]
    refine ⟨by simp, fun k => ?_⟩
    rw [if_neg (by simp only [not_and]; intro _ h1 h2; exact h ⟨h1, h2⟩)]

theorem clientBase_get (host : Val) (server : VDict) (k : String) :
    Dict.get? (clientBase host server) k =
      if k ∈ ["mode", "nobind", "resolv_retry", "remote", "proto", "pull", "tls_client"] then clientOption host server (.none, .none) (.none, .none) (.none, .none) k
      else none := by
  have hport : (match Dict.get? server "port" with
      | some p => if p.truthy then p else .int 1195
      | none => .int 1195) = (if ((Dict.get? server "port").getD .none).truthy then (Dict.get? server "port").getD .none else .int 1195) := by
    cases Dict.get? server "port" with
    | none => rfl
    | some p => rfl
  have htls : (match Dict.get? server "tls_server" with
    | some v => v.truthy
    | none => false) = ((Dict.get? server "tls_server").getD .none).truthy := by
    cases Dict.get? server "tls_server" with
    | none => rfl
    | some p => rfl
  unfold clientBase clientOption
  rw [hport, htls]
  dsimp only
  generalize (if ((Dict.get? server "port").getD Val.none).truthy = true then (Dict.get? server "port").getD Val.none else Val.int 1195) = port
  generalize ((Dict.get? server "tls_server").getD Val.none).truthy = tls
  have hp : (Dict.has server "server" || Dict.has server "server_bridge") = true ↔
      ((Dict.get? server "server").isSome ∨ (Dict.get? server "server_bridge").isSome) := by
    simp [Dict.has]
  generalize e : (Dict.has server "server" || Dict.has server "server_bridge") = pull at hp
  generalize (if Dict.get? server "proto" = some (Val.str "tcp-server") then "tcp-client" else "udp") = proto
  have hp' : (if (Dict.get? server "server").isSome ∨ (Dict.get? server "server_bridge").isSome then some (Val.bool true) else none) =
    if pull = true then some (.bool true) else none := by
    by_cases h : pull = true
    · rw [if_pos (hp.1 h), if_pos h]
    · rw [if_neg (fun x => h (hp.2 x)), if_neg h]
  rw [hp']
  by_cases hk : k ∈ ["mode", "nobind", "resolv_retry", "remote", "proto", "pull", "tls_client"]
  · rw [if_pos hk]
    simp only [List.mem_cons, List.not_mem_nil, or_false] at hk
    rcases hk with rfl | rfl | rfl | rfl | rfl | rfl | rfl <;> cases tls <;> cases pull <;> rfl
  · rw [if_neg hk]
    simp only [List.mem_cons, List.not_mem_nil, or_false, not_or] at hk
    obtain ⟨h1, h2, h3, h4, h5, h6, h7⟩ := hk
    cases tls <;> cases pull <;> simp [Dict.get?_set', Dict.get?_cons, Ne.symm h1, Ne.symm h2, Ne.symm h3, Ne.symm h4, Ne.symm h5, h6, h7, Ne.symm h7]

theorem clientTlsAuth_get {host : Val} {ca cert key : Val × Val} {server c c' : VDict} (h : clientTlsAuth server c = .ok c') (hc : Dict.get? c "tls_auth" = none) (k : String) :
    Dict.get? c' k = if k = "tls_auth" then clientOption host server ca cert key k else Dict.get? c k := by
  have hs : clientOption host server ca cert key "tls_auth" = (match Dict.get? server "tls_auth" with
    | some (.str t) => if t = "" ∨ (splitOn ' ' (strip t.toList)).length = 2 then none else some (.str t)
    | _ => none) := rfl
  unfold clientTlsAuth at h
  dsimp only at h
  by_cases hk : k = "tls_auth"
  · subst hk
    rw [if_pos rfl, hs]
    cases e : Dict.get? server "tls_auth" with
    | none => rw [e] at h; cases h; exact hc
    | some v =>
      rw [e] at h
      simp only [Option.getD_some] at h
      cases v with
      | str t =>
        by_cases ht : t = ""
        · subst ht
          rw [if_pos (by decide)] at h
          cases h
          simpa using hc
        · rw [if_neg (by simp [Val.truthy, ht])] at h
          simp only [asText, bind, Except.bind, pure, Except.pure, Except.ok.injEq] at h
          subst h
          by_cases h2 : (splitOn ' ' (strip t.toList)).length = 2
          · rw [if_pos h2]; simp [h2, hc]
          · rw [if_neg h2, Dict.get?_set', if_pos rfl]; simp [h2, ht]
      | none => rw [if_pos (by decide)] at h; cases h; exact hc
      | _ =>
        split at h
        · cases h; exact hc
        · cases h
  · rw [if_neg hk]
    split at h
    · cases h; rfl
    · obtain ⟨t, _, h⟩ := bind_ok_iff.1 h
      cases h
      split
      · rfl
      · rw [Dict.get?_set', if_neg hk]

theorem clientLog_get {host : Val} {ca cert key : Val × Val} {server c c' : VDict} (h : clientLog server c = .ok c') (hc : Dict.get? c "log" = none) (k : String) :
    Dict.get? c' k = if k = "log" then clientOption host server ca cert key k else Dict.get? c k := by
  have hs : clientOption host server ca cert key "log" = (match Dict.get? server "log" with
    | some (.str t) => some (txt (replaceAll "/var/log/openvpn/".toList "/var/log/".toList t.toList))
    | _ => none) := rfl
  unfold clientLog at h
  split at h
  · next e =>
    cases h
    by_cases hk : k = "log"
    · subst hk; rw [if_pos rfl, hs, e, hc]
    · rw [if_neg hk]
  · next v e =>
    obtain ⟨t, ht, h⟩ := bind_ok_iff.1 h
    cases h
    rw [Dict.get?_set']
    by_cases hk : k = "log"
    · subst hk
      rw [if_pos rfl, if_pos rfl, hs, e]
      cases v <;> cases ht
      rfl
    · rw [if_neg hk, if_neg hk]

/-- **C61.** For every server and all arguments with which `auto_client` returns: the client has exactly the options of the
specification and the files of the paths given with contents, with mode 0600. -/
theorem C61_client (host : Val) (server : VDict) (ca cert key : Val × Val) (r : VDict) (h : vpnAutoClient host server ca cert key = .ok r) :
    ∃ client, r = [("openvpn", .list [.dict client]), ("files", .list (clientFiles ca cert key))] ∧
      ∀ k, Dict.get? client k = clientOption host server ca cert key k := by
  unfold vpnAutoClient at h
  dsimp only at h
  obtain ⟨ns, h1, h⟩ := bind_ok_iff.1 h
  obtain ⟨rc, h2, h⟩ := bind_ok_iff.1 h
  obtain ⟨c1, h3, h⟩ := bind_ok_iff.1 h
  obtain ⟨c2, h4, h⟩ := bind_ok_iff.1 h
  have h1 := certType_ok h1
  have h2 := certType_ok h2
  obtain ⟨f1, g1⟩ := clientFile_spec "ca" ca c2 []
  obtain ⟨f2, g2⟩ := clientFile_spec "cert" cert (clientFile "ca" ca.1 ca.2 (c2, [])).1 (clientFile "ca" ca.1 ca.2 (c2, [])).2
  obtain ⟨f3, g3⟩ := clientFile_spec "key" key (clientFile "cert" cert.1 cert.2 (clientFile "ca" ca.1 ca.2 (c2, []))).1
    (clientFile "cert" cert.1 cert.2 (clientFile "ca" ca.1 ca.2 (c2, []))).2
  cases h
  refine ⟨(clientFile "key" key.1 key.2 (clientFile "cert" cert.1 cert.2 (clientFile "ca" ca.1 ca.2 (c2, [])))).1, ?_, ?_⟩
  · congr 4
    rw [show (clientFile "key" key.1 key.2 (clientFile "cert" cert.1 cert.2 (clientFile "ca" ca.1 ca.2 (c2, [])))).2 = _ from f3, f2, f1]
    simp [clientFiles]
  · intro k
    rw [show Dict.get? (clientFile "key" key.1 key.2 (clientFile "cert" cert.1 cert.2 (clientFile "ca" ca.1 ca.2 (c2, [])))).1 k = _ from g3 k, g2 k, g1 k]
    have hb := clientBase_get host server
    generalize clientBase host server = base at h3 hb
    have k0 : ∀ k, Dict.get? ((Dict.set base "ns_cert_type" ns).set "remote_cert_tls" rc) k =
        if k = "remote_cert_tls" then some rc else if k = "ns_cert_type" then some ns else Dict.get? base k := by
      intro k; rw [Dict.get?_set', Dict.get?_set']
    have k1 := clientTlsAuth_get (host := host) (ca := ca) (cert := cert) (key := key) h3 (by
      rw [k0, if_neg (by decide), if_neg (by decide), hb, if_neg (by decide)])
    have k2 : ∀ k, Dict.get? (if Dict.has server "script_security" = true then
        Dict.set (List.foldl (copyKey server) c1 copyKeys) "script_security" (.int 2)
      else List.foldl (copyKey server) c1 copyKeys) k =
        if k = "script_security" ∧ (Dict.get? server "script_security").isSome then some (.int 2)
        else if k ∈ copyKeys then (Dict.get? server k).or (Dict.get? c1 k) else Dict.get? c1 k := by
      intro k
      by_cases hs : Dict.has server "script_security" = true
      · rw [if_pos hs, Dict.get?_set', foldl_copyKey]
        by_cases hk : k = "script_security"
        · rw [if_pos hk, if_pos ⟨hk, hs⟩]
        · have hx : ¬ (k = "script_security" ∧ (Dict.get? server "script_security").isSome = true) := fun h => hk h.1
          rw [if_neg hk, if_neg hx]
      · have hx : ¬ (k = "script_security" ∧ (Dict.get? server "script_security").isSome = true) := fun h => hs h.2
        rw [if_neg hs, foldl_copyKey, if_neg hx]
    have k3 := clientLog_get (host := host) (ca := ca) (cert := cert) (key := key) h4 (by
      rw [k2, if_neg (by simp), if_neg (by decide), k1, if_neg (by decide), k0, if_neg (by decide), if_neg (by decide), hb, if_neg (by decide)])
    rw [k3]
    clear g1 g2 g3 f1 f2 f3 h3 h4 k3
    rw [k2, k1, k0, hb, h1, h2]
    clear k2 k1 k0 hb h1 h2
    have hcopy : ∀ k ∈ ["mode", "nobind", "resolv_retry", "remote", "proto", "pull", "tls_client", "ns_cert_type", "remote_cert_tls", "tls_auth", "log",
        "script_security"], k ∉ copyKeys ∧ k ≠ "ca" ∧ k ≠ "cert" ∧ k ≠ "key" := by decide
    have hb7 : ∀ k ∈ ["mode", "nobind", "resolv_retry", "remote", "proto", "pull", "tls_client"], k ≠ "log" ∧ k ≠ "script_security" ∧ k ≠ "tls_auth" ∧
      k ≠ "remote_cert_tls" ∧ k ≠ "ns_cert_type" := by decide
    have hopt : ∀ k ∈ ["mode", "nobind", "resolv_retry", "remote", "proto", "pull", "tls_client"],
        clientOption host server (.none, .none) (.none, .none) (.none, .none) k = clientOption host server ca cert key k := by
      intro k hk
      simp only [List.mem_cons, List.not_mem_nil, or_false] at hk
      rcases hk with rfl | rfl | rfl | rfl | rfl | rfl | rfl <;> rfl
    by_cases hk : k ∈ ["mode", "nobind", "resolv_retry", "remote", "proto", "pull", "tls_client"]
    · obtain ⟨a1, a2, a3, a4⟩ := hcopy k (by
        simp only [List.mem_cons, List.not_mem_nil, or_false] at hk ⊢
        rcases hk with h | h | h | h | h | h | h <;> simp [h])
      obtain ⟨b1, b2, b3, b4, b5⟩ := hb7 k hk
      rw [if_neg (fun h => a4 h.1), if_neg (fun h => a3 h.1), if_neg (fun h => a2 h.1), if_neg b1, if_neg (fun h => b2 h.1), if_neg a1,
        if_neg b3, if_neg b4, if_neg b5, if_pos hk, hopt k hk]
    · rw [if_neg hk]
      by_cases hk2 : k ∈ ["ns_cert_type", "remote_cert_tls", "tls_auth", "log", "script_security"]
      · obtain ⟨a1, a2, a3, a4⟩ := hcopy k (by
          simp only [List.mem_cons, List.not_mem_nil, or_false] at hk2 ⊢
          rcases hk2 with h | h | h | h | h <;> simp [h])
        rw [if_neg (fun h => a4 h.1), if_neg (fun h => a3 h.1), if_neg (fun h => a2 h.1), if_neg a1]
        simp only [List.mem_cons, List.not_mem_nil, or_false] at hk2
        rcases hk2 with rfl | rfl | rfl | rfl | rfl
        · rfl
        · rfl
        · rfl
        · rfl
        · rw [if_neg (show ¬ "script_security" = "log" by decide), if_neg (show ¬ "script_security" = "tls_auth" by decide),
            if_neg (show ¬ "script_security" = "remote_cert_tls" by decide), if_neg (show ¬ "script_security" = "ns_cert_type" by decide)]
          show (if _ then _ else _) = (if (Dict.get? server "script_security").isSome then some (Val.int 2) else none)
          simp
      · simp only [List.mem_cons, List.not_mem_nil, or_false, not_or] at hk hk2
        obtain ⟨m1, m2, m3, m4, m5, m6, m7⟩ := hk
        obtain ⟨n1, n2, n3, n4, n5⟩ := hk2
        unfold clientOption
        have hx : ¬ (k = "script_security" ∧ (Dict.get? server "script_security").isSome = true) := fun h => n5 h.1
        rw [if_neg n4, if_neg hx, if_neg n3, if_neg n2, if_neg n1]
        rw [if_neg m1, if_neg m2, if_neg m3, if_neg m4, if_neg m5, if_neg m6, if_neg m7, if_neg n1, if_neg n2, if_neg n3, if_neg n5, if_neg n4]
        unfold fileSpec
        have hor : (Dict.get? server k).or none = Dict.get? server k := by cases Dict.get? server k <;> rfl
        rw [hor]
        have hca : "ca" ∈ copyKeys ∧ "cert" ∈ copyKeys ∧ "key" ∈ copyKeys := by decide
        by_cases e1 : k = "ca"
        · subst e1; simp [hca.1]
        · by_cases e2 : k = "cert"
          · subst e2; simp [hca.2.1]
          · by_cases e3 : k = "key"
            · subst e3; simp [hca.2.2]
            · simp [e1, e2, e3]

/-- **C61.** `auto_client` returns for every server whose `ns_cert_type` and `remote_cert_tls` are absent, empty or "client" and whose
`tls_auth` and `log`, if any, are texts. -/
theorem C61_returns (host : Val) (server : VDict) (ca cert key : Val × Val)
    (h1 : ∀ k, k = "ns_cert_type" ∨ k = "remote_cert_tls" → Dict.get? server k ∈ [none, some (.str ""), some (.str "client")])
    (h2 : ∀ k, k = "tls_auth" ∨ k = "log" → ∀ v, Dict.get? server k = some v → ∃ s, v = .str s) :
    ∃ r, vpnAutoClient host server ca cert key = .ok r := by
  have hc : ∀ o : Option Val, o ∈ [none, some (.str ""), some (.str "client")] → ∃ v, certType (o.getD .none) = .ok v := by
    intro o ho
    simp only [List.mem_cons, List.not_mem_nil, or_false] at ho
    rcases ho with rfl | rfl | rfl
    · exact ⟨_, rfl⟩
    · exact ⟨_, rfl⟩
    · exact ⟨_, rfl⟩
  obtain ⟨ns, e1⟩ := hc _ (h1 "ns_cert_type" (.inl rfl))
  obtain ⟨rc, e2⟩ := hc _ (h1 "remote_cert_tls" (.inr rfl))
  have ht : ∀ c, ∃ c', clientTlsAuth server c = .ok c' := by
    intro c
    unfold clientTlsAuth
    dsimp only
    split
    · exact ⟨_, rfl⟩
    · next h =>
      cases e : Dict.get? server "tls_auth" with
      | none => rw [e] at h; exact absurd rfl h
      | some v =>
        obtain ⟨s, rfl⟩ := h2 _ (.inl rfl) v e
        exact ⟨_, rfl⟩
  have hl : ∀ c, ∃ c', clientLog server c = .ok c' := by
    intro c
    unfold clientLog
    cases e : Dict.get? server "log" with
    | none => exact ⟨_, rfl⟩
    | some v =>
      obtain ⟨s, rfl⟩ := h2 _ (.inr rfl) v e
      exact ⟨_, rfl⟩
  unfold vpnAutoClient
  dsimp only
  rw [e1]
  simp only [bind, Except.bind]
  rw [e2]
  dsimp only
  obtain ⟨c1, e3⟩ := ht ((Dict.set (clientBase host server) "ns_cert_type" ns).set "remote_cert_tls" rc)
  rw [e3]
  dsimp only
  obtain ⟨c2, e4⟩ := hl (if Dict.has server "script_security" = true then
        Dict.set (List.foldl (copyKey server) c1 copyKeys) "script_security" (.int 2)
      else List.foldl (copyKey server) c1 copyKeys)
  rw [e4]
  exact ⟨_, rfl⟩

/-! ## Remotes -/

/-- the text of a remote: host, port, and the protocol when one is given other than `auto` -/
def RemoteText (reprC : Val → String) (r t : Val) : Prop :=
  ∃ d h p, r = .dict d ∧ Dict.get? d "host" = some h ∧ Dict.get? d "port" = some p ∧
    t = .str (pyStr reprC h ++ " " ++ pyStr reprC p ++ (match Dict.get? d "proto" with
      | some (.str "auto") => ""
      | some q => " " ++ pyStr reprC q
      | none => ""))

theorem remoteText_spec {env : Env} {r t : Val} (h : remoteText env r = .ok t) : RemoteText env.reprC r t := by
  unfold remoteText at h
  split at h
  · next d =>
    obtain ⟨host, h1, h⟩ := bind_ok_iff.1 h
    obtain ⟨port, h2, h⟩ := bind_ok_iff.1 h
    cases h
    refine ⟨d, host, port, rfl, getKey_iff.1 h1, getKey_iff.1 h2, ?_⟩
    cases hq : Dict.get? d "proto" with
    | none => simp
    | some q =>
      by_cases e : q = .str "auto"
      · subst e; simp
      · simp only [if_neg e]
        simp only [String.append_assoc]
  · cases h

/-- **C59.** Every remote of the configuration is written as its host, its port and its protocol, in the same order; the result is
the same for the OpenVPN and the OpenWrt backends (`removedVpn`, `removedUci`). -/
theorem C59_remotes (env : Env) (remove : Val → Bool) (c b : VDict) (f : Option VDict) (rs : List Val) (hn : (Dict.keys c).Nodup)
    (h : vpnBlock env remove c = .ok (b, f)) (hr : Dict.get? c "remote" = some (.list rs)) :
    ∃ ts, Dict.get? b "remote" = some (.list ts) ∧ List.Forall₂ (RemoteText env.reprC) rs ts := by
  unfold vpnBlock at h
  obtain ⟨r1, h1, h⟩ := bind_ok_iff.1 h
  obtain ⟨r2, h2, h⟩ := bind_ok_iff.1 h
  obtain ⟨⟨r3, f'⟩, h3, h⟩ := bind_ok_iff.1 h
  cases h
  have n0 := dropRemoved_nodup hn remove
  obtain ⟨n1, g1, s1⟩ := remotesText_get h1 n0
  obtain ⟨n2, g2, s2⟩ := dataCiphers_get h2 (statusVersion_nodup n1)
  obtain ⟨n3, g3, s3⟩ := tlsAuth_get h3 n2
  have e0 : Dict.get? (dropRemoved remove (bareBridge c)) "remote" = some (.list rs) := by
    have hb : (Dict.keys (bareBridge c)).Nodup := by
      unfold bareBridge; split
      · exact Dict.nodup_set hn _ _
      · exact hn
    unfold dropRemoved
    rw [Dict.get?_filter hb]
    have : Dict.get? (bareBridge c) "remote" = some (.list rs) := by
      unfold bareBridge; split
      · rw [Dict.get?_set', if_neg (by decide), hr]
      · exact hr
    rw [this]
    rfl
  unfold remotesText at h1
  rw [e0] at h1
  simp only at h1
  obtain ⟨ts, hts, h1⟩ := bind_ok_iff.1 h1
  cases h1
  refine ⟨ts, ?_, ?_⟩
  · rw [get?_sortedDict n3, g3 _ (by decide), g2 _ (by decide), statusVersion_get, if_neg (by simp), Dict.get?_set', if_pos rfl]
  · clear * - hts
    induction rs generalizing ts with
    | nil => cases hts; exact List.Forall₂.nil
    | cons r rs ih =>
      obtain ⟨t, ts', h1, h2, rfl⟩ := (mapM_ok_cons _ _ _ _).1 hts
      exact List.Forall₂.cons (remoteText_spec h1) (ih ts' h2)

example : RemoteText (fun _ => "") (.dict [("host", .str "vpn.example.org"), ("port", .int 1194), ("proto", .str "tcp-client")])
    (.str "vpn.example.org 1194 tcp-client") := ⟨_, _, _, rfl, rfl, rfl, by decide +kernel⟩

end NJ
