import Verif.AutoServer
import Verif.OpenWrt

/-!
# C92: the client that `auto_client` makes for a valid OpenVPN server is valid

Servers are the values that the OpenVPN backend accepts, of mode "server"; the client is accepted by the OpenVPN backend and by the OpenWrt
backend, of which it is meant to become a part.
-/

namespace NJ

/-! ## Specification -/

/-- **Specification.** A remote host that the schemas accept -/
def HostOk (host : Val) : Prop := ∃ h : String, host = .str h ∧ 1 ≤ h.length ∧ h.length ≤ 63 ∧ hostnameOk h.toList = true

/-- **Specification.** A path given together with contents: both are texts, and the path is one that a file can have -/
def PairOk (pc : Val × Val) : Prop :=
  pc.1.truthy = true → pc.2.truthy = true →
    ∃ p t : String, pc = (.str p, .str t) ∧ validPath p.toList = true ∧ 2 ≤ p.length ∧ ∀ c ∈ p.toList, isSpace c = false

/-- **Specification.** The paths of the files -/
def givenPaths (ca cert key : Val × Val) : List Val := ([ca, cert, key].filter fun pc => pc.1.truthy && pc.2.truthy).map (·.1)

/-! ## Values -/

section
variable {ip6 : Ip6} {root : VDict} {n : Nat}

theorem str_leaf (s : String) : valid ip6 root (n + 1) (.dict [("type", .str "string")]) (.str s) = true := rfl

theorem bool_leaf (b : Bool) : valid ip6 root (n + 1) (.dict [("type", .str "boolean")]) (.bool b) = true := rfl

theorem solid_leaf {s : String} (h : SolidText s.toList) :
    valid ip6 root (n + 1) (.dict [("type", .str "string"), ("pattern", .str "^(\\S*)$")]) (.str s) = true := by
  rw [valid_plain rfl]
  change (true && (patternOk "^(\\S*)$" s.toList && true)) = true
  rw [solid_pattern.2 h]
  rfl

theorem str_of_leaf {s : VDict} {v : Val} (hr : Dict.get? s "$ref" = none) (ht : ("type", .str "string") ∈ s)
    (h : valid ip6 root (n + 1) (.dict s) v = true) : ∃ t, v = .str t := by
  rw [valid_plain hr] at h
  have h := List.all_eq_true.1 h _ ht
  cases v <;> first | exact ⟨_, rfl⟩ | exact absurd h (by simp [keywordOk, typeOk])

theorem solid_of_leaf {s : String} (h : valid ip6 root (n + 1) (.dict [("type", .str "string"), ("pattern", .str "^(\\S*)$")]) (.str s) = true) :
    SolidText s.toList := by
  rw [valid_plain rfl] at h
  exact solid_pattern.1 (List.all_eq_true.1 h ("pattern", .str "^(\\S*)$") (by simp))

theorem enum_two {a b : String} {v : Val} (h : valid ip6 root (n + 1) (.dict [("enum", .list [.str a, .str b])]) v = true) : v = .str a ∨ v = .str b := by
  rw [valid_plain rfl] at h
  have h := List.all_eq_true.1 h ("enum", .list [.str a, .str b]) (by simp)
  change ([Val.str a, .str b].any fun x => Val.jsEq x v) = true at h
  cases v <;> simp [Val.jsEq] at h
  rcases h with rfl | rfl
  · exact Or.inl rfl
  · exact Or.inr rfl

theorem enum_mem {a b : String} (s : String) (h : s = a ∨ s = b) : valid ip6 root (n + 1) (.dict [("enum", .list [.str a, .str b])]) (.str s) = true := by
  rw [valid_plain rfl]
  change (([Val.str a, .str b].any fun x => Val.jsEq x (.str s)) && true) = true
  rcases h with rfl | rfl <;> simp [Val.jsEq]

end

/-! ## Options -/

section
variable {ip6 : Ip6} {root : VDict} {host : Val} {server : VDict} {ca cert key : Val × Val}

/-- certificates: the path given, or what the server has -/
theorem file_leaf (h : ServerOk ip6 server) {k : String} {pc : Val × Val} (hp : PairOk pc)
    (hs : Dict.get? (propsOf owSchema_def_tunnel) k = some (.dict [("type", .str "string"), ("pattern", .str "^(\\S*)$")])) (hk : k ∈ copyKeys) {x : Val}
    (hx : fileSpec pc server k = some x) : valid ip6 root 17 (.dict [("type", .str "string"), ("pattern", .str "^(\\S*)$")]) x = true := by
  unfold fileSpec at hx
  split at hx
  · next e =>
    obtain ⟨p, t, e', _, _, hc⟩ := hp e.1 e.2
    cases hx
    rw [e']
    exact solid_leaf ⟨p.toList, [], by simp, hc, Or.inl rfl⟩
  · have hm := (copied_flat _ (Dict.mem_of_get? hs) hk).2
    exact flat_valid (by decide) (h.tunnel _ hm x hx)

theorem tunnel_at {k : String} {s s' : Val} (h : Dict.get? (propsOf owSchema_def_tunnel) k = some s) (h' : Dict.get? (propsOf owSchema_def_tunnel) k = some s') :
    s = s' := Option.some.inj (h.symm.trans h')

theorem tunnel_not {k : String} {s : Val} (h : (Dict.get? (propsOf owSchema_def_tunnel) k).isSome = false)
    (h' : Dict.get? (propsOf owSchema_def_tunnel) k = some s) : False := by
  rw [h'] at h
  cases h

/-- every option of the client that tunnels have is valid -/
theorem client_tunnel (h : ServerOk ip6 server) (h1 : PairOk ca) (h2 : PairOk cert) (h3 : PairOk key) :
    ∀ p ∈ propsOf owSchema_def_tunnel, ∀ x, clientOption host server ca cert key p.1 = some x → valid ip6 root 17 p.2 x = true := by
  rintro ⟨k, s⟩ hp x hx
  dsimp only at hx ⊢
  have hs := Dict.get?_of_mem tunnel_nodup hp
  clear hp
  unfold clientOption at hx
  by_cases e : k = "mode"
  · rw [if_pos e] at hx
    subst e; cases hx; obtain rfl := tunnel_at (s := .dict [("type", .str "string")]) rfl hs; exact str_leaf _
  rw [if_neg e] at hx
  by_cases e : k = "nobind"
  · rw [if_pos e] at hx
    subst e; exact (tunnel_not rfl hs).elim
  rw [if_neg e] at hx
  by_cases e : k = "resolv_retry"
  · rw [if_pos e] at hx
    subst e; exact (tunnel_not rfl hs).elim
  rw [if_neg e] at hx
  by_cases e : k = "remote"
  · rw [if_pos e] at hx
    subst e; exact (tunnel_not rfl hs).elim
  rw [if_neg e] at hx
  by_cases e : k = "proto"
  · rw [if_pos e] at hx
    subst e; cases hx; obtain rfl := tunnel_at (s := .dict [("type", .str "string")]) rfl hs; exact str_leaf _
  rw [if_neg e] at hx
  by_cases e : k = "pull"
  · rw [if_pos e] at hx
    subst e; exact (tunnel_not rfl hs).elim
  rw [if_neg e] at hx
  by_cases e : k = "tls_client"
  · rw [if_pos e] at hx
    subst e; exact (tunnel_not rfl hs).elim
  rw [if_neg e] at hx
  by_cases e : k = "ns_cert_type"
  · rw [if_pos e] at hx
    subst e; obtain rfl := tunnel_at (s := .dict [("type", .str "string")]) rfl hs; cases hx
    unfold certSpec
    split <;> exact str_leaf _
  rw [if_neg e] at hx
  by_cases e : k = "remote_cert_tls"
  · rw [if_pos e] at hx
    subst e; obtain rfl := tunnel_at (s := .dict [("type", .str "string")]) rfl hs; cases hx
    unfold certSpec
    split <;> exact str_leaf _
  rw [if_neg e] at hx
  by_cases e : k = "tls_auth"
  · rw [if_pos e] at hx
    subst e; obtain rfl := tunnel_at (s := .dict [("type", .str "string")]) rfl hs
    split at hx
    · split at hx
      · cases hx
      · cases hx; exact str_leaf _
    · cases hx
  rw [if_neg e] at hx
  by_cases e : k = "script_security"
  · rw [if_pos e] at hx
    subst e; obtain rfl := tunnel_at (s := .dict [("type", .str "integer"), ("enum", .list [.int 0, .int 1, .int 2, .int 3])]) rfl hs
    split at hx
    · cases hx; rfl
    · cases hx
  rw [if_neg e] at hx
  by_cases e : k = "log"
  · rw [if_pos e] at hx
    subst e
    split at hx
    · next t ht =>
      have hl := h.tunnel _ (Dict.mem_of_get? (show Dict.get? (propsOf vpnSchema_def_tunnel) "log" = some _ from rfl)) _ ht
      obtain rfl := tunnel_at (s := .dict [("type", .str "string"), ("pattern", .str "^(\\S*)$")]) rfl hs; cases hx
      refine solid_leaf ?_
      rw [String.toList_ofList]
      exact solid_replace (by decide) (by decide) (by decide) _ _ (Nat.le_refl _) (solid_of_leaf hl)
    · cases hx
  rw [if_neg e] at hx
  by_cases e : k = "ca"
  · rw [if_pos e] at hx
    subst e; have := file_leaf (root := root) h h1 rfl (by decide) hx; obtain rfl := tunnel_at (s := .dict [("type", .str "string"), ("pattern", .str "^(\\S*)$")]) rfl hs; exact this
  rw [if_neg e] at hx
  by_cases e : k = "cert"
  · rw [if_pos e] at hx
    subst e; have := file_leaf (root := root) h h2 rfl (by decide) hx; obtain rfl := tunnel_at (s := .dict [("type", .str "string"), ("pattern", .str "^(\\S*)$")]) rfl hs; exact this
  rw [if_neg e] at hx
  by_cases e : k = "key"
  · rw [if_pos e] at hx
    subst e
    have := file_leaf (root := root) h h3 rfl (by decide) hx
    obtain rfl := tunnel_at (s := .dict [("type", .str "string"), ("pattern", .str "^(\\S*)$")]) rfl hs
    exact this
  rw [if_neg e] at hx
  by_cases hk : k ∈ copyKeys
  · rw [if_pos hk] at hx
    obtain ⟨hf, hm⟩ := copied_flat _ (Dict.mem_of_get? hs) hk
    exact flat_valid hf (h.tunnel _ hm x hx)
  · rw [if_neg hk] at hx
    cases hx

/-! ## The second part -/

theorem host_leaf {n : Nat} (h : HostOk host) : valid ip6 root (n + 1) (.dict [("type", .str "string"), ("maxLength", .int 63), ("minLength", .int 1),
    ("format", .str "hostname")]) host = true := by
  obtain ⟨s, rfl, h1, h2, h3⟩ := h
  rw [valid_plain rfl]
  change (true && (decide ((s.length : Int) ≤ 63) && (decide ((1 : Int) ≤ s.length) && (formatOk ip6 "hostname" (.str s) && true)))) = true
  have : formatOk ip6 "hostname" (.str s) = true := h3
  rw [this]
  simp
  omega

/-- the schema of ports -/
def portSchema : Val := .dict [("type", .str "integer"), ("maximum", .int 65535), ("minimum", .int 1)]

/-- the port of the remote -/
theorem port_leaf {n : Nat} (h : ServerOk ip6 server) : valid ip6 root (n + 1) portSchema (match Dict.get? server "port" with
    | some p => if p.truthy then p else .int 1195
    | none => .int 1195) = true := by
  cases e : Dict.get? server "port" with
  | none => rfl
  | some p =>
    dsimp only
    split
    · exact flat_valid (by decide) (h.tunnel _ (Dict.mem_of_get? (show Dict.get? (propsOf vpnSchema_def_tunnel) "port" = some portSchema from rfl)) _ e)
    · rfl

/-- the schema of remotes -/
def remoteSchema : VDict := match Dict.get? (propsOf clientPart) "remote" with
  | some (.dict d) => d
  | _ => []

def remoteItem : VDict := match Dict.get? remoteSchema "items" with
  | some (.dict d) => d
  | _ => []

theorem remote_leaf {n : Nat} {port : Val} (h : HostOk host) (hp : valid ip6 root (n + 1) portSchema port = true) :
    valid ip6 root (n + 3) (.dict remoteSchema) (.list [.dict [("host", host), ("port", port)]]) = true := by
  have e : remoteSchema = [("type", .str "array"), ("minItems", .int 1), ("items", .dict remoteItem)] := rfl
  rw [valid_plain (by rw [e]; rfl), e]
  change (true && (true && ((valid ip6 root (n + 2) (.dict remoteItem) (.dict [("host", host), ("port", port)]) && true) && true))) = true
  have e : remoteItem = [("type", .str "object"), ("additionalProperties", .bool false), ("required", .list [.str "host", .str "port"]),
    ("properties", .dict (propsOf (.dict remoteItem)))] := rfl
  have : valid ip6 root (n + 2) (.dict remoteItem) (.dict [("host", host), ("port", port)]) = true := by
    rw [e, valid_plain rfl]
    simp only [List.all_cons, List.all_nil, Bool.and_true, Bool.and_eq_true]
    refine ⟨rfl, rfl, rfl, props_iff.2 ?_⟩
    intro p hp' x hx
    have e : propsOf (.dict remoteItem) = [("host", .dict [("type", .str "string"), ("maxLength", .int 63), ("minLength", .int 1), ("format", .str "hostname")]),
      ("port", portSchema), ("proto", .dict [("type", .str "string"), ("enum", .list [.str "auto", .str "udp", .str "udp4", .str "udp6", .str "tcp", .str "tcp4", .str "tcp6"])])] := rfl
    rw [e] at hp'
    simp only [List.mem_cons, List.not_mem_nil, or_false] at hp'
    rcases hp' with rfl | rfl | rfl
    · cases hx
      exact host_leaf h
    · cases hx
      exact hp
    · cases hx
  rw [this]
  rfl

/-- every option of the client that clients have is valid -/
theorem client_part (h : ServerOk ip6 server) (hh : HostOk host) :
    ∀ p ∈ propsOf clientPart, ∀ x, clientOption host server ca cert key p.1 = some x → valid ip6 root 18 p.2 x = true := by
  have e : propsOf clientPart = [("mode", .dict [("enum", .list [.str "p2p"])]), ("proto", .dict [("enum", .list [.str "udp", .str "tcp-client"])]),
    ("remote", .dict remoteSchema), ("remote_random", .dict [("type", .str "boolean")]), ("port", .dict [("type", .str "integer")]),
    ("nobind", .dict [("type", .str "boolean")]), ("resolv_retry", .dict [("type", .str "string"), ("pattern", .str "^(infinite)|([0-9])$")]),
    ("tls_client", .dict [("type", .str "boolean")]), ("pull", .dict [("type", .str "boolean")]), ("ns_cert_type", .dict [("enum", .list [.str "", .str "server"])]),
    ("auth_user_pass", .dict [("type", .str "string"), ("pattern", .str "^(\\S*)$")]), ("auth_retry", .dict [("type", .str "string"),
      ("enum", .list [.str "none", .str "nointeract", .str "interact"])]), ("remote_cert_tls", .dict [("enum", .list [.str "", .str "server"])])] := rfl
  intro p hp x hx
  rw [e] at hp
  simp only [List.mem_cons, List.not_mem_nil, or_false] at hp
  rcases hp with rfl | rfl | rfl | rfl | rfl | rfl | rfl | rfl | rfl | rfl | rfl | rfl | rfl
  · cases hx; rfl
  · cases hx
    refine enum_mem _ ?_
    split
    · exact Or.inr rfl
    · exact Or.inl rfl
  · cases hx
    exact remote_leaf hh (port_leaf h)
  · cases hx
  · cases hx
  · cases hx; rfl
  · cases hx
    rw [valid_plain rfl]
    exact (by decide +kernel : (true && (patternOk "^(infinite)|([0-9])$" "infinite".toList && true)) = true)
  · cases hx; rfl
  · have hx : (if (Dict.get? server "server").isSome = true ∨ (Dict.get? server "server_bridge").isSome = true then some (Val.bool true) else none) = some x := hx
    split at hx
    · cases hx; rfl
    · cases hx
  · cases hx
    unfold certSpec
    split
    · exact enum_mem _ (Or.inr rfl)
    · exact enum_mem _ (Or.inl rfl)
  · cases hx
  · cases hx
  · cases hx
    unfold certSpec
    split
    · exact enum_mem _ (Or.inr rfl)
    · exact enum_mem _ (Or.inl rfl)

end

/-! ## The files -/

/-- the pairs used -/
def usedPairs (ca cert key : Val × Val) : List (Val × Val) := [ca, cert, key].filter fun pc => pc.1.truthy && pc.2.truthy

def pairFile (pc : Val × Val) : Val := .dict [("path", pc.1), ("contents", pc.2), ("mode", .str "0600")]

theorem clientFiles_eq (ca cert key : Val × Val) : clientFiles ca cert key = (usedPairs ca cert key).map pairFile := by
  unfold clientFiles usedPairs
  generalize [ca, cert, key] = l
  induction l with
  | nil => rfl
  | cons a l ih =>
    rw [List.flatMap_cons, ih, List.filter_cons]
    by_cases h : a.1.truthy = true ∧ a.2.truthy = true
    · rw [if_pos h, if_pos (by simp [h])]
      rfl
    · rw [if_neg h, if_neg (by simpa using h)]
      rfl

theorem pairs_texts {l : List (Val × Val)} (h : ∀ pc ∈ l, ∃ p t : String, pc = (.str p, .str t) ∧ validPath p.toList = true ∧ 2 ≤ p.length ∧
    ∀ c ∈ p.toList, isSpace c = false) : ∃ ps : List String, l.map (·.1) = ps.map Val.str ∧ (l.map pairFile).mapM filePath = .ok (ps.map String.toList) := by
  induction l with
  | nil => exact ⟨[], rfl, rfl⟩
  | cons a l ih =>
    obtain ⟨ps, e1, e2⟩ := ih fun x hx => h x (List.mem_cons_of_mem _ hx)
    obtain ⟨p, t, rfl, hv, hl, _⟩ := h a (List.mem_cons_self ..)
    refine ⟨p :: ps, by rw [List.map_cons, List.map_cons, e1], ?_⟩
    have hp : filePath (pairFile (.str p, .str t)) = .ok p.toList := rfl
    exact (mapM_ok_cons ..).2 ⟨_, _, hp, e2, rfl⟩

theorem pairFile_valid {ip6 : Ip6} {root : VDict} {n : Nat} {p t : String} (hp : 2 ≤ p.length) :
    valid ip6 root (n + 2) fileSchema (pairFile (.str p, .str t)) = true := by
  have hpat : patternOk "^[0-7]*$" ['0', '6', '0', '0'] = true := by decide +kernel
  simp [pairFile, fileSchema, owSchema_pro_files, Dict.get?, valid, keywordOk, typeOk, Dict.has, textsOf, Dict.keys, hpat]
  exact ⟨by exact_mod_cast hp, by decide, by decide⟩

/-! ## C92 -/

section
variable {host : Val} {server : VDict} {ca cert key : Val × Val}

/-- the files are valid, wherever they are -/
theorem client_files {ip6 : Ip6} {root : VDict} (h1 : PairOk ca) (h2 : PairOk cert) (h3 : PairOk key) (hn : (givenPaths ca cert key).Nodup) :
    valid ip6 root 23 owSchema_pro_files (.list (clientFiles ca cert key)) = true ∧
    ∀ c : VDict, Dict.get? c "files" = some (.list (clientFiles ca cert key)) → validateFilePaths c = .ok () := by
  have hp : ∀ pc ∈ usedPairs ca cert key, ∃ p t : String, pc = (.str p, .str t) ∧ validPath p.toList = true ∧ 2 ≤ p.length ∧
      ∀ c ∈ p.toList, isSpace c = false := by
    intro pc hpc
    obtain ⟨hm, ht⟩ := List.mem_filter.1 hpc
    simp only [Bool.and_eq_true] at ht
    simp only [List.mem_cons, List.not_mem_nil, or_false] at hm
    rcases hm with rfl | rfl | rfl
    · exact h1 ht.1 ht.2
    · exact h2 ht.1 ht.2
    · exact h3 ht.1 ht.2
  obtain ⟨ps, e1, e2⟩ := pairs_texts hp
  rw [clientFiles_eq]
  constructor
  · refine files_valid_iff.2 ⟨_, rfl, unique_of_paths e2 ?_, ?_⟩
    · have hn : ((usedPairs ca cert key).map (·.1)).Nodup := hn
      rw [e1] at hn
      have hn := List.pairwise_map.1 hn
      exact List.pairwise_map.2 (hn.imp fun {a b} hne e => hne (by rw [String.toList_inj.1 e]))
    · intro f hf
      obtain ⟨pc, hpc, rfl⟩ := List.mem_map.1 hf
      obtain ⟨p, t, rfl, _, hl, _⟩ := hp pc hpc
      exact pairFile_valid hl
  · intro c hc
    unfold validateFilePaths filesOf
    rw [hc]
    refine forM_ok.2 fun f hf => ?_
    obtain ⟨pc, hpc, rfl⟩ := List.mem_map.1 hf
    obtain ⟨p, t, rfl, hv, _, _⟩ := hp pc hpc
    change (if validPath p.toList = true then pure () else Except.error PyErr.validation) = Except.ok ()
    rw [if_pos hv]
    rfl

/-- `auto_client` returns for a valid server -/
theorem client_returns {ip6 : Ip6} (h : ServerOk ip6 server) : ∃ r, vpnAutoClient host server ca cert key = .ok r := by
  refine C61_returns host server ca cert key ?_ ?_
  · intro k hk
    have hm : (k, Val.dict [("enum", .list [.str "", .str "client"])]) ∈ propsOf owSchema_def_server := by
      rcases hk with rfl | rfl
      · exact List.mem_of_getElem? (i := 6) rfl
      · exact List.mem_of_getElem? (i := 12) rfl
    cases e : Dict.get? server k with
    | none => simp
    | some x =>
      rcases enum_two (h.server _ hm x e) with rfl | rfl <;> simp
  · intro k hk v hv
    rcases hk with rfl | rfl
    · exact str_of_leaf (s := [("type", .str "string")]) rfl (by simp)
        (h.tunnel _ (Dict.mem_of_get? (show Dict.get? (propsOf vpnSchema_def_tunnel) "tls_auth" = some _ from rfl)) _ hv)
    · exact str_of_leaf (s := [("type", .str "string"), ("pattern", .str "^(\\S*)$")]) rfl (by simp)
        (h.tunnel _ (Dict.mem_of_get? (show Dict.get? (propsOf vpnSchema_def_tunnel) "log" = some _ from rfl)) _ hv)

/-- the schema of a backend, when its references are those of tunnels -/
theorem client_schema {ip6 : Ip6} {root : VDict} {T : Val} (hr : VpnRefs root T) {client : VDict}
    (hT : ∃ P, T = .dict [("type", .str "object"), ("required", .list [.str "name", .str "mode", .str "proto", .str "dev"]), ("properties", .dict P)] ∧
      ∀ p ∈ P, p ∈ propsOf owSchema_def_tunnel)
    (h : ServerOk ip6 server) (hh : HostOk host) (h1 : PairOk ca) (h2 : PairOk cert) (h3 : PairOk key)
    (hc : ∀ k, Dict.get? client k = clientOption host server ca cert key k) : valid ip6 root 23 owSchema_pro_openvpn (.list [.dict client]) = true := by
  refine client_only (n := 16) hr (by rw [hc]; rfl) ?_ ?_
  · obtain ⟨P, rfl, hP⟩ := hT
    refine tunnel_iff.2 ⟨?_, fun p hp x hx => client_tunnel h h1 h2 h3 p (hP p hp) x (by rw [← hc]; exact hx)⟩
    intro k hk
    rw [Dict.has_eq, hc]
    simp only [List.mem_cons, List.not_mem_nil, or_false] at hk
    rcases hk with rfl | rfl | rfl | rfl
    · have := h.has "name" (by simp)
      rw [Dict.has_eq] at this
      exact this
    · rfl
    · rfl
    · have := h.has "dev" (by simp)
      rw [Dict.has_eq] at this
      exact this
  · have e : clientPart = .dict [("type", .str "object"), ("required", .list [.str "remote"]), ("properties", .dict (propsOf clientPart))] := rfl
    rw [e, valid_plain rfl]
    simp only [List.all_cons, List.all_nil, Bool.and_true, Bool.and_eq_true]
    refine ⟨rfl, ?_, props_iff.2 fun p hp x hx => client_part h hh p hp x (by rw [← hc]; exact hx)⟩
    change (Dict.has client "remote" && true) = true
    rw [Dict.has_eq, hc]
    rfl

/-- **C92.** For every server of mode "server" that the OpenVPN backend accepts, every host that the schemas accept, and all files with usable,
distinct paths: `auto_client` returns, and both the OpenVPN backend and the OpenWrt backend accept the configuration it returns. -/
theorem C92_auto_client (env : Env) (sh : Val → Bool) (loads : Chars → Option Val) (dsa : Bool) (host : Val) (server : VDict) (ca cert key : Val × Val)
    (hv : validate (openvpnReal env sh loads) [("openvpn", .list [.dict server])] = .ok ()) (hm : Dict.get? server "mode" = some (.str "server"))
    (hh : HostOk host) (h1 : PairOk ca) (h2 : PairOk cert) (h3 : PairOk key) (hn : (givenPaths ca cert key).Nodup) :
    ∃ r, vpnAutoClient host server ca cert key = .ok r ∧ validate (openvpnReal env sh loads) r = .ok () ∧
      validate (openwrtClass env (owValidate env.ip6) sh loads dsa) r = .ok () := by
  have h := server_ok (schema_valid (ip6 := env.ip6) rfl hv) hm
  obtain ⟨r, e⟩ := client_returns (host := host) (ca := ca) (cert := cert) (key := key) h
  obtain ⟨client, er, hc⟩ := C61_client host server ca cert key r e
  refine ⟨r, e, ?_, ?_⟩
  · have hs := client_schema (ip6 := env.ip6) openvpn_refs ⟨propsOf vpnSchema_def_tunnel, rfl, fun p hp => by
      rw [ow_tunnel_props]; exact List.mem_append_left _ hp⟩ h hh h1 h2 h3 hc
    obtain ⟨g1, g2⟩ := client_files (ip6 := env.ip6) (root := openvpnSchema) h1 h2 h3 hn
    have g2 := g2 r (by rw [er]; rfl)
    have hsch : schemaValidate openvpnSchema env.ip6 r = .ok () := by
      unfold schemaValidate
      refine if_pos ?_
      change valid env.ip6 openvpnSchema 24 (.dict openvpnSchema) (.dict r) = true
      have er' : openvpnSchema = [("type", .str "object"), ("definitions", .dict openvpnSchema_definitions), ("properties", .dict openvpnSchema_properties)] := rfl
      rw [valid_plain rfl]
      conv => lhs; arg 1; rw [er']
      simp only [List.all_cons, List.all_nil, Bool.and_true, Bool.and_eq_true]
      refine ⟨rfl, rfl, props_iff.2 fun p hp x hx => ?_⟩
      rw [er] at hx
      unfold openvpnSchema_properties at hp
      simp only [List.mem_cons, List.not_mem_nil, or_false] at hp
      rcases hp with rfl | rfl
      · cases hx; exact hs
      · cases hx; exact g1
    unfold validate
    change (Except.ok () >>= fun _ => schemaValidate openvpnSchema env.ip6 r >>= fun _ => validateFilePaths r >>= fun _ => Except.ok ()) = Except.ok ()
    rw [hsch, g2]
    rfl
  · have hs := client_schema (ip6 := env.ip6) ow_refs ⟨propsOf owSchema_def_tunnel, rfl, fun p hp => hp⟩ h hh h1 h2 h3 hc
    obtain ⟨g1, g2⟩ := client_files (ip6 := env.ip6) (root := owSchema) h1 h2 h3 hn
    have g2 := g2 r (by rw [er]; rfl)
    have hsch : owValidate env.ip6 r = .ok () := by
      unfold owValidate
      refine if_pos ?_
      change valid env.ip6 owSchema 24 (.dict owSchema) (.dict r) = true
      have er' : owSchema = [("type", .str "object"), ("definitions", .dict owSchema_definitions), ("properties", .dict owSchema_properties)] := rfl
      rw [valid_plain rfl]
      conv => lhs; arg 1; rw [er']
      simp only [List.all_cons, List.all_nil, Bool.and_true, Bool.and_eq_true]
      refine ⟨rfl, rfl, props_iff.2 fun p hp x hx => ?_⟩
      have hx : Dict.get? [("openvpn", Val.list [.dict client]), ("files", .list (clientFiles ca cert key))] p.1 = some x := by rw [← er]; exact hx
      rw [Dict.get?_cons] at hx
      have hpro : ∀ p ∈ owSchema_properties, (p.1 = "openvpn" → p.2 = owSchema_pro_openvpn) ∧ (p.1 = "files" → p.2 = owSchema_pro_files) := by
        unfold owSchema_properties
        simp
      split at hx
      · next e =>
        cases hx
        rw [(hpro p hp).1 e.symm]
        exact hs
      · rw [Dict.get?_cons] at hx
        split at hx
        · next e =>
          cases hx
          rw [(hpro p hp).2 e.symm]
          exact g1
        · cases hx
    have hr : validateRadios r = .ok () := by rw [er]; rfl
    have hp : validatePvid r = .ok () := by rw [er]; rfl
    unfold validate
    change (validateRadios r >>= fun _ => owValidate env.ip6 r >>= fun _ => validateFilePaths r >>= fun _ => validatePvid r) = Except.ok ()
    rw [hr, hsch, g2, hp]
    rfl

end

end NJ
