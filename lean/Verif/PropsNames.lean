import Verif.PropsUnforged
import Verif.PropsVpnArchive
import Verif.PropsOpenVpn
import Verif.SafeRender
import Verif.PropsVpnUci

/-!
# C70: the names of the members of an archive (OpenWrt backend)
-/

namespace NJ

/-! ## Specification -/

/-- the packages made from the NetJSON sections -/
def sectionPackages : List String := ["system", "network", "wireless", "openvpn", "zerotier"]

/-- a package of the configuration: one of the above, or a list under a key that is not a NetJSON section -/
def PackageOf (config : VDict) (k : String) : Prop :=
  k ∈ sectionPackages ∨ (k ∉ knownKeys ∧ ∃ l, (k, Val.list l) ∈ config)

/-- the text of an option, empty when there is none -/
def optText (reprC : Val → String) (d : VDict) (k : String) : Chars := (pyStr reprC ((Dict.get? d k).getD (.str ""))).toList

/-- the path of a file the configuration asks for: one of `files`, the TLS key of an OpenVPN instance that has it as text, or the
map of the interfaces of a ZeroTier entry -/
inductive PathOf (reprC : Val → String) (config : VDict) : Chars → Prop
  | file (f : Val) (p : Chars) : f ∈ filesOf config → filePath f = .ok p → PathOf reprC config p
  | key (l : List Val) (d : VDict) : ("openvpn", Val.list l) ∈ config → .dict d ∈ l → (∃ v, Dict.get? d "tls_auth" = some v ∧ InlineKey v) →
      PathOf reprC config (tlsAuthPath (optText reprC d "ca") (optText reprC d "dev"))
  | map (l : List Val) (d : VDict) : ("zerotier", Val.list l) ∈ config → .dict d ∈ l →
      PathOf reprC config ((pyStr reprC ((Dict.get? d "config_path").getD (.str "/etc/openwisp/zerotier"))).toList ++ "/devicemap".toList)

/-! ## Keys of dictionaries -/

def KeysIn (S : String → Prop) (d : VDict) : Prop := ∀ p ∈ d, S p.1

section
variable {S : String → Prop}

theorem keysIn_nil : KeysIn S [] := fun _ h => nomatch h

theorem keysIn_set {d : VDict} (h : KeysIn S d) {k : String} (hk : S k) (v : Val) : KeysIn S (Dict.set d k v) := by
  intro p hp
  rcases mem_set_or hp with hp | rfl
  · exact h p hp
  · exact hk

theorem keysIn_appendTo {d : VDict} (h : KeysIn S d) {k : String} (hk : S k) (l : List Val) : KeysIn S (appendTo d k l) := by
  unfold appendTo
  split <;> exact keysIn_set h hk _

theorem keysIn_fwdList {loop : Option Nat → Val → VDict → Except PyErr VDict} (hl : ∀ i v r r', KeysIn S r → loop i v r = .ok r' → KeysIn S r')
    (l : List Val) (i : Nat) {r r' : VDict} (hr : KeysIn S r) (h : fwdList loop i r l = .ok r') : KeysIn S r' := by
  induction l generalizing i r with
  | nil => cases h; exact hr
  | cons v l ih =>
    rw [fwdList] at h
    obtain ⟨r1, h1, h⟩ := bind_ok_iff.1 h
    exact ih _ (hl _ _ _ _ hr h1) h

theorem keysIn_fwd {loop : Option Nat → Val → VDict → Except PyErr VDict} (hl : ∀ i v r r', KeysIn S r → loop i v r = .ok r' → KeysIn S r')
    {key : String} {config r' : VDict} (h : fwd key loop config = .ok r') : KeysIn S r' := by
  unfold fwd at h
  split at h
  · exact keysIn_fwdList hl _ _ keysIn_nil h
  · exact hl _ _ _ _ keysIn_nil h

theorem keysIn_merge {sh : Val → Bool} {ids : List String} {c acc out : VDict} (hc : KeysIn S c) (ha : KeysIn S acc)
    (h : mergeKvs sh ids c acc = .ok out) : KeysIn S out := by
  induction c generalizing acc with
  | nil => rw [mergeKvs] at h; cases h; exact ha
  | cons p c ih =>
    obtain ⟨k, v⟩ := p
    rw [mergeKvs] at h
    obtain ⟨x, _, h⟩ := bind_ok_iff.1 h
    exact ih (fun q hq => hc q (List.mem_cons_of_mem _ hq)) (keysIn_set ha (hc (k, v) List.mem_cons_self) x) h

theorem keysIn_sorted {d : VDict} (h : KeysIn S d) : KeysIn S (sortedDict d) := by
  intro p hp
  exact h p ((C33_sorting_keeps d).mem_iff.1 hp)

/-! ## Interfaces -/

theorem keysIn_addSections {sh : Val → Bool} {config : VDict} {isdsa : Bool} {uci : Chars} {i : VDict} (hS : S "network") (as : List VDict) (n : Nat)
    {r r' : VDict} (hr : KeysIn S r) (h : addSections sh config isdsa uci i n r as = .ok r') : KeysIn S r' := by
  induction as generalizing n r with
  | nil => cases h; exact hr
  | cons a as ih =>
    rw [addSections] at h
    obtain ⟨b, _, h⟩ := bind_ok_iff.1 h
    obtain ⟨r1, h1, h⟩ := bind_ok_iff.1 h
    refine ih _ ?_ h
    unfold addSection at h1
    split at h1
    · obtain ⟨l, _, h1⟩ := bind_ok_iff.1 h1
      cases h1
      exact keysIn_set hr hS _
    · cases h1

theorem keysIn_push (hS : S "network") {r r' : VDict} {bs : List VDict} (hr : KeysIn S r) (h : pushNetwork r bs = .ok r') : KeysIn S r' := by
  unfold pushNetwork at h
  split at h
  · cases h; exact hr
  · split at h
    · cases h; exact keysIn_set hr hS _
    · cases h
    · cases h

theorem keysIn_dsa (hS : S "network") {env : Env} {vlans vs' : List Val} {uci : Chars} {i i' r r' : VDict} (hr : KeysIn S r)
    (h : dsaSections env vlans uci i r = .ok (i', vs', r')) : KeysIn S r' := by
  unfold dsaSections at h
  obtain ⟨⟨device, j⟩, _, h⟩ := bind_ok_iff.1 h
  dsimp only at h
  obtain ⟨l, _, h⟩ := bind_ok_iff.1 h
  obtain ⟨vs, _, h⟩ := bind_ok_iff.1 h
  obtain ⟨r1, h1, h⟩ := bind_ok_iff.1 h
  obtain ⟨r2, h2, h⟩ := bind_ok_iff.1 h
  cases h
  refine keysIn_push hS (keysIn_push hS ?_ h1) h2
  split
  · exact hr
  · exact keysIn_appendTo hr hS _

theorem keysIn_iface (hS : S "network") {sh : Val → Bool} {env : Env} {dsa : Bool} {config : VDict} {acc acc' : List Val × VDict} {v : Val}
    (hr : KeysIn S acc.2) (h : ifaceFwd sh env dsa config acc v = .ok acc') : KeysIn S acc'.2 := by
  unfold ifaceFwd at h
  obtain ⟨b, _, h⟩ := bind_ok_iff.1 h
  obtain ⟨name, _, h⟩ := bind_ok_iff.1 h
  obtain ⟨uci, _, h⟩ := bind_ok_iff.1 h
  obtain ⟨⟨b', as⟩, _, h⟩ := bind_ok_iff.1 h
  obtain ⟨i, _, h⟩ := bind_ok_iff.1 h
  dsimp only at h
  obtain ⟨⟨i', vlans, r⟩, hd, h⟩ := bind_ok_iff.1 h
  obtain ⟨r', h', h⟩ := bind_ok_iff.1 h
  cases h
  refine keysIn_addSections hS _ _ ?_ h'
  split at hd
  · exact keysIn_dsa hS hr hd
  · cases hd; exact hr

theorem keysIn_ifaces (hS : S "network") {sh : Val → Bool} {env : Env} {dsa : Bool} {config r : VDict} (h : ifacesRun sh env dsa config = .ok r) : KeysIn S r := by
  unfold ifacesRun at h
  obtain ⟨acc, h1, h⟩ := bind_ok_iff.1 h
  cases h
  split at h1
  · rename_i l _
    have : ∀ (l : List Val) (a : List Val × VDict), KeysIn S a.2 → l.foldlM (ifaceFwd sh env dsa config) a = .ok acc → KeysIn S acc.2 := by
      intro l
      induction l with
      | nil => intro a ha h; cases h; exact ha
      | cons v l ih =>
        intro a ha h
        rw [List.foldlM_cons] at h
        obtain ⟨a', h', h⟩ := bind_ok_iff.1 h
        exact ih a' (keysIn_iface hS ha h') h
    exact this l _ keysIn_nil h1
  · exact keysIn_iface hS keysIn_nil h1

end

/-! ## What converters leave in the configuration -/

/-- a file the original configuration has or asks for -/
def AskedFile (reprC : Val → String) (config : VDict) (f : Val) : Prop := ∀ p, filePath f = .ok p → PathOf reprC config p

/-- the configuration while it is converted: what the original one had, and files it asks for -/
structure During (reprC : Val → String) (config now : VDict) : Prop where
  rest : ∀ k v, (k, v) ∈ now → k ≠ "files" → (k ∈ knownKeys → (k, v) ∈ config) ∧ ∀ l, v = .list l → ∃ l', (k, Val.list l') ∈ config
  files : ∀ f ∈ filesOf now, AskedFile reprC config f

theorem During.start (reprC : Val → String) (config : VDict) : During reprC config config where
  rest := fun _ _ h _ => ⟨fun _ => h, fun l e => ⟨l, e ▸ h⟩⟩
  files := fun f hf p hp => .file f p hf hp

theorem During.setFiles {reprC : Val → String} {config now : VDict} (h : During reprC config now) {l : List Val} (hl : ∀ f ∈ l, AskedFile reprC config f) :
    During reprC config (Dict.set now "files" (.list l)) := by
  refine ⟨fun k v hk hne => ?_, fun f hf => ?_⟩
  · rcases mem_set_or hk with hk | hk
    · exact h.rest k v hk hne
    · cases hk; exact absurd rfl hne
  · unfold filesOf at hf
    rw [Dict.get?_set, if_pos rfl] at hf
    exact hl f hf

theorem During.addFile {reprC : Val → String} {config now : VDict} (h : During reprC config now) {f : Option VDict}
    (hf : ∀ d, f = some d → AskedFile reprC config (.dict d)) : During reprC config (addVpnFile now f) := by
  cases f with
  | none => exact h
  | some d =>
    show During reprC config (appendTo now "files" [.dict d])
    have hd := hf d rfl
    unfold appendTo
    split
    · rename_i l hl
      refine h.setFiles fun f hf => ?_
      rcases List.mem_append.1 hf with hf | hf
      · exact h.files f (by unfold filesOf; rw [hl]; exact hf)
      · rw [List.mem_singleton.1 hf]; exact hd
    · refine h.setFiles fun f hf => ?_
      rw [List.mem_singleton.1 hf]; exact hd

/-! ## OpenVPN -/

/-- the file of the TLS key -/
theorem tls_file {env : Env} {d b f : VDict} (hn : (Dict.keys d).Nodup) (h : uciVpnBlock env d = .ok (b, some f)) :
    filePath (.dict f) = .ok (tlsAuthPath (optText env.reprC d "ca") (optText env.reprC d "dev")) ∧ ∃ v, Dict.get? d "tls_auth" = some v ∧ InlineKey v := by
  unfold uciVpnBlock at h
  dsimp only at h
  generalize hd1 : (if isZero (Dict.get? d "fragment") = true then Dict.erase d "fragment" else d) = d1 at h
  have g1 : ∀ k, k ≠ "fragment" → Dict.get? d1 k = Dict.get? d k := by
    intro k hk
    rw [← hd1]; split
    · rw [Dict.get?_erase', if_neg hk]
    · rfl
  have n1 : (Dict.keys d1).Nodup := by
    rw [← hd1]; split
    · exact Dict.nodup_erase hn _
    · exact hn
  obtain ⟨⟨name, d2⟩, hp, h⟩ := bind_ok_iff.1 h
  have hd2 : d2 = Dict.erase d1 "name" := by
    unfold popKey at hp
    split at hp
    · cases hp; rfl
    · cases hp
  subst hd2
  obtain ⟨t, _, h⟩ := bind_ok_iff.1 h
  unfold popOr at h
  dsimp only at h
  generalize (!((Dict.get? (Dict.erase d1 "name") "disabled").getD (.bool false)).truthy) = en at h
  generalize hc2 : Dict.update (Dict.erase (Dict.erase d1 "name") "disabled") [(".name", txt (uciName t)), (".type", .str "openvpn"), ("enabled", .bool en)] = c2 at h
  have g2 : ∀ k, k ∈ ["ca", "dev", "tls_auth"] → Dict.get? c2 k = Dict.get? d k := by
    intro k hk
    rw [← hc2]
    have : k ≠ "enabled" ∧ k ≠ ".type" ∧ k ≠ ".name" ∧ k ≠ "disabled" ∧ k ≠ "name" ∧ k ≠ "fragment" := by
      simp only [List.mem_cons, List.not_mem_nil, or_false] at hk
      rcases hk with rfl | rfl | rfl <;> decide
    simp only [Dict.update_cons, Dict.update_nil, Dict.get?_set', Dict.get?_erase']
    rw [if_neg this.1, if_neg this.2.1, if_neg this.2.2.1, if_neg this.2.2.2.1, if_neg this.2.2.2.2.1, g1 _ this.2.2.2.2.2]
  have n2 : (Dict.keys c2).Nodup := by
    rw [← hc2]; exact Dict.nodup_update (Dict.nodup_erase (Dict.nodup_erase n1 _) _) _
  have n3 : (Dict.keys (tlsCipherList c2)).Nodup := by
    unfold tlsCipherList
    split
    · split
      · exact n2
      · exact Dict.nodup_set n2 _ _
    · exact n2
  have g3 : ∀ k, k ∈ ["ca", "dev", "tls_auth"] → Dict.get? (tlsCipherList c2) k = Dict.get? d k := by
    intro k hk
    have hne : k ≠ "tls_cipher" := by
      simp only [List.mem_cons, List.not_mem_nil, or_false] at hk
      rcases hk with rfl | rfl | rfl <;> decide
    unfold tlsCipherList
    split
    · split
      · exact g2 k hk
      · rw [Dict.get?_set', if_neg hne, g2 k hk]
    · exact g2 k hk
  obtain ⟨c4, c5, n4, g4, _, ht, _⟩ := vpnBlock_split (falsy := (· = Val.str "")) removedUci_iff (by decide) n3 h
  have shown : ∀ k, k ∈ ["ca", "dev", "tls_auth"] → Dict.get? c4 k = (if Dict.get? d k = some (.str "") then none else Dict.get? d k) := by
    intro k hk
    have : k ≠ "remote" ∧ k ≠ "data_ciphers" ∧ k ≠ "status_version" ∧ k ≠ "server_bridge" ∧ k ≠ "script_security" := by
      simp only [List.mem_cons, List.not_mem_nil, or_false] at hk
      rcases hk with rfl | rfl | rfl <;> decide
    rw [g4 k this.1 this.2.1]
    unfold vpnShown
    rw [if_neg (fun e => this.2.2.1 e.1)]
    unfold vpnKept
    rw [g3 k hk]
    cases hv : Dict.get? d k with
    | none => simp
    | some v =>
      dsimp only
      rw [if_neg (fun e => this.2.2.2.1 e.1), if_neg (fun e => e.elim this.2.2.2.2 this.1)]
      simp only [Option.some.injEq]
  have dflt : ∀ k, k ∈ ["ca", "dev", "tls_auth"] → (Dict.get? c4 k).getD (.str "") = (Dict.get? d k).getD (.str "") := by
    intro k hk
    rw [shown k hk]
    split
    · rename_i e; rw [e]; rfl
    · rfl
  unfold tlsAuth at ht
  dsimp only at ht
  split at ht
  · cases ht
  · rename_i htr
    obtain ⟨key, hkey, ht⟩ := bind_ok_iff.1 ht
    split at ht
    · cases ht
    · rename_i h2
      obtain ⟨ca, hca, ht⟩ := bind_ok_iff.1 ht
      cases ht
      rw [dflt "ca" (by decide)] at hca
      rw [dflt "dev" (by decide)]
      constructor
      · unfold optText
        have : ca = (pyStr env.reprC ((Dict.get? d "ca").getD (.str ""))).toList := by
          cases hx : (Dict.get? d "ca").getD (.str "") with
          | str s => rw [hx] at hca; cases hca; rfl
          | none => rw [hx] at hca; cases hca
          | bool _ => rw [hx] at hca; cases hca
          | int _ => rw [hx] at hca; cases hca
          | list _ => rw [hx] at hca; cases hca
          | dict _ => rw [hx] at hca; cases hca
        rw [← this]
        unfold filePath reqStr
        simp [Dict.get?, txt]
      · have hs := shown "tls_auth" (by decide)
        cases hv : Dict.get? d "tls_auth" with
        | none =>
          rw [hv] at hs
          rw [hs] at htr
          exact absurd rfl htr
        | some v =>
          rw [hv] at hs
          split at hs
          · rw [hs] at htr; exact absurd rfl htr
          · rw [hs] at hkey
            refine ⟨v, rfl, ?_⟩
            cases v with
            | str s => cases hkey; exact ⟨s, rfl, h2⟩
            | none => cases hkey
            | bool _ => cases hkey
            | int _ => cases hkey
            | list _ => cases hkey
            | dict _ => cases hkey

theorem During.vpns {env : Env} {config now : VDict} (h : During env.reprC config now) {l : List Val}
    (hl : ∀ d, Val.dict d ∈ l → (Dict.keys d).Nodup ∧ ∃ l', ("openvpn", Val.list l') ∈ config ∧ .dict d ∈ l') :
    During env.reprC config (vpnBlocks (uciVpnBlock env) now l).1 := by
  induction l generalizing now with
  | nil => exact h
  | cons v l ih =>
    rw [vpnBlocks]
    cases hb : asDict v >>= uciVpnBlock env with
    | error e => exact h
    | ok p =>
      obtain ⟨b, f⟩ := p
      refine ih (h.addFile fun d hd => ?_) (fun d hd => hl d (List.mem_cons_of_mem _ hd))
      subst hd
      obtain ⟨x, hx, hb⟩ := bind_ok_iff.1 hb
      have hv : v = .dict x := by
        cases v <;> simp only [asDict, reduceCtorEq] at hx
        cases hx; rfl
      subst hv
      obtain ⟨hn, l', hl', hm⟩ := hl x List.mem_cons_self
      obtain ⟨hp, hk⟩ := tls_file hn hb
      intro p hp'
      rw [hp] at hp'
      cases hp'
      exact .key l' x hl' hm hk

/-! ## ZeroTier -/

theorem ztMerge_sub {path : Chars} {l others : List Val} {more : Chars} (h : ztMerge path l = .ok (others, more)) : ∀ f ∈ others, f ∈ l := by
  induction l generalizing others more with
  | nil => cases h; exact fun _ h => h
  | cons v l ih =>
    rw [ztMerge] at h
    obtain ⟨d, _, h⟩ := bind_ok_iff.1 h
    split at h
    · obtain ⟨_, _, h⟩ := bind_ok_iff.1 h
      obtain ⟨_, _, h⟩ := bind_ok_iff.1 h
      obtain ⟨⟨o, m⟩, hr, h⟩ := bind_ok_iff.1 h
      cases h
      exact fun f hf => List.mem_cons_of_mem _ (ih hr f hf)
    · obtain ⟨⟨o, m⟩, hr, h⟩ := bind_ok_iff.1 h
      cases h
      intro f hf
      rcases List.mem_cons.1 hf with rfl | hf
      · exact List.mem_cons_self
      · exact List.mem_cons_of_mem _ (ih hr f hf)

theorem During.zt {env : Env} {config now now' : VDict} (h : During env.reprC config now) {d : VDict}
    (hl : ∃ l', ("zerotier", Val.list l') ∈ config ∧ .dict d ∈ l') (hc : ztConfig env now d = .ok now') : During env.reprC config now' := by
  unfold ztConfig at hc
  obtain ⟨files, h1, hc⟩ := bind_ok_iff.1 hc
  obtain ⟨files', h2, hc⟩ := bind_ok_iff.1 hc
  cases hc
  refine h.setFiles fun f hf => ?_
  unfold ztFiles at h2
  dsimp only at h2
  obtain ⟨ns, _, h2⟩ := bind_ok_iff.1 h2
  obtain ⟨lines, _, h2⟩ := bind_ok_iff.1 h2
  obtain ⟨⟨others, more⟩, hm, h2⟩ := bind_ok_iff.1 h2
  cases h2
  rcases List.mem_append.1 hf with hf | hf
  · refine h.files f ?_
    unfold netjsonFiles at h1
    unfold filesOf
    split at h1
    · cases h1; exact absurd (ztMerge_sub hm f hf) List.not_mem_nil
    · rename_i l hl
      cases h1
      rw [hl]
      exact ztMerge_sub hm f hf
    · cases h1
  · rw [List.mem_singleton.1 hf]
    intro p hp
    obtain ⟨l', hl', hd⟩ := hl
    have : p = (pyStr env.reprC ((Dict.get? d "config_path").getD ztPath)).toList ++ "/devicemap".toList := by
      unfold filePath reqStr at hp
      simp only [Dict.get?, txt, if_pos] at hp
      simpa using (Except.ok.inj hp).symm
    rw [this]
    exact .map l' d hl' hd

theorem During.zts {env : Env} {config now : VDict} (h : During env.reprC config now) {l : List Val}
    (hl : ∀ d, Val.dict d ∈ l → ∃ l', ("zerotier", Val.list l') ∈ config ∧ .dict d ∈ l') : During env.reprC config (ztAll env now l).1 := by
  induction l generalizing now with
  | nil => exact h
  | cons v l ih =>
    rw [ztAll]
    cases he : asDict v with
    | error e => exact h
    | ok d =>
      have hv : v = .dict d := by
        cases v <;> simp only [asDict, reduceCtorEq] at he
        cases he; rfl
      subst hv
      dsimp only
      cases hc : ztConfig env now d with
      | error e => exact h
      | ok now' =>
        dsimp only
        have h' := h.zt (hl d List.mem_cons_self) hc
        cases hb : ztBlocks d with
        | error e => exact h'
        | ok bs => exact ih h' fun d hd => hl d (List.mem_cons_of_mem _ hd)

/-! ## Other packages -/

theorem default_names {env : Env} {config : VDict} {r : VDict} (h : (defaultLoop env knownKeys config).2 = .ok r) :
    ∀ p ∈ r, p.1 ∉ knownKeys ∧ ∃ l, (p.1, Val.list l) ∈ config := by
  induction config generalizing r with
  | nil => cases h; exact fun _ h => nomatch h
  | cons q config ih =>
    obtain ⟨k, v⟩ := q
    rw [defaultLoop.eq_def] at h
    dsimp only at h
    have lift : ∀ r : VDict, (∀ p ∈ r, p.1 ∉ knownKeys ∧ ∃ l, (p.1, Val.list l) ∈ config) → ∀ p ∈ r, (p : String × Val).1 ∉ knownKeys ∧ ∃ l, (p.1, Val.list l) ∈ (k, v) :: config :=
      fun r hr p hp => ⟨(hr p hp).1, (hr p hp).2.imp fun l hl => List.mem_cons_of_mem _ hl⟩
    split at h
    · rename_i l
      split at h
      · exact lift r (ih h)
      · rename_i hk
        split at h
        · cases h
        · obtain ⟨rest, hr, h⟩ := bind_ok_iff.1 h
          cases h
          split
          · exact lift _ (ih hr)
          · intro p hp
            rcases List.mem_cons.1 hp with rfl | hp
            · exact ⟨hk, l, List.mem_cons_self⟩
            · exact lift _ (ih hr) p hp
    · exact lift r (ih h)

theorem default_rest {env : Env} {config : VDict} :
    ∀ k v, (k, v) ∈ (defaultLoop env knownKeys config).1 → (k ∈ knownKeys → (k, v) ∈ config) ∧ ∀ l, v = .list l → ∃ l', (k, Val.list l') ∈ config := by
  induction config with
  | nil => exact fun _ _ h => nomatch h
  | cons q config ih =>
    obtain ⟨k', v'⟩ := q
    have lift : ∀ k v, (k, v) ∈ (defaultLoop env knownKeys config).1 → (k ∈ knownKeys → (k, v) ∈ (k', v') :: config) ∧ ∀ l, v = .list l → ∃ l', (k, Val.list l') ∈ (k', v') :: config :=
      fun k v h => ⟨fun hk => List.mem_cons_of_mem _ ((ih k v h).1 hk), fun l e => ((ih k v h).2 l e).imp fun _ h => List.mem_cons_of_mem _ h⟩
    intro k v h
    rw [defaultLoop.eq_def] at h
    dsimp only at h
    split at h
    · rename_i l0
      split at h
      · rcases List.mem_cons.1 h with e | h
        · cases e; exact ⟨fun _ => List.mem_cons_self, fun l _ => ⟨l0, List.mem_cons_self⟩⟩
        · exact lift k v h
      · rename_i hk
        split at h
        · rcases List.mem_cons.1 h with e | h
          · cases e; exact ⟨fun hk' => absurd hk' hk, fun _ _ => ⟨l0, List.mem_cons_self⟩⟩
          · exact ⟨fun _ => List.mem_cons_of_mem _ h, fun l e => ⟨l, List.mem_cons_of_mem _ (e ▸ h)⟩⟩
        · rcases List.mem_cons.1 h with e | h
          · cases e; exact ⟨fun hk' => absurd hk' hk, fun _ _ => ⟨l0, List.mem_cons_self⟩⟩
          · exact lift k v h
    · rcases List.mem_cons.1 h with e | h
      · cases e; exact ⟨fun _ => List.mem_cons_self, fun l e => ⟨l, e ▸ List.mem_cons_self⟩⟩
      · exact lift k v h

/-! ## All converters -/

/-- what is shown of each converter -/
def ConvNames (reprC : Val → String) (config : VDict) (c : Conv) : Prop :=
  ∀ now inter, During reprC config now → During reprC config (c.run now inter).1 ∧ ∀ r, (c.run now inter).2 = .ok r → KeysIn (PackageOf config) r

theorem convNames_pure {reprC : Val → String} {config : VDict} {key : String} {run : VDict → VDict → Except PyErr VDict}
    (h : ∀ now inter r, run now inter = .ok r → KeysIn (PackageOf config) r) : ConvNames reprC config (pureConv key run) :=
  fun now inter hd => ⟨hd, h now inter⟩

theorem own {config : VDict} {k : String} (h : k ∈ sectionPackages) : PackageOf config k := .inl h

theorem generalFwd_names {S : String → Prop} (h1 : S "system") (h2 : S "network") {env : Env} {i : Option Nat} {v : Val} {r r' : VDict} (hr : KeysIn S r)
    (h : generalFwd env i v r = .ok r') : KeysIn S r' := by
  unfold generalFwd at h
  obtain ⟨d, _, h⟩ := bind_ok_iff.1 h
  obtain ⟨⟨u, g⟩, _, h⟩ := bind_ok_iff.1 h
  obtain ⟨sy, _, h⟩ := bind_ok_iff.1 h
  cases h
  cases sy <;> cases u
  · exact hr
  · exact keysIn_set hr h2 _
  · exact keysIn_set hr h1 _
  · exact keysIn_set (keysIn_set hr h1 _) h2 _

theorem ntpFwd_names {S : String → Prop} (h1 : S "system") {i : Option Nat} {v : Val} {r r' : VDict} (hr : KeysIn S r)
    (h : ntpFwd i v r = .ok r') : KeysIn S r' := by
  unfold ntpFwd at h
  split at h
  · obtain ⟨d, _, h⟩ := bind_ok_iff.1 h
    cases h
    exact keysIn_set hr h1 _
  · cases h; exact hr

theorem appendFwd_names {S : String → Prop} {α β : Type} {k : String} (hk : S k) {x : Except PyErr α} {y : α → Except PyErr β} {g : β → List Val} {r r' : VDict} (hr : KeysIn S r)
    (h : (do let d ← x; let b ← y d; pure (appendTo r k (g b))) = Except.ok r') : KeysIn S r' := by
  obtain ⟨d, _, h⟩ := bind_ok_iff.1 h
  obtain ⟨b, _, h⟩ := bind_ok_iff.1 h
  cases h
  exact keysIn_appendTo hr hk _

theorem wirelessFwd_names {S : String → Prop} (hk : S "wireless") {env : Env} {br : Dict String (List String)} {i : Option Nat} {v : Val} {r r' : VDict} (hr : KeysIn S r)
    (h : wirelessFwd env br i v r = .ok r') : KeysIn S r' := by
  unfold wirelessFwd at h
  obtain ⟨d, _, h⟩ := bind_ok_iff.1 h
  split at h
  · cases h; exact hr
  · obtain ⟨w, _, h⟩ := bind_ok_iff.1 h
    obtain ⟨b, _, h⟩ := bind_ok_iff.1 h
    cases h
    exact keysIn_appendTo hr hk _

theorem vpn_names {env : Env} {config : VDict} (hn : ∀ l d, ("openvpn", Val.list l) ∈ config → .dict d ∈ l → (Dict.keys d).Nodup) :
    ConvNames env.reprC config (uciVpnConv env) := by
  intro now inter hd
  show During env.reprC config (vpnRun (uciVpnBlock env) now inter).1 ∧ ∀ r, (vpnRun (uciVpnBlock env) now inter).2 = .ok r → KeysIn _ r
  unfold vpnRun
  split
  · rename_i l hl
    dsimp only
    refine ⟨hd.vpns fun d hdm => ?_, fun r hr => ?_⟩
    · have hmem : ("openvpn", Val.list l) ∈ config := by
        cases hg : Dict.get? now "openvpn" with
        | none => rw [hg] at hl; cases hl
        | some v =>
          rw [hg] at hl
          have hl : v = .list l := hl
          subst hl
          exact (hd.rest _ _ (Dict.mem_of_get? hg) (by decide)).1 (by decide)
      exact ⟨hn l d hmem hdm, l, hmem, hdm⟩
    · obtain ⟨bs, _, hr⟩ := bind_ok_iff.1 hr
      cases hr
      split
      · exact keysIn_nil
      · intro p hp; rw [List.mem_singleton.1 hp]; exact own (k := "openvpn") (by decide)
  · exact ⟨hd, fun r hr => by cases hr⟩

theorem zt_names {env : Env} {config : VDict} : ConvNames env.reprC config (ztConv env) := by
  intro now inter hd
  show During env.reprC config (ztRun env now inter).1 ∧ ∀ r, (ztRun env now inter).2 = .ok r → KeysIn _ r
  unfold ztRun
  split
  · rename_i l hl
    dsimp only
    refine ⟨hd.zts fun d hdm => ?_, fun r hr => ?_⟩
    · refine ⟨l, ?_, hdm⟩
      cases hg : Dict.get? now "zerotier" with
      | none => rw [hg] at hl; cases hl
      | some v =>
        rw [hg] at hl
        have hl : v = .list l := hl
        subst hl
        exact (hd.rest _ _ (Dict.mem_of_get? hg) (by decide)).1 (by decide)
    · obtain ⟨bs, _, hr⟩ := bind_ok_iff.1 hr
      cases hr
      split
      · exact keysIn_nil
      · intro p hp; rw [List.mem_singleton.1 hp]; exact own (k := "zerotier") (by decide)
  · exact ⟨hd, fun r hr => by cases hr⟩

theorem openwrt_names {env : Env} {config : VDict} (sh : Val → Bool) (dsa : Bool)
    (hn : ∀ l d, ("openvpn", Val.list l) ∈ config → .dict d ∈ l → (Dict.keys d).Nodup) :
    ∀ c ∈ openwrtConvs env sh dsa, ConvNames env.reprC config c := by
  intro c hc
  unfold openwrtConvs at hc
  simp only [List.mem_cons, List.not_mem_nil, or_false] at hc
  have hs : PackageOf config "system" := own (by decide)
  have hw : PackageOf config "network" := own (by decide)
  have hx : PackageOf config "wireless" := own (by decide)
  rcases hc with rfl | rfl | rfl | rfl | rfl | rfl | rfl | rfl | rfl | rfl | rfl | rfl | rfl
  · exact convNames_pure fun now inter r h => keysIn_fwd (fun _ _ _ _ hr h => generalFwd_names hs hw hr h) h
  · exact convNames_pure fun now inter r h => keysIn_fwd (fun _ _ _ _ hr h => ntpFwd_names hs hr h) h
  · exact convNames_pure fun now inter r h => keysIn_fwd (fun _ _ _ _ hr h => appendFwd_names (g := fun b => [.dict b]) hs hr h) h
  · exact convNames_pure fun now inter r h => keysIn_ifaces hw h
  · exact convNames_pure fun now inter r h => keysIn_fwd (fun _ _ _ _ hr h => appendFwd_names (g := fun b => [.dict b]) hw hr h) h
  · exact convNames_pure fun now inter r h => keysIn_fwd (fun _ _ _ _ hr h => appendFwd_names (g := fun b => [.dict b]) hw hr h) h
  · exact convNames_pure fun now inter r h => keysIn_fwd (fun _ _ _ _ hr h => appendFwd_names (g := fun b => b) hw hr h) h
  · exact convNames_pure fun now inter r h => keysIn_fwd (fun _ _ _ _ hr h => appendFwd_names (g := fun b => [.dict b]) hx hr h) h
  · refine convNames_pure fun now inter r h => ?_
    unfold wirelessRun at h
    obtain ⟨m, _, h⟩ := bind_ok_iff.1 h
    exact keysIn_fwd (fun _ _ _ _ hr h => wirelessFwd_names hx hr h) h
  · exact vpn_names hn
  · exact convNames_pure fun now inter r h => keysIn_fwd (fun _ _ _ _ hr h => appendFwd_names (g := fun b => [.dict b]) hw hr h) h
  · exact zt_names
  · intro now inter hd
    refine ⟨⟨fun k v hk hne => ?_, fun f hf => ?_⟩, fun r h => ?_⟩
    · have hk : (k, v) ∈ (defaultLoop env knownKeys now).1 := hk
      obtain ⟨h1, h2⟩ := default_rest k v hk
      refine ⟨fun hkn => (hd.rest k v (h1 hkn) hne).1 hkn, fun l e => ?_⟩
      obtain ⟨l', hl'⟩ := h2 l e
      exact (hd.rest k _ hl' hne).2 l' rfl
    · refine hd.files f ?_
      have hf : f ∈ filesOf (defaultLoop env knownKeys now).1 := hf
      unfold filesOf at hf ⊢
      rwa [defaultLoop_files (by decide) now] at hf
    · obtain ⟨d, h', h⟩ := bind_ok_iff.1 h
      cases h
      refine keysIn_sorted fun p hp => ?_
      obtain ⟨h1, l, hl⟩ := default_names h' p hp
      exact .inr ⟨h1, (hd.rest _ _ hl (fun e => h1 (by rw [e]; decide))).2 l rfl⟩

theorem convLoop_names {reprC : Val → String} {config : VDict} {cls : Class} {cs : List Conv} (hc : ∀ c ∈ cs, ConvNames reprC config c) {now inter : VDict}
    (h : During reprC config now) (hi : KeysIn (PackageOf config) inter) : During reprC config (convLoop cls cs now inter).1.config ∧
      ∀ i, (convLoop cls cs now inter).1.inter = some i → KeysIn (PackageOf config) i := by
  induction cs generalizing now inter with
  | nil => exact ⟨h, fun i e => by cases e; exact hi⟩
  | cons c cs ih =>
    have ih := fun now inter h hi => @ih (fun c hm => hc c (List.mem_cons_of_mem _ hm)) now inter h hi
    rw [convLoop]
    split
    · exact ih _ _ h hi
    · obtain ⟨h1, h2⟩ := hc c List.mem_cons_self now inter h
      split
      · rename_i e; rw [e] at h1; exact ⟨h1, fun i e => by cases e; exact hi⟩
      · rename_i config' value e
        rw [e] at h1 h2
        split
        · exact ih _ _ h1 hi
        · split
          · exact ⟨h1, fun i e => by cases e; exact hi⟩
          · rename_i i hx
            exact ih _ _ h1 (keysIn_merge (h2 _ rfl) hi hx)

/-! ## The archive -/

/-- what a first rendering leaves -/
theorem render_names {env : Env} {schema : VDict → Except PyErr Unit} {sh : Val → Bool} {loads : Chars → Option Val} {dsa files : Bool}
    {config : VDict} (hn : ∀ l d, ("openvpn", Val.list l) ∈ config → .dict d ∈ l → (Dict.keys d).Nodup) {st : BState} {text : Chars}
    (h : render (openwrtClass env schema sh loads dsa) files ⟨config, none⟩ = (st, .ok text)) :
    (∀ inter, st.inter = some inter → KeysIn (PackageOf config) inter) ∧ ∀ f ∈ filesOf st.config, AskedFile env.reprC config f := by
  obtain ⟨_, st1, h1, h2⟩ := render_ok h
  have hi : ensureIntermediate (openwrtClass env schema sh loads dsa) ⟨config, none⟩ = toIntermediate (openwrtClass env schema sh loads dsa) ⟨config, none⟩ := rfl
  rw [hi] at h1
  unfold toIntermediate at h1
  split at h1
  · cases h1
  · have hl := convLoop_names (cls := openwrtClass env schema sh loads dsa) (openwrt_names sh dsa hn) (During.start env.reprC config) (inter := []) keysIn_nil
    have h1 : convLoop (openwrtClass env schema sh loads dsa) (openwrtConvs env sh dsa) config [] = (st1, .ok ()) := h1
    rw [h1] at hl
    unfold renderTail at h2
    split at h2
    · cases h2
    · rename_i config' hd
      obtain ⟨h3, _⟩ := (Prod.mk.injEq _ _ _ _).mp h2
      subst h3
      refine ⟨hl.2, fun f hf => ?_⟩
      obtain ⟨_, _, _, hmem, _⟩ := C21_one_file_per_path _ _ hd
      obtain ⟨p, _, hlast⟩ := hmem f hf
      exact hl.1.files f (by unfold lastFile at hlast; simpa using List.mem_of_find?_eq_some hlast)

theorem processFiles_names {config : VDict} {ms : List Member} (h : processFiles config = .ok ms) :
    ∀ m ∈ ms, ∃ f ∈ filesOf config, ∃ p, filePath f = .ok p ∧ m.name = memberName p := by
  unfold processFiles at h
  obtain ⟨fs, h1, h2⟩ := bind_ok_iff.1 h
  intro m hm
  obtain ⟨x, hx, hxm⟩ := mapM_source h2 hm
  obtain ⟨f, hf, hfx⟩ := mapM_source h1 hx
  refine ⟨f, hf, x.path, ?_, ?_⟩
  · cases f with
    | dict d =>
      obtain ⟨p, hp, hfx⟩ := bind_ok_iff.1 hfx
      obtain ⟨c, _, hfx⟩ := bind_ok_iff.1 hfx
      obtain ⟨o, _, hfx⟩ := bind_ok_iff.1 hfx
      cases hfx
      exact hp
    | _ => cases hfx
  · unfold addFile at hxm
    obtain ⟨n, _, hxm⟩ := bind_ok_iff.1 hxm
    cases hxm
    rfl

theorem packagesOf_names {inter : VDict} {data : List (String × List VDict)} (h : packagesOf inter = .ok data) : ∀ p ∈ data, ∃ v, (p.1, v) ∈ inter := by
  intro p hp
  obtain ⟨q, hq, h⟩ := mapM_source h hp
  obtain ⟨bs, _, h⟩ := bind_ok_iff.1 h
  cases h
  exact ⟨q.2, hq⟩

/-- keys of other packages have no blank -/
def NoBlankNames (config : VDict) : Prop := ∀ k l, (k, Val.list l) ∈ config → k ∉ knownKeys → ' ' ∉ k.toList

theorem CleanConfig.vpnNodup {A : Char → Prop} {config : VDict} (h : CleanConfig A config) :
    ∀ l d, ("openvpn", Val.list l) ∈ config → Val.dict d ∈ l → (Dict.keys d).Nodup := by
  intro l d hl hd
  have := (h _ _ hl (by decide)).2
  rw [if_pos rfl] at this
  exact (this l rfl d hd).nodup

/-- C82: when no text of the configuration has a line break and no name of a package has a blank, the archive has exactly one member
per package of the intermediate data, in order, with the text of that package, followed by the files. -/
theorem C82_generate {env : Env} (hE : Wide NoBreak env) {schema : VDict → Except PyErr Unit} {sh : Val → Bool} {loads : Chars → Option Val}
    {dsa : Bool} {config : VDict} (hc : CleanConfig NoBreak config) (hb : NoBlankNames config) {st : BState} {ms : List Member}
    (h : generate (openwrtClass env schema sh loads dsa) ⟨config, none⟩ = (st, .ok ms)) :
    ∃ inter data ps fs, st.inter = some inter ∧ packagesOf inter = .ok data ∧ (∀ p ∈ data, PackageOf config p.1) ∧
      ms = ps ++ fs ∧ List.Forall₂ (PackageMember4 env.reprC) data ps ∧ processFiles st.config = .ok fs := by
  have hr : ∃ text, render (openwrtClass env schema sh loads dsa) false ⟨config, none⟩ = (st, .ok text) := by
    unfold generate at h
    split at h
    · cases h
    · rename_i st1 text hr
      obtain ⟨h0, _⟩ := (Prod.mk.injEq _ _ _ _).mp h
      subst h0
      exact ⟨text, hr⟩
  obtain ⟨text, hr⟩ := hr
  obtain ⟨inter, data, h1, _, h2, h3, more, h4, h5⟩ := render_over hE hc hr
  have hu : UnbrokenUci env.reprC data := fun p hp l hl hn => over_packageLines hE (by unfold NoBreak; decide) (h3 p hp) l hl _ hn rfl
  obtain ⟨hk, _⟩ := render_names hc.vpnNodup hr
  have hpk : ∀ p ∈ data, PackageOf config p.1 := by
    intro p hp
    obtain ⟨v, hv⟩ := packagesOf_names h2 p hp
    exact hk inter h1 _ hv
  obtain ⟨text', a, b, g1, g2, g3, rfl⟩ := generate_split h h1
  have g1 : uciNative env.reprC inter = .ok text' := g1
  unfold uciNative at g1
  rw [h2] at g1
  cases g1
  obtain ⟨ms, e1, e2⟩ := C82_members_of_data env.reprC data hu (fun p hp => by
    rcases hpk p hp with hm | ⟨hm, l, hl⟩
    · have : sectionPackages.all (fun s => !s.toList.contains ' ') = true := by decide +kernel
      simpa using List.all_eq_true.1 this _ hm
    · exact hb _ l hl hm)
  have g2 : uciSplit (renderUci env.reprC data) = .ok a := g2
  rw [e1] at g2
  cases g2
  exact ⟨inter, data, _, b, h1, h2, hpk, rfl, e2, g3⟩

/-- C70: under the same hypotheses, every member of the archive is the file of a package of the configuration, in etc/config, or has
one of the paths the configuration asks for. -/
theorem C70_member_names {env : Env} (hE : Wide NoBreak env) {schema : VDict → Except PyErr Unit} {sh : Val → Bool} {loads : Chars → Option Val}
    {dsa : Bool} {config : VDict} (hc : CleanConfig NoBreak config) (hb : NoBlankNames config) {st : BState} {ms : List Member}
    (h : generate (openwrtClass env schema sh loads dsa) ⟨config, none⟩ = (st, .ok ms)) :
    ∀ m ∈ ms, (∃ k, PackageOf config k ∧ m.name = "etc/config/".toList ++ k.toList) ∨ ∃ p, PathOf env.reprC config p ∧ m.name = memberName p := by
  have hr : ∃ text, render (openwrtClass env schema sh loads dsa) false ⟨config, none⟩ = (st, .ok text) := by
    unfold generate at h
    split at h
    · cases h
    · rename_i st1 text hr
      obtain ⟨h0, _⟩ := (Prod.mk.injEq _ _ _ _).mp h
      subst h0
      exact ⟨text, hr⟩
  obtain ⟨text, hr⟩ := hr
  obtain ⟨inter, data, ps, fs, _, _, hpk, rfl, hps, hfs⟩ := C82_generate hE hc hb h
  intro m hm
  rcases List.mem_append.1 hm with hm | hm
  · left
    have : ∀ {data : List (String × List VDict)} {ps : List Member}, List.Forall₂ (PackageMember4 env.reprC) data ps → ∀ m ∈ ps, ∃ p ∈ data, PackageMember4 env.reprC p m := by
      intro data ps hps
      induction hps with
      | nil => exact fun _ h => nomatch h
      | cons h _ ih =>
        intro m hm
        rcases List.mem_cons.1 hm with rfl | hm
        · exact ⟨_, List.mem_cons_self, h⟩
        · obtain ⟨p, hp, h⟩ := ih m hm; exact ⟨p, List.mem_cons_of_mem _ hp, h⟩
    obtain ⟨p, hp, hname, _⟩ := this hps m hm
    exact ⟨p.1, hpk p hp, hname⟩
  · right
    obtain ⟨f, hf, p, hp, e⟩ := processFiles_names hfs m hm
    exact ⟨p, (render_names hc.vpnNodup hr).2 f hf p hp, e⟩

/-- the paths that are not checked by `validate`: those of TLS keys given as text and of ZeroTier maps -/
def AddedPath (reprC : Val → String) (config : VDict) (p : Chars) : Prop :=
  (∃ l d, ("openvpn", Val.list l) ∈ config ∧ Val.dict d ∈ l ∧ (∃ v, Dict.get? d "tls_auth" = some v ∧ InlineKey v) ∧
    p = tlsAuthPath (optText reprC d "ca") (optText reprC d "dev")) ∨
  ∃ l d, ("zerotier", Val.list l) ∈ config ∧ Val.dict d ∈ l ∧
    p = (pyStr reprC ((Dict.get? d "config_path").getD (.str "/etc/openwisp/zerotier"))).toList ++ "/devicemap".toList

/-- C70: when moreover the names of other packages are proper file names, and the paths of TLS keys and ZeroTier maps are valid,
extracting the archive in any directory writes below it only: no member has an absolute name, or leaves the directory. -/
theorem C70_stays_below {env : Env} (hE : Wide NoBreak env) {schema : VDict → Except PyErr Unit} {sh : Val → Bool} {loads : Chars → Option Val}
    {dsa : Bool} {config : VDict} (hc : CleanConfig NoBreak config)
    (hb : ∀ k l, (k, Val.list l) ∈ config → k ∉ knownKeys → ' ' ∉ k.toList ∧ '/' ∉ k.toList ∧ k ≠ "" ∧ k ≠ "." ∧ k ≠ "..")
    (hp : ∀ p, AddedPath env.reprC config p → validPath p = true) {st : BState} {ms : List Member}
    (h : generate (openwrtClass env schema sh loads dsa) ⟨config, none⟩ = (st, .ok ms)) :
    ∀ m ∈ ms, m.name.head? ≠ some '/' ∧ ∀ root, ∃ d, d ≠ [] ∧ walk root (splitOn '/' m.name) = some (d ++ root) := by
  have hv : validateFilePaths config = .ok () := by
    unfold generate at h
    split at h
    · cases h
    · rename_i st1 text hr
      have := (render_ok hr).1
      unfold validate at this
      obtain ⟨_, _, this⟩ := bind_ok_iff.1 this
      obtain ⟨_, _, this⟩ := bind_ok_iff.1 this
      obtain ⟨_, h3, this⟩ := bind_ok_iff.1 this
      exact h3
  intro m hm
  have good : ∀ p, validPath p = true → (memberName p).head? ≠ some '/' ∧ ∀ root, ∃ d, d ≠ [] ∧ walk root (splitOn '/' (memberName p)) = some (d ++ root) := by
    intro p hp
    refine ⟨(C19_path_stays_below p hp []).2.2, fun root => ?_⟩
    obtain ⟨h1, h2, _⟩ := C19_path_stays_below p hp root
    exact ⟨_, by simpa using h2, h1⟩
  rcases C70_member_names hE hc (fun k l hl hk => (hb k l hl hk).1) h m hm with ⟨k, hk, e⟩ | ⟨p, hpath, e⟩
  · have hk : '/' ∉ k.toList ∧ k.toList ≠ [] ∧ k.toList ≠ ['.'] ∧ k.toList ≠ ['.', '.'] := by
      rcases hk with hk | ⟨hk, l, hl⟩
      · have : sectionPackages.all (fun s => !s.toList.contains '/' && !decide (s.toList = []) && !decide (s.toList = ['.']) && !decide (s.toList = ['.', '.'])) = true := by decide +kernel
        have := List.all_eq_true.1 this _ hk
        simpa [and_assoc] using this
      · obtain ⟨_, h1, h2, h3, h4⟩ := hb k l hl hk
        exact ⟨h1, fun e => h2 (String.toList_inj.1 e), fun e => h3 (String.toList_inj.1 e), fun e => h4 (String.toList_inj.1 e)⟩
    rw [e]
    refine ⟨by intro hh; exact absurd (Option.some.inj hh) (by decide), fun root => ?_⟩
    have hs : splitOn '/' ("etc/config/".toList ++ k.toList) = ["etc".toList, "config".toList, k.toList] := by
      have : "etc/config/".toList ++ k.toList = joinWith ['/'] ["etc".toList, "config".toList, k.toList] := rfl
      rw [this, splitOn_joinWith _ (by simp)]
      intro x hx
      simp only [List.mem_cons, List.not_mem_nil, or_false] at hx
      rcases hx with rfl | rfl | rfl
      · decide
      · decide
      · exact hk.1
    refine ⟨[k.toList, "config".toList, "etc".toList], by simp, ?_⟩
    rw [hs]
    simp only [walk]
    rw [if_neg (by decide), if_neg (by decide), if_neg (by decide), if_neg (by decide), if_neg (by simp [hk]), if_neg hk.2.2.2]
    rfl
  · rw [e]
    refine good p ?_
    cases hpath with
    | file f p hf hfp =>
      obtain ⟨q, hq, hv⟩ := validateFilePaths_ok.1 hv f hf
      rw [hfp] at hq
      cases hq
      exact hv
    | key l d hl hd hk => exact hp _ (.inl ⟨l, d, hl, hd, hk, rfl⟩)
    | map l d hl hd => exact hp _ (.inr ⟨l, d, hl, hd, rfl⟩)

end NJ
