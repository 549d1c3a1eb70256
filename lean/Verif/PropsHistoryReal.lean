import Verif.HistoryValid
import Verif.PropsValidVpn

/-!
# C91 for the backends with their schemas
-/

namespace NJ

/-- **Specification.** The inline key of a VPN, if it has one, goes to a file whose path is accepted: the file is named after the device, next
to the CA. -/
def KeyAccepted (vpn : VDict) : Prop :=
  ∀ key : String, Dict.get? vpn "tls_auth" = some (.str key) → key = "" ∨ (splitOn ' ' (strip key.toList)).length = 2 ∨
    ∃ dev : String, (Dict.get? vpn "dev").getD (.str "") = .str dev ∧
      validPath (tlsAuthPath (optionText (Dict.get? vpn "ca")) dev.toList) = true

/-- **Specification.** The files the converters make have paths that are accepted: those of inline keys, and the device maps of ZeroTier. -/
structure MadeAccepted (env : Env) (c : VDict) : Prop where
  keys : ∀ l, Dict.get? c "openvpn" = some (.list l) → ∀ vpn, Val.dict vpn ∈ l → (Dict.keys vpn).Nodup ∧ KeyAccepted vpn
  maps : ∀ l, Dict.get? c "zerotier" = some (.list l) → ∀ vpn, Val.dict vpn ∈ l →
    validPath ((pyStr env.reprC ((Dict.get? vpn "config_path").getD (.str "/etc/openwisp/zerotier"))).toList ++ "/devicemap".toList) = true

/-- such a file -/
def AcceptedFile (f : Val) : Prop := MadeFile f ∧ ∃ p, filePath f = .ok p ∧ validPath p = true

section
variable {falsy : Val → Prop} [DecidablePred falsy] {remove : Val → Bool}

theorem vpnBlock_accepted (hr : ∀ v, remove v = true ↔ falsy v) (hf : ¬ falsy (.bool true)) (hs : ∀ s, falsy (.str s) → s = "")
    {env : Env} {c b g : VDict} (hn : (Dict.keys c).Nodup) (hk : KeyAccepted c)
    (h : vpnBlock env remove c = .ok (b, some g)) : AcceptedFile (.dict g) := by
  refine ⟨vpnBlock_file h, ?_⟩
  obtain ⟨c1, c2, n1, g1, s1, h2, rfl⟩ := vpnBlock_split hr hf hn h
  have shown : ∀ k, k ∈ ["tls_auth", "ca", "dev"] → Dict.get? c1 k = Dict.get? c k ∨ (Dict.get? c1 k = none ∧ ∃ v, Dict.get? c k = some v ∧ falsy v) := by
    intro k hk
    have e : Dict.get? c1 k = vpnKept falsy c k := by
      simp only [List.mem_cons, List.not_mem_nil, or_false] at hk
      rcases hk with rfl | rfl | rfl <;> (rw [g1 _ (by decide) (by decide)]; unfold vpnShown; rw [if_neg (by simp)])
    rw [e]
    unfold vpnKept
    cases e : Dict.get? c k with
    | none => exact Or.inl rfl
    | some v =>
      simp only [List.mem_cons, List.not_mem_nil, or_false] at hk
      have h1 : ¬ (k = "server_bridge" ∧ v = .str "") := by rcases hk with rfl | rfl | rfl <;> simp
      have h2 : ¬ (k = "script_security" ∨ k = "remote") := by rcases hk with rfl | rfl | rfl <;> simp
      dsimp only
      rw [if_neg h1, if_neg h2]
      by_cases hv : falsy v
      · rw [if_pos hv]; exact Or.inr ⟨rfl, v, rfl, hv⟩
      · rw [if_neg hv]; exact Or.inl rfl
  unfold tlsAuth at h2
  dsimp only at h2
  split at h2
  · cases h2
  · next htr =>
    obtain ⟨t, ht, h2⟩ := bind_ok_iff.1 h2
    split at h2
    · cases h2
    · next hlen =>
      obtain ⟨ca, hca, h2⟩ := bind_ok_iff.1 h2
      cases h2
      have key : ∃ key : String, Dict.get? c1 "tls_auth" = some (.str key) ∧ key ≠ "" ∧ t = key.toList := by
        cases e : Dict.get? c1 "tls_auth" with
        | none => rw [e] at ht; cases ht
        | some v =>
          rw [e] at ht htr
          cases v <;> simp [asText] at ht
          rename_i s
          refine ⟨s, rfl, ?_, ht.symm⟩
          rintro rfl
          exact htr (by decide)
      obtain ⟨key, hkey, hne, rfl⟩ := key
      have hkey' : Dict.get? c "tls_auth" = some (.str key) := by
        rcases shown "tls_auth" (by decide) with e | ⟨e, _⟩
        · rw [← e]; exact hkey
        · rw [e] at hkey; cases hkey
      rcases hk key hkey' with e | e | ⟨dev, hdev, hp⟩
      · exact absurd e hne
      · exact absurd e hlen
      · have hd : (Dict.get? c1 "dev").getD (.str "") = .str dev := by
          rcases shown "dev" (by decide) with e | ⟨e, v, hv, hfv⟩
          · rw [e]; exact hdev
          · rw [e]
            rw [hv] at hdev
            simp only [Option.getD_some] at hdev
            subst hdev
            rw [hs dev hfv]; rfl
        have hc : ca = optionText (Dict.get? c "ca") := by
          rcases shown "ca" (by decide) with e | ⟨e, v, hv, hfv⟩
          · rw [e] at hca
            cases e' : Dict.get? c "ca" with
            | none => rw [e'] at hca; cases hca; rfl
            | some v =>
              rw [e'] at hca
              cases v <;> simp [asText] at hca
              exact hca.symm
          · rw [e] at hca
            cases hca
            rw [hv]
            cases v with
            | str s => rw [hs s hfv]; rfl
            | _ => rfl
        refine ⟨tlsAuthPath ca dev.toList, ?_, by rw [hc]; exact hp⟩
        rw [hd]
        simp [filePath, reqStr, Dict.get?, txt, pyStr]

end

theorem uciVpnBlock_accepted {env : Env} {c b g : VDict} (hn : (Dict.keys c).Nodup) (hk : KeyAccepted c)
    (h : uciVpnBlock env c = .ok (b, some g)) : AcceptedFile (.dict g) := by
  unfold uciVpnBlock at h
  dsimp only at h
  obtain ⟨⟨name, vpn⟩, h1, h⟩ := bind_ok_iff.1 h
  obtain ⟨name', h2, h⟩ := bind_ok_iff.1 h
  dsimp only at h
  have hvpn : (Dict.keys vpn).Nodup ∧ ∀ k ∈ ["tls_auth", "ca", "dev"], Dict.get? vpn k = Dict.get? c k := by
    have h0 : (Dict.keys (if isZero (Dict.get? c "fragment") then Dict.erase c "fragment" else c)).Nodup ∧
        ∀ k ∈ ["tls_auth", "ca", "dev"], Dict.get? (if isZero (Dict.get? c "fragment") then Dict.erase c "fragment" else c) k = Dict.get? c k := by
      split
      · refine ⟨Dict.nodup_erase hn _, fun k hk => ?_⟩
        rw [Dict.get?_erase', if_neg]
        rintro rfl; revert hk; decide
      · exact ⟨hn, fun _ _ => rfl⟩
    generalize (if isZero (Dict.get? c "fragment") then Dict.erase c "fragment" else c) = c0 at h0 h1
    unfold popKey at h1
    split at h1
    · cases h1
      refine ⟨Dict.nodup_erase h0.1 _, fun k hk => ?_⟩
      rw [Dict.get?_erase', if_neg]
      · exact h0.2 k hk
      · rintro rfl; revert hk; decide
    · cases h1
  obtain ⟨n1, e1⟩ := hvpn
  have hpop : (Dict.keys (popOr vpn "disabled" (.bool false)).2).Nodup ∧
      ∀ k ∈ ["tls_auth", "ca", "dev"], Dict.get? (popOr vpn "disabled" (.bool false)).2 k = Dict.get? c k := by
    unfold popOr
    refine ⟨Dict.nodup_erase n1 _, fun k hk => ?_⟩
    dsimp only
    rw [Dict.get?_erase', if_neg]
    · exact e1 k hk
    · rintro rfl; revert hk; decide
  obtain ⟨n2, e2⟩ := hpop
  generalize (popOr vpn "disabled" (.bool false)) = q at h n2 e2
  obtain ⟨disabled, vpn2⟩ := q
  dsimp only at h n2 e2
  simp only [Dict.update, List.foldl_cons, List.foldl_nil] at h
  generalize hx : Dict.set (Dict.set (Dict.set vpn2 ".name" (txt (uciName name'))) ".type" (.str "openvpn")) "enabled" (.bool !disabled.truthy) = x at h
  have hxs : (Dict.keys x).Nodup ∧ ∀ k ∈ ["tls_auth", "ca", "dev"], Dict.get? x k = Dict.get? c k := by
    subst hx
    refine ⟨Dict.nodup_set (Dict.nodup_set (Dict.nodup_set n2 _ _) _ _) _ _, fun k hk => ?_⟩
    rw [Dict.get?_set', if_neg, Dict.get?_set', if_neg, Dict.get?_set', if_neg]
    · exact e2 k hk
    all_goals (rintro rfl; revert hk; decide)
  have hys : (Dict.keys (tlsCipherList x)).Nodup ∧ ∀ k ∈ ["tls_auth", "ca", "dev"], Dict.get? (tlsCipherList x) k = Dict.get? c k := by
    unfold tlsCipherList
    split
    · split
      · exact hxs
      · refine ⟨Dict.nodup_set hxs.1 _ _, fun k hk => ?_⟩
        rw [Dict.get?_set', if_neg]
        · exact hxs.2 k hk
        · rintro rfl; revert hk; decide
    · exact hxs
  refine vpnBlock_accepted (falsy := fun v => v = .str "") removedUci_iff (by simp) (by simp) hys.1 ?_ h
  unfold KeyAccepted
  rw [hys.2 _ (by decide), hys.2 _ (by decide), hys.2 _ (by decide)]
  exact hk

/-! ## The converters -/

section
variable {P : List String}

/-- a converter keeps the configuration but for key files, which are accepted if their paths are -/
def KeepsBut (env : Env) (P : List String) (v : Conv) : Prop :=
  ∀ config inter, Kept MadeFile P config (v.run config inter).1 ∧ (MadeAccepted env config → Kept AcceptedFile P config (v.run config inter).1)

theorem keepsBut_pure (env : Env) (P : List String) (key : String) (run : VDict → VDict → Except PyErr VDict) : KeepsBut env P (pureConv key run) :=
  fun config _ => ⟨.refl config, fun _ => .refl config⟩

theorem keepsBut_vpn {env : Env} : KeepsBut env P (openvpnConv env) ∧ KeepsBut env P (uciVpnConv env) := by
  constructor <;> intro config inter
  · refine ⟨vpnRun_kept inter fun l _ v _ b g h => ?_, fun hk => vpnRun_kept inter fun l hl v hv b g h => ?_⟩ <;>
      obtain ⟨d, rfl, hd⟩ := file_of_bind h
    · exact vpnBlock_file hd
    · obtain ⟨hn, hk⟩ := hk.keys l hl d hv
      exact vpnBlock_accepted removedVpn_iff (by decide) (by intro s hs; simpa [FalsyOption] using hs) hn hk hd
  · refine ⟨vpnRun_kept inter fun l _ v _ b g h => ?_, fun hk => vpnRun_kept inter fun l hl v hv b g h => ?_⟩ <;>
      obtain ⟨d, rfl, hd⟩ := file_of_bind h
    · exact uciVpnBlock_file hd
    · obtain ⟨hn, hk⟩ := hk.keys l hl d hv
      exact uciVpnBlock_accepted hn hk hd

theorem keepsBut_zt {env : Env} : KeepsBut env P (ztConv env) := by
  intro config inter
  refine ⟨ztRun_kept inter fun _ _ vpn _ t => mapFile_made env vpn t, fun hk => ztRun_kept inter fun l hl vpn hv t => ⟨mapFile_made env vpn t, ?_⟩⟩
  refine ⟨mapPath env vpn, ?_, hk.maps l hl vpn hv⟩
  simp [filePath, reqStr, Dict.get?, txt]

theorem made_kept {env : Env} {c c' : VDict} (h1 : Dict.get? c' "openvpn" = Dict.get? c "openvpn")
    (h2 : Dict.get? c' "zerotier" = Dict.get? c "zerotier") (hk : MadeAccepted env c) : MadeAccepted env c' :=
  ⟨by rw [h1]; exact hk.keys, by rw [h2]; exact hk.maps⟩

theorem loop_kept {env : Env} {cls : Class} (h : ∀ v ∈ cls.convs, KeepsBut env P v) (c : VDict) :
    Kept MadeFile P c (convLoop cls cls.convs c []).1.config :=
  convLoop_rel (R := Kept MadeFile P) .refl (fun _ _ _ => .trans) _ (fun v hv config inter => (h v hv config inter).1) c []

theorem loop_accepted {env : Env} {cls : Class} (hP : "openvpn" ∈ P) (hP' : "zerotier" ∈ P) (h : ∀ v ∈ cls.convs, KeepsBut env P v) (c : VDict)
    (hk : MadeAccepted env c) :
    Kept AcceptedFile P c (convLoop cls cls.convs c []).1.config :=
  convLoop_rel (R := fun a b => MadeAccepted env a → Kept AcceptedFile P a b) (fun c _ => .refl c)
    (fun _ _ _ h1 h2 hk => (h1 hk).trans (h2 (made_kept ((h1 hk).same _ hP (by decide)) ((h1 hk).same _ hP' (by decide)) hk))) _ (fun v hv config inter => (h v hv config inter).2) c [] hk

end

/-! ## Classes -/

/-- a backend with schema `root` for the sections `P`, whose converters add accepted key files when `A` holds -/
structure Steady (cls : Class) (P : List String) (ip6 : Ip6) (root : VDict) (A : VDict → Prop) : Prop where
  schema : cls.schema = schemaValidate root ip6
  top : topOk P root = true
  pre : ∀ c c', (∀ k ∈ P, k ≠ "files" → Dict.get? c' k = Dict.get? c k) → cls.pre c' = cls.pre c
  post : ∀ c c', (∀ k ∈ P, k ≠ "files" → Dict.get? c' k = Dict.get? c k) → cls.post c' = cls.post c
  kept : ∀ c, Kept MadeFile P c (convLoop cls cls.convs c []).1.config
  accepted : ∀ c, A c → Kept AcceptedFile P c (convLoop cls cls.convs c []).1.config

section
variable {cls : Class} {P : List String} {ip6 : Ip6} {root : VDict} {A : VDict → Prop} (hs : Steady cls P ip6 root A)
include hs

/-- what `render` leaves is valid if the paths of its files are accepted -/
theorem steady_left {c : VDict} {st1 : BState} {t : Chars} {files : Bool} (h : render cls files ⟨c, none⟩ = (st1, .ok t))
    (hp : validateFilePaths st1.config = .ok ()) : validate cls st1.config = .ok () := by
  obtain ⟨hv, _⟩ := render_ok h
  obtain ⟨c', hk, hd⟩ := render_kept (hs.kept c) h
  obtain ⟨_, _, _, _, hrest⟩ := C21_one_file_per_path _ _ hd
  have hsame : ∀ k ∈ P, k ≠ "files" → Dict.get? st1.config k = Dict.get? c k := fun k hP hf => (hrest k hf).trans (hk.same k hP hf)
  unfold validate at hv ⊢
  obtain ⟨_, h1, hv⟩ := bind_ok_iff.1 hv
  obtain ⟨_, h2, hv⟩ := bind_ok_iff.1 hv
  obtain ⟨_, h3, h4⟩ := bind_ok_iff.1 hv
  dsimp only at h1 h2 h4
  have h2' : cls.schema st1.config = .ok () := by
    rw [hs.schema] at h2 ⊢
    unfold schemaValidate at h2 ⊢
    rw [if_pos]
    refine left_schema (n := 20) hs.top (fun _ => madeFile_valid) ?_ hk hd
    split at h2
    · assumption
    · cases h2
  rw [hs.pre _ _ hsame, h1, h2', hp, hs.post _ _ hsame, h4]
  rfl

/-- without inline keys whose file would not be accepted, it is valid -/
theorem steady_valid {c : VDict} {st1 : BState} {t : Chars} {files : Bool} (h : render cls files ⟨c, none⟩ = (st1, .ok t))
    (ha : A c) : validate cls st1.config = .ok () := by
  refine steady_left hs h ?_
  obtain ⟨c', hk, hd⟩ := render_kept (hs.accepted c ha) h
  obtain ⟨hv, _⟩ := render_ok h
  unfold validate at hv
  obtain ⟨_, _, hv⟩ := bind_ok_iff.1 hv
  obtain ⟨_, _, hv⟩ := bind_ok_iff.1 hv
  obtain ⟨_, h3, _⟩ := bind_ok_iff.1 hv
  exact left_paths (fun f hf => hf.2) hk hd h3

/-- the answers of an object do not depend on its history -/
theorem steady_answers {c : VDict} {t : Chars} (h : (render cls false ⟨c, none⟩).2 = .ok t) (ha : A c) (past : List Call) (q : Call)
    (hq : q ≠ .json) : (ask cls q (afterCalls cls past ⟨c, none⟩)).2 = (ask cls q ⟨c, none⟩).2 := by
  have h : render cls false ⟨c, none⟩ = ((render cls false ⟨c, none⟩).1, .ok t) := by rw [← h]
  exact C91_answers h (steady_valid hs h ha) past q hq

/-- the document differs in the files and in the sections that are not of the schema only -/
theorem steady_json {c : VDict} {t : Chars} (h : (render cls false ⟨c, none⟩).2 = .ok t) (ha : A c) (past : List Call) :
    ∃ d d', (ask cls .json ⟨c, none⟩).2 = .ok (.doc d) ∧ (ask cls .json (afterCalls cls past ⟨c, none⟩)).2 = .ok (.doc d') ∧
      (∀ k ∈ P, k ≠ "files" → Dict.get? d' k = Dict.get? d k) ∧ ∀ k, Dict.has d k = true → Dict.has d' k = true := by
  have h : render cls false ⟨c, none⟩ = ((render cls false ⟨c, none⟩).1, .ok t) := by rw [← h]
  generalize (render cls false ⟨c, none⟩).1 = st1 at h
  have hv := steady_valid hs h ha
  have hc := (render_ok h).1
  obtain ⟨c', hk, hd⟩ := render_kept (hs.kept c) h
  obtain ⟨_, _, _, _, hrest⟩ := C21_one_file_per_path _ _ hd
  have fresh : (ask cls .json ⟨c, none⟩).2 = .ok (.doc (Dict.set c "type" (.str "DeviceConfiguration"))) := by
    simp only [ask, jsonDoc, hc]; rfl
  rcases after_reaches h hv past with e | e <;> rw [e]
  · exact ⟨_, _, fresh, fresh, fun _ _ _ => rfl, fun _ h => h⟩
  · refine ⟨_, Dict.set st1.config "type" (.str "DeviceConfiguration"), fresh, by simp only [ask, jsonDoc, hv]; rfl, ?_, ?_⟩
    · intro k hP hf
      rw [Dict.get?_set', Dict.get?_set', hrest k hf, hk.same k hP hf]
    · intro k hk'
      rw [Dict.has_eq, Dict.get?_set'] at hk' ⊢
      split
      · rfl
      · next hne =>
        rw [if_neg hne] at hk'
        exact dedup_has hd k (hk.has k hk')

end

theorem openwrt_steady (env : Env) (sh : Val → Bool) (loads : Chars → Option Val) (dsa : Bool) :
    Steady (openwrtClass env (owValidate env.ip6) sh loads dsa) knownKeys env.ip6 owSchema (MadeAccepted env) := by
  have hk : ∀ v ∈ openwrtConvs env sh dsa, KeepsBut env knownKeys v := by
    intro v hv
    simp only [openwrtConvs, List.mem_cons, List.not_mem_nil, or_false] at hv
    rcases hv with rfl | rfl | rfl | rfl | rfl | rfl | rfl | rfl | rfl | rfl | rfl | rfl | rfl
    all_goals first
      | exact keepsBut_pure _ _ _ _
      | exact keepsBut_vpn.2
      | exact fun config inter => ⟨default_kept (fun _ h => h) (by decide) config inter, fun _ => default_kept (fun _ h => h) (by decide) config inter⟩
      | exact keepsBut_zt
  refine ⟨rfl, by decide +kernel, ?_, ?_, loop_kept hk, loop_accepted (by decide) (by decide) hk⟩
  · intro c c' h
    change validateRadios c' = validateRadios c
    unfold validateRadios
    rw [h _ (by decide) (by decide)]
  · intro c c' h
    change validatePvid c' = validatePvid c
    unfold validatePvid dictsAt
    rw [h _ (by decide) (by decide)]

theorem openvpn_steady (env : Env) (sh : Val → Bool) (loads : Chars → Option Val) :
    Steady (openvpnReal env sh loads) ["openvpn", "files"] env.ip6 openvpnSchema
      (fun c => ∀ l, Dict.get? c "openvpn" = some (.list l) → ∀ vpn, Val.dict vpn ∈ l → (Dict.keys vpn).Nodup ∧ KeyAccepted vpn) := by
  have hk : ∀ v ∈ [openvpnConv env], KeepsBut env ["openvpn", "files"] v := by
    intro v hv
    rw [List.mem_singleton] at hv
    subst hv
    exact keepsBut_vpn.1
  refine ⟨rfl, by decide +kernel, fun _ _ _ => rfl, fun _ _ _ => rfl, loop_kept hk, fun c ha => ?_⟩
  exact convLoop_rel (R := fun a b => (Dict.get? a "openvpn" = Dict.get? c "openvpn") → Kept AcceptedFile ["openvpn", "files"] a b) (fun c _ => .refl c)
    (fun _ _ _ h1 h2 hk => (h1 hk).trans (h2 (((h1 hk).same _ (by decide) (by decide)).trans hk))) _ (fun v hv config inter he => by
      rw [List.mem_singleton.1 hv]
      refine vpnRun_kept inter fun l hl v hv b g h => ?_
      obtain ⟨d, rfl, hd⟩ := file_of_bind h
      obtain ⟨hn, hk⟩ := ha l (by rw [← he]; exact hl) d hv
      exact vpnBlock_accepted removedVpn_iff (by decide) (by intro s hs; simpa [FalsyOption] using hs) hn hk hd) c [] rfl

theorem keeping_steady {cls : Class} {P : List String} {ip6 : Ip6} {root : VDict} (hs : cls.schema = schemaValidate root ip6) (ht : topOk P root = true)
    (hpre : ∀ c, cls.pre c = .ok ()) (hpost : ∀ c, cls.post c = .ok ()) (hk : ∀ v ∈ cls.convs, ∀ config inter, (v.run config inter).1 = config) :
    Steady cls P ip6 root (fun _ => True) := by
  have h : ∀ K c, Kept K P c (convLoop cls cls.convs c []).1.config := fun K c =>
    convLoop_rel (R := Kept K P) .refl (fun _ _ _ => .trans) _ (fun v hv config inter => by rw [hk v hv]; exact .refl config) c []
  exact ⟨hs, ht, fun _ _ _ => by rw [hpre, hpre], fun _ _ _ => by rw [hpost, hpost], h _, fun c _ => h _ c⟩

theorem wireguard_steady (env : Env) (sh : Val → Bool) (loads : Chars → Option Val) :
    Steady (wireguardReal env sh loads) ["wireguard", "files"] env.ip6 wireguardSchema (fun _ => True) := by
  refine keeping_steady rfl (by decide +kernel) (fun _ => rfl) (fun _ => rfl) ?_
  intro v hv
  rw [List.mem_singleton.1 hv]
  exact fun _ _ => rfl

theorem vxlan_steady (env : Env) (sh : Val → Bool) (loads : Chars → Option Val) :
    Steady (vxlanReal env sh loads) ["wireguard", "vxlan", "files"] env.ip6 vxlanSchema (fun _ => True) := by
  refine keeping_steady rfl (by decide +kernel) (fun _ => rfl) (fun _ => rfl) ?_
  intro v hv
  rw [List.mem_singleton.1 hv]
  exact fun _ _ => rfl

theorem zerotier_steady (env : Env) (sh : Val → Bool) :
    Steady (zerotierReal env sh) ["zerotier", "files"] env.ip6 zerotierSchema (fun _ => True) := by
  refine keeping_steady rfl (by decide +kernel) (fun _ => rfl) (fun _ => rfl) ?_
  intro v hv
  rw [List.mem_singleton.1 hv]
  exact fun _ _ => rfl

/-! ## C91 -/

/-- **C91**, OpenWrt: let `c` be a configuration that can be rendered, whose converters make files with accepted paths only. Then after any history of
`validate`, `json`, `render` and `generate`, each of these calls but `json` answers what it answers on a fresh object. -/
theorem C91_openwrt (env : Env) (sh : Val → Bool) (loads : Chars → Option Val) (dsa : Bool) (c : VDict) (t : Chars)
    (h : (render (openwrtClass env (owValidate env.ip6) sh loads dsa) false ⟨c, none⟩).2 = .ok t) (ha : MadeAccepted env c)
    (past : List Call) (q : Call) (hq : q ≠ .json) :
    (ask (openwrtClass env (owValidate env.ip6) sh loads dsa) q
      (afterCalls (openwrtClass env (owValidate env.ip6) sh loads dsa) past ⟨c, none⟩)).2 =
    (ask (openwrtClass env (owValidate env.ip6) sh loads dsa) q ⟨c, none⟩).2 :=
  steady_answers (openwrt_steady env sh loads dsa) h ha past q hq

/-- **C91**, `json` of OpenWrt: whatever the history, it succeeds and shows the sections of the schema as they were given; only the files (duplicates
go, key files and device maps come) and the sections that are not of the schema (changed in place by the converter) can differ, and no section goes. -/
theorem C91_openwrt_json (env : Env) (sh : Val → Bool) (loads : Chars → Option Val) (dsa : Bool) (c : VDict) (t : Chars)
    (h : (render (openwrtClass env (owValidate env.ip6) sh loads dsa) false ⟨c, none⟩).2 = .ok t) (ha : MadeAccepted env c) (past : List Call) :
    ∃ d d', (ask (openwrtClass env (owValidate env.ip6) sh loads dsa) .json ⟨c, none⟩).2 = .ok (.doc d) ∧
      (ask (openwrtClass env (owValidate env.ip6) sh loads dsa) .json
        (afterCalls (openwrtClass env (owValidate env.ip6) sh loads dsa) past ⟨c, none⟩)).2 = .ok (.doc d') ∧
      (∀ k ∈ knownKeys, k ≠ "files" → Dict.get? d' k = Dict.get? d k) ∧ ∀ k, Dict.has d k = true → Dict.has d' k = true :=
  steady_json (openwrt_steady env sh loads dsa) h ha past

/-- **C91**, OpenVPN. -/
theorem C91_openvpn (env : Env) (sh : Val → Bool) (loads : Chars → Option Val) (c : VDict) (t : Chars)
    (h : (render (openvpnReal env sh loads) false ⟨c, none⟩).2 = .ok t)
    (ha : ∀ l, Dict.get? c "openvpn" = some (.list l) → ∀ vpn, Val.dict vpn ∈ l → (Dict.keys vpn).Nodup ∧ KeyAccepted vpn)
    (past : List Call) (q : Call) (hq : q ≠ .json) :
    (ask (openvpnReal env sh loads) q (afterCalls (openvpnReal env sh loads) past ⟨c, none⟩)).2 = (ask (openvpnReal env sh loads) q ⟨c, none⟩).2 :=
  steady_answers (openvpn_steady env sh loads) h ha past q hq

/-- **C91**, WireGuard, VXLAN over WireGuard and ZeroTier: no condition but that the configuration can be rendered. -/
theorem C91_wireguard (env : Env) (sh : Val → Bool) (loads : Chars → Option Val) (c : VDict) (t : Chars)
    (h : (render (wireguardReal env sh loads) false ⟨c, none⟩).2 = .ok t) (past : List Call) (q : Call) (hq : q ≠ .json) :
    (ask (wireguardReal env sh loads) q (afterCalls (wireguardReal env sh loads) past ⟨c, none⟩)).2 = (ask (wireguardReal env sh loads) q ⟨c, none⟩).2 :=
  steady_answers (wireguard_steady env sh loads) h trivial past q hq

theorem C91_vxlan (env : Env) (sh : Val → Bool) (loads : Chars → Option Val) (c : VDict) (t : Chars)
    (h : (render (vxlanReal env sh loads) false ⟨c, none⟩).2 = .ok t) (past : List Call) (q : Call) (hq : q ≠ .json) :
    (ask (vxlanReal env sh loads) q (afterCalls (vxlanReal env sh loads) past ⟨c, none⟩)).2 = (ask (vxlanReal env sh loads) q ⟨c, none⟩).2 :=
  steady_answers (vxlan_steady env sh loads) h trivial past q hq

theorem C91_zerotier (env : Env) (sh : Val → Bool) (c : VDict) (t : Chars)
    (h : (render (zerotierReal env sh) false ⟨c, none⟩).2 = .ok t) (past : List Call) (q : Call) (hq : q ≠ .json) :
    (ask (zerotierReal env sh) q (afterCalls (zerotierReal env sh) past ⟨c, none⟩)).2 = (ask (zerotierReal env sh) q ⟨c, none⟩).2 :=
  steady_answers (zerotier_steady env sh) h trivial past q hq

end NJ
