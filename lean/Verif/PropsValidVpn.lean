import Verif.PropsValid
import Verif.SchemaMore
import Verif.WireGuard
import Verif.ZtBackend

/-!
# C81: valid VPN configurations are rendered and archived

The backends OpenVPN, WireGuard, VXLAN over WireGuard and ZeroTier, each with its real schema. A configuration that `validate` accepts is
rendered, and its archive is made, unless it is one of the two kinds that the schemas let through by mistake: OpenVPN servers with remotes
(`C81_needs_remote`) and WireGuard tunnels without address (`C81_needs_address`).
-/

namespace NJ

/-- the computation succeeds, and its result satisfies -/
def Sure {α : Type} (P : α → Prop) (x : Except PyErr α) : Prop := ∃ a, x = .ok a ∧ P a

section
variable {α β : Type} {P : α → Prop} {Q : β → Prop}

theorem sure_ok {a : α} (h : P a) : Sure P (.ok a) := ⟨a, rfl, h⟩

theorem sure_bind {x : Except PyErr β} {f : β → Except PyErr α} (h : Sure Q x) (hf : ∀ b, Q b → Sure P (f b)) : Sure P (x >>= f) := by
  obtain ⟨b, rfl, hb⟩ := h
  exact hf b hb

theorem sure_mapM {l : List β} {f : β → Except PyErr α} (h : ∀ b ∈ l, Sure P (f b)) : Sure (fun r => ∀ a ∈ r, P a) (l.mapM f) := by
  induction l with
  | nil => exact ⟨[], rfl, fun _ h => nomatch h⟩
  | cons b l ih =>
    obtain ⟨a, ha, hp⟩ := h b List.mem_cons_self
    obtain ⟨r, hr, hpr⟩ := ih fun b hb => h b (List.mem_cons_of_mem _ hb)
    refine ⟨a :: r, by rw [List.mapM_cons, ha, hr]; rfl, ?_⟩
    intro x hx
    rcases List.mem_cons.1 hx with rfl | hx
    · exact hp
    · exact hpr x hx

theorem sure_getKey {d : VDict} {k : String} {P : Val → Prop} (h : Key d k P) : Sure P (getKey d k) := by
  obtain ⟨v, hv, hp⟩ := h
  exact ⟨v, by unfold getKey; rw [hv], hp⟩

theorem sure_popKey {d : VDict} {k : String} {P : Val → Prop} (h : Key d k P) : Sure (fun r => P r.1 ∧ r.2 = Dict.erase d k) (popKey d k) := by
  obtain ⟨v, hv, hp⟩ := h
  exact ⟨(v, Dict.erase d k), by unfold popKey; rw [hv], hp, rfl⟩

theorem sure_asText {v : Val} (h : IsTxt v) : Sure (fun t => v = txt t) (asText v) := by
  obtain ⟨s, rfl⟩ := h
  exact ⟨s.toList, rfl, by show Val.str s = txt s.toList; unfold txt; rw [String.ofList_toList]⟩

theorem sure_asDict {v : Val} {P : VDict → Prop} (h : IsObj P v) : Sure P (asDict v) := by
  obtain ⟨d, rfl, hd⟩ := h
  exact ⟨d, rfl, hd⟩

theorem sure_mono {P' : α → Prop} {x : Except PyErr α} (h : Sure P x) (hp : ∀ a, P a → P' a) : Sure P' x := by
  obtain ⟨a, h, ha⟩ := h
  exact ⟨a, h, hp a ha⟩
end

/-! ## Files -/

theorem dedup_sure {config : VDict} (h : FilesFit config) : Sure FilesFit (deduplicateFiles config) := by
  have hs := dedup_safe h
  have loop : ∀ (l : List Val), (∀ v ∈ l, IsObj FileFit v) → ∀ acc : Dict Chars Val, ∃ d, dedupLoop acc l = .ok d := by
    intro l
    induction l with
    | nil => intro _ acc; exact ⟨acc, rfl⟩
    | cons f l ih =>
      intro hl acc
      obtain ⟨d, rfl, ⟨p, hp, s, rfl⟩, -⟩ := hl f List.mem_cons_self
      obtain ⟨e, he⟩ := ih (fun v hv => hl v (List.mem_cons_of_mem _ hv)) (Dict.set acc s.toList (.dict d))
      refine ⟨e, ?_⟩
      rw [dedupLoop]
      unfold filePath reqStr
      dsimp only
      rw [hp]
      exact he
  have hx : ∃ c, deduplicateFiles config = .ok c := by
    unfold deduplicateFiles
    split
    · exact ⟨_, rfl⟩
    · obtain ⟨d, hd⟩ := loop (filesOf config) (filesOf_fit h) []
      exact ⟨_, by rw [hd]; rfl⟩
  obtain ⟨c, hc⟩ := hx
  rw [hc] at hs
  exact ⟨c, hc, hs⟩

theorem filesSection_sure {config : VDict} (h : FilesFit config) : Sure (fun _ => True) (filesSection config) := by
  unfold filesSection renderFiles
  refine sure_bind (Q := fun _ => True) (sure_bind (sure_mapM (P := fun _ => True) fun v hv => ?_) fun _ _ => ⟨_, rfl, trivial⟩) fun _ _ => ⟨_, rfl, trivial⟩
  obtain ⟨d, rfl, ⟨p, hp, ps, rfl⟩, ⟨c, hc, cs, rfl⟩, h3⟩ := filesOf_fit h v hv
  unfold fileItem reqStr optStr
  dsimp only
  rw [hp, hc]
  cases hm : Dict.get? d "mode" with
  | none => exact ⟨_, rfl, trivial⟩
  | some m => obtain ⟨s, rfl, n, hn⟩ := h3 m hm; exact ⟨_, rfl, trivial⟩

/-! ## A class with one converter -/

/-- what the converter may give: nothing, or one list of objects -/
def OneList (k : String) (B : VDict → Prop) (r : VDict) : Prop := r = [] ∨ ∃ l, r = [(k, .list l)] ∧ ∀ v ∈ l, IsObj B v

theorem merge_one (sh : Val → Bool) (ids : List String) (k : String) (l : List Val) : mergeConfig sh ids [] [(k, .list l)] = .ok [(k, .list l)] := by
  unfold mergeConfig
  rw [mergeKvs, mergeVal]
  · rfl
  all_goals intro a b _ h; exact absurd h (by simp [Dict.get?])

theorem render_single {cls : Class} {c : Conv} (hc : cls.convs = [c]) {k : String} {B : VDict → Prop} {config : VDict}
    (hv : validate cls config = .ok ()) (hf : FilesFit config)
    (hrun : c.should config = true → FilesFit (c.run config []).1 ∧ Sure (OneList k B) (c.run config []).2)
    (hn : ∀ r, OneList k B r → ∃ t, cls.native r = .ok t) (files : Bool) :
    ∃ t, (render cls files ⟨config, none⟩).2 = .ok t ∧ FilesFit (render cls files ⟨config, none⟩).1.config := by
  have hl : ∃ config' r, convLoop cls cls.convs config [] = (⟨config', some r⟩, .ok ()) ∧ FilesFit config' ∧ OneList k B r := by
    rw [hc, convLoop]
    split
    · exact ⟨config, [], rfl, hf, .inl rfl⟩
    · rename_i hs
      obtain ⟨h1, r, h2, h3⟩ := hrun (by simpa using hs)
      generalize c.run config [] = y at h1 h2
      obtain ⟨config', r'⟩ := y
      dsimp only at h1 h2
      subst h2
      dsimp only
      split
      · exact ⟨config', [], rfl, h1, .inl rfl⟩
      · rcases h3 with rfl | ⟨l, rfl, hl⟩
        · exact absurd rfl (by assumption)
        · rw [merge_one]
          exact ⟨config', _, rfl, h1, .inr ⟨l, rfl, hl⟩⟩
  obtain ⟨config', r, he, hf', hr⟩ := hl
  unfold render ensureIntermediate toIntermediate
  dsimp only
  rw [hv]
  dsimp only
  rw [he]
  dsimp only
  unfold renderTail
  obtain ⟨c', hd, hfc⟩ := dedup_sure hf'
  dsimp only
  rw [hd]
  dsimp only [Option.getD]
  obtain ⟨t, ht⟩ := hn r hr
  rw [ht]
  cases files
  · exact ⟨t, rfl, hfc⟩
  · obtain ⟨s, hs, -⟩ := filesSection_sure hfc
    exact ⟨t ++ s, by show (filesSection c' >>= fun s => pure (t ++ s)) = _; rw [hs]; rfl, hfc⟩

theorem generate_single {cls : Class} (hsplit : ∀ t, ∃ ms, cls.split t = .ok ms) {st : BState}
    (h : ∃ t, (render cls false st).2 = .ok t ∧ FilesFit (render cls false st).1.config) : ∃ ms, (generate cls st).2 = .ok ms := by
  unfold generate
  generalize render cls false st = y at h
  obtain ⟨st', r⟩ := y
  obtain ⟨t, ht, hf⟩ := h
  dsimp only at ht hf
  subst ht
  obtain ⟨a, ha⟩ := hsplit t
  obtain ⟨b, hb⟩ := processFiles_safe hf
  dsimp only
  rw [ha, hb]
  exact ⟨_, rfl⟩

theorem vpnSplit_ok (kw suffix t : Chars) : ∃ ms, vpnSplit kw suffix t = .ok ms := addFile_ok _ _ _

theorem blocksOf_sure {l : List Val} {B : VDict → Prop} (hl : ∀ v ∈ l, IsObj B v) : Sure (fun bs => ∀ b ∈ bs, B b) (blocksOf (.list l)) := by
  unfold blocksOf
  refine sure_mapM fun v hv => ?_
  obtain ⟨d, rfl, hd⟩ := hl v hv
  exact ⟨d, rfl, hd⟩

/-- the loop of a converter that adds one block for each element -/
theorem fwdList_sure {k : String} {loop : Option Nat → Val → VDict → Except PyErr VDict} {P B : VDict → Prop}
    (h : ∀ i d r, P d → ∃ b, B b ∧ loop i (.dict d) r = .ok (appendTo r k [.dict b])) {l : List Val} (hl : ∀ v ∈ l, IsObj P v) (i : Nat) {r : VDict}
    (hr : OneList k B r) : Sure (OneList k B) (fwdList loop i r l) := by
  induction l generalizing i r with
  | nil => exact ⟨r, rfl, hr⟩
  | cons v vs ih =>
    obtain ⟨d, rfl, hd⟩ := hl v List.mem_cons_self
    obtain ⟨b, hb, he⟩ := h (some i) d r hd
    rw [fwdList, he]
    refine ih (fun w hw => hl w (List.mem_cons_of_mem _ hw)) _ (.inr ?_)
    rcases hr with rfl | ⟨t, rfl, ht⟩
    · exact ⟨[.dict b], rfl, fun w hw => by rw [List.mem_singleton] at hw; exact ⟨b, hw, hb⟩⟩
    · refine ⟨t ++ [.dict b], ?_, fun w hw => ?_⟩
      · simp [appendTo, Dict.set]
      · rcases List.mem_append.1 hw with hw | hw
        · exact ht w hw
        · rw [List.mem_singleton] at hw; exact ⟨b, hw, hb⟩

/-! ## Schemas -/

/-- the schema is part of what `validate` checks -/
theorem schema_valid {cls : Class} {root : VDict} {ip6 : Ip6} {config : VDict} (hs : cls.schema = schemaValidate root ip6) (hv : validate cls config = .ok ()) :
    valid ip6 root schemaDepth (.dict root) (.dict config) = true := by
  unfold validate at hv
  obtain ⟨_, _, h1⟩ := bind_ok_iff.1 hv
  obtain ⟨_, h2, _⟩ := bind_ok_iff.1 h1
  rw [hs] at h2
  unfold schemaValidate at h2
  split at h2
  · assumption
  · cases h2

local infixr:35 " & " => Fact.and
local notation "S" => Fact.isType "string"

def tunnelFact : Fact := .objects "wireguard" (.has "port" & .has "private_key" & .at "dns" (.isType "array" & .each S) &
  .objects "peers" (.has "public_key" & .has "allowed_ips"))
def ztnFact : Fact := .objects "zerotier" (.isType "object")

theorem openvpn_facts {ip6 : Ip6} {config : VDict} (h : valid ip6 openvpnSchema schemaDepth (.dict openvpnSchema) (.dict config) = true) :
    vpnFact.Holds ip6 (.dict config) ∧ filesFact.Holds ip6 (.dict config) :=
  ⟨implies_sound (n := 24) (by decide +kernel) h, implies_sound (n := 24) (by decide +kernel) h⟩

theorem wireguard_facts {ip6 : Ip6} {config : VDict} (h : valid ip6 wireguardSchema schemaDepth (.dict wireguardSchema) (.dict config) = true) :
    tunnelFact.Holds ip6 (.dict config) ∧ filesFact.Holds ip6 (.dict config) :=
  ⟨implies_sound (n := 24) (by decide +kernel) h, implies_sound (n := 24) (by decide +kernel) h⟩

theorem vxlan_facts {ip6 : Ip6} {config : VDict} (h : valid ip6 vxlanSchema schemaDepth (.dict vxlanSchema) (.dict config) = true) :
    tunnelFact.Holds ip6 (.dict config) ∧ filesFact.Holds ip6 (.dict config) :=
  ⟨implies_sound (n := 24) (by decide +kernel) h, implies_sound (n := 24) (by decide +kernel) h⟩

theorem zerotier_facts {ip6 : Ip6} {config : VDict} (h : valid ip6 zerotierSchema schemaDepth (.dict zerotierSchema) (.dict config) = true) :
    ztnFact.Holds ip6 (.dict config) ∧ filesFact.Holds ip6 (.dict config) :=
  ⟨implies_sound (n := 24) (by decide +kernel) h, implies_sound (n := 24) (by decide +kernel) h⟩

/-! ## OpenVPN -/

/-- **Specification.** What the schema of OpenVPN leaves open: servers have no remotes -/
def NoServerRemote (config : VDict) : Prop := Each config "openvpn" fun d => Dict.get? d "mode" = some (.str "server") → Dict.has d "remote" = false

/-- what the converter asks of a VPN -/
structure TunFit (d : VDict) : Prop where
  nodup : (Dict.keys d).Nodup
  remote : Opt d "remote" (IsLst (IsObj fun r => Key r "host" (fun _ => True) ∧ Key r "port" fun _ => True))
  ciphers : Opt d "data_ciphers" (IsLst (IsObj fun r => Key r "cipher" (fun _ => True) ∧ Key r "optional" fun _ => True))
  tls : Opt d "tls_auth" IsTxt
  ca : Opt d "ca" IsTxt

theorem openvpn_fit {ip6 : Ip6} {config : VDict} (hw : (Val.dict config).WF) (hv : vpnFact.Holds ip6 (.dict config)) (ht : NoServerRemote config) :
    Opt config "openvpn" (IsLst (IsObj TunFit)) := by
  refine opt_objects hw (holds_objects hv) fun l d hg hm hd h => ?_
  obtain ⟨h1, h2, h3, h4, h5, h6, h7⟩ := h
  refine ⟨wf_nodup hd, ?_, ?_, opt_mono (holds_at h4) fun _ => holds_txt, opt_mono (holds_at h5) fun _ => holds_txt⟩
  · rcases h7 with h7 | h7
    · obtain ⟨m, hm', -⟩ := holds_key h6
      obtain ⟨s, hs, e⟩ := holds_at h7 m hm'
      rw [List.mem_singleton] at hs
      subst hs e
      have := lacks_of (ht l d hg hm hm')
      intro v hv
      rw [this] at hv
      cases hv
    · exact opt_objects hd (holds_objects h7) fun l' x _ _ _ h' => ⟨holds_key h'.1, holds_key h'.2⟩
  · exact opt_objects hd (holds_objects h3) fun l' x _ _ _ h' => ⟨holds_key h'.1, holds_key h'.2⟩

/-- what is left to ask once the remotes are texts -/
structure TunMid (d : VDict) : Prop where
  nodup : (Dict.keys d).Nodup
  ciphers : Opt d "data_ciphers" (IsLst (IsObj fun r => Key r "cipher" (fun _ => True) ∧ Key r "optional" fun _ => True))
  tls : Opt d "tls_auth" IsTxt
  ca : Opt d "ca" IsTxt

theorem remotes_sure {env : Env} {c : VDict} (h : TunFit c) : Sure TunMid (remotesText env c) := by
  unfold remotesText
  cases hg : Dict.get? c "remote" with
  | none => exact ⟨c, rfl, h.nodup, h.ciphers, h.tls, h.ca⟩
  | some w =>
    obtain ⟨l, rfl, hl⟩ := h.remote w hg
    have hm : Sure (fun r => ∀ a ∈ r, True) (l.mapM (remoteText env)) := by
      refine sure_mapM (P := fun _ => True) fun v hv => ?_
      obtain ⟨r, rfl, hh, hp⟩ := hl v hv
      unfold remoteText
      exact sure_bind (sure_getKey hh) fun _ _ => sure_bind (sure_getKey hp) fun _ _ => ⟨_, rfl, trivial⟩
    exact sure_bind hm fun ts _ => ⟨_, rfl, Dict.nodup_set h.nodup _ _, opt_set_ne (by decide) h.ciphers, opt_set_ne (by decide) h.tls, opt_set_ne (by decide) h.ca⟩

theorem ciphers_sure {env : Env} {c : VDict} (h : TunMid c) : Sure (fun c => Opt c "tls_auth" IsTxt ∧ Opt c "ca" IsTxt) (dataCiphers env c) := by
  unfold dataCiphers
  dsimp only
  split
  · exact ⟨c, rfl, h.tls, h.ca⟩
  · rename_i ht
    cases hg : Dict.get? c "data_ciphers" with
    | none => rw [hg] at ht; exact absurd rfl ht
    | some w =>
      obtain ⟨l, rfl, hl⟩ := h.ciphers w hg
      have hm : Sure (fun r => ∀ a ∈ r, True) (l.mapM (cipherText env)) := by
        refine sure_mapM (P := fun _ => True) fun v hv => ?_
        obtain ⟨r, rfl, hh, hp⟩ := hl v hv
        unfold cipherText
        exact sure_bind (sure_getKey hh) fun _ _ => sure_bind (sure_getKey hp) fun _ _ => ⟨_, rfl, trivial⟩
      exact sure_bind hm fun ts _ => ⟨_, rfl, opt_set_ne (by decide) h.tls, opt_set_ne (by decide) h.ca⟩

theorem tlsAuth_sure {env : Env} {c : VDict} (htls : Opt c "tls_auth" IsTxt) (hca : Opt c "ca" IsTxt) :
    Sure (fun r => ∀ f, r.2 = some f → FileFit f) (tlsAuth env c) := by
  unfold tlsAuth
  dsimp only
  split
  · exact ⟨_, rfl, fun f hf => nomatch hf⟩
  · rename_i ht
    cases hg : Dict.get? c "tls_auth" with
    | none => rw [hg] at ht; exact absurd rfl ht
    | some w =>
      refine sure_bind (sure_asText (htls w hg)) fun t _ => ?_
      split
      · exact ⟨_, rfl, fun f hf => nomatch hf⟩
      · refine sure_bind (sure_asText ?_) fun ca _ => ⟨_, rfl, fun f hf => ?_⟩
        · cases hc : Dict.get? c "ca" with
          | none => exact isTxt_str _
          | some x => exact hca x hc
        · have e := Option.some.inj hf
          subst e
          exact ⟨⟨_, by simp [Dict.get?_cons]; rfl, isTxt_txt _⟩, ⟨_, by simp [Dict.get?_cons]; rfl, isTxt_txt _⟩,
            opt_of_key ⟨_, by simp [Dict.get?_cons], mode_x509⟩⟩

theorem tunBlock_sure {env : Env} {d : VDict} (h : TunFit d) : Sure (fun r => ∀ f, r.2 = some f → FileFit f) (vpnBlock env removedVpn d) := by
  have h1 : TunFit (bareBridge d) := by
    unfold bareBridge
    split
    · exact ⟨Dict.nodup_set h.nodup _ _, opt_set_ne (by decide) h.remote, opt_set_ne (by decide) h.ciphers, opt_set_ne (by decide) h.tls, opt_set_ne (by decide) h.ca⟩
    · exact h
  have h2 : TunFit (dropRemoved removedVpn (bareBridge d)) :=
    ⟨List.Nodup.sublist (List.Sublist.map _ List.filter_sublist) h1.nodup, opt_filter h1.nodup h1.remote, opt_filter h1.nodup h1.ciphers,
      opt_filter h1.nodup h1.tls, opt_filter h1.nodup h1.ca⟩
  unfold vpnBlock
  refine sure_bind (remotes_sure h2) fun c hc => ?_
  have h3 : TunMid (statusVersion c) := by
    unfold statusVersion
    split
    · exact hc
    · exact ⟨Dict.nodup_erase hc.nodup _, opt_erase hc.ciphers, opt_erase hc.tls, opt_erase hc.ca⟩
  refine sure_bind (ciphers_sure h3) fun c' hc' => ?_
  refine sure_bind (tlsAuth_sure hc'.1 hc'.2) ?_
  rintro ⟨b, f⟩ hf
  exact ⟨_, rfl, hf⟩

theorem tunBlocks_sure {env : Env} {l : List Val} (hl : ∀ v ∈ l, IsObj TunFit v) {config : VDict} (hc : FilesFit config) :
    FilesFit (vpnBlocks (vpnBlock env removedVpn) config l).1 ∧
      Sure (fun r => ∀ v ∈ r, IsObj (fun _ => True) v) (vpnBlocks (vpnBlock env removedVpn) config l).2 := by
  induction l generalizing config with
  | nil => exact ⟨hc, [], rfl, fun v hv => nomatch hv⟩
  | cons v vs ih =>
    obtain ⟨d, rfl, hd⟩ := hl v List.mem_cons_self
    obtain ⟨⟨b, f⟩, hx, hf⟩ := tunBlock_sure (env := env) hd
    rw [vpnBlocks]
    have hx' : asDict (.dict d) >>= vpnBlock env removedVpn = .ok (b, f) := hx
    rw [hx']
    dsimp only at hf ⊢
    have ha : FilesFit (addVpnFile config f) := by
      cases f with
      | none => exact hc
      | some f => exact (addFiles_fit hc fun v hv => by rw [List.mem_singleton] at hv; rw [hv]; exact ⟨f, rfl, hf f rfl⟩).1
    obtain ⟨i1, i2⟩ := ih (fun w hw => hl w (List.mem_cons_of_mem _ hw)) ha
    refine ⟨i1, sure_bind i2 fun bs hbs => ⟨_, rfl, ?_⟩⟩
    intro w hw
    rcases List.mem_cons.1 hw with rfl | hw
    · exact ⟨b, rfl, trivial⟩
    · exact hbs w hw

theorem openvpn_run {env : Env} {config : VDict} (h : Opt config "openvpn" (IsLst (IsObj TunFit))) (hc : FilesFit config)
    (hs : (openvpnConv env).should config = true) : FilesFit ((openvpnConv env).run config []).1 ∧
      Sure (OneList "openvpn" fun _ => True) ((openvpnConv env).run config []).2 := by
  obtain ⟨v, hv, l, rfl, hl⟩ := key_of hs h
  show FilesFit (vpnRun (vpnBlock env removedVpn) config []).1 ∧ Sure (OneList "openvpn" fun _ => True) (vpnRun (vpnBlock env removedVpn) config []).2
  unfold vpnRun
  rw [hv]
  obtain ⟨i1, i2⟩ := tunBlocks_sure (env := env) hl hc
  refine ⟨i1, sure_bind i2 fun bs hbs => ⟨_, rfl, ?_⟩⟩
  split
  · exact .inl rfl
  · exact .inr ⟨bs, rfl, hbs⟩

theorem openvpn_native {reprC : Val → String} {r : VDict} (h : OneList "openvpn" (fun _ => True) r) : ∃ t, vpnNative reprC r = .ok t := by
  rcases h with rfl | ⟨l, rfl, hl⟩
  · exact ⟨_, rfl⟩
  · obtain ⟨bs, hb, -⟩ := blocksOf_sure hl
    refine ⟨renderVpns reprC bs, ?_⟩
    unfold vpnNative
    rw [show Dict.get? [("openvpn", Val.list l)] "openvpn" = some (.list l) from rfl]
    dsimp only
    rw [hb]
    rfl

/-- the OpenVPN backend with its schema -/
abbrev openvpnReal (env : Env) (sh : Val → Bool) (loads : Chars → Option Val) : Class := openvpnClass env (schemaValidate openvpnSchema env.ip6) sh loads

theorem openvpn_render (env : Env) (sh : Val → Bool) (loads : Chars → Option Val) (config : VDict) (hw : (Val.dict config).WF)
    (hv : validate (openvpnReal env sh loads) config = .ok ()) (ht : NoServerRemote config) (files : Bool) :
    ∃ t, (render (openvpnReal env sh loads) files ⟨config, none⟩).2 = .ok t ∧ FilesFit (render (openvpnReal env sh loads) files ⟨config, none⟩).1.config := by
  obtain ⟨f1, f2⟩ := openvpn_facts (schema_valid (ip6 := env.ip6) rfl hv)
  have hf := files_of_fact hw f2
  exact render_single (c := openvpnConv env) rfl hv hf (openvpn_run (openvpn_fit hw f1 ht) hf) (fun _ => openvpn_native) files

/-- **C81**, OpenVPN: a valid configuration in which no server has remotes is rendered, with or without the files section, and archived. -/
theorem C81_openvpn (env : Env) (sh : Val → Bool) (loads : Chars → Option Val) (config : VDict) (hw : (Val.dict config).WF)
    (hv : validate (openvpnReal env sh loads) config = .ok ()) (ht : NoServerRemote config) :
    (∀ files, ∃ t, (render (openvpnReal env sh loads) files ⟨config, none⟩).2 = .ok t) ∧
    ∃ ms, (generate (openvpnReal env sh loads) ⟨config, none⟩).2 = .ok ms :=
  ⟨fun files => ⟨_, (openvpn_render env sh loads config hw hv ht files).choose_spec.1⟩,
    generate_single (vpnSplit_ok _ _) (openvpn_render env sh loads config hw hv ht false)⟩

/-! ## WireGuard and VXLAN over WireGuard -/

/-- **Specification.** What the schema of WireGuard leaves open: tunnels have an address -/
def HasAddress (config : VDict) : Prop := Each config "wireguard" fun d => Dict.has d "address" = true

/-- what the converter asks of a tunnel -/
structure WgFit (d : VDict) : Prop where
  nodup : (Dict.keys d).Nodup
  port : Key d "port" fun _ => True
  key : Key d "private_key" fun _ => True
  address : Key d "address" fun _ => True
  dns : Opt d "dns" (IsLst IsTxt)
  peers : Opt d "peers" (IsLst (IsObj fun p => Key p "public_key" (fun _ => True) ∧ Key p "allowed_ips" fun _ => True))

theorem wireguard_fit {ip6 : Ip6} {config : VDict} (hw : (Val.dict config).WF) (hv : tunnelFact.Holds ip6 (.dict config)) (ht : HasAddress config) :
    Opt config "wireguard" (IsLst (IsObj WgFit)) := by
  refine opt_objects hw (holds_objects hv) fun l d hg hm hd h => ?_
  obtain ⟨h1, h2, h3, h4⟩ := h
  refine ⟨wf_nodup hd, holds_key h1, holds_key h2, key_of (ht l d hg hm) fun _ _ => trivial, texts_fit h3, ?_⟩
  exact opt_objects hd (holds_objects h4) fun l' x _ _ _ h' => ⟨holds_key h'.1, holds_key h'.2⟩

/-- what is left to ask of a tunnel -/
structure WgMid (c : VDict) : Prop where
  nodup : (Dict.keys c).Nodup
  dns : Opt c "dns" (IsLst IsTxt)
  peers : Opt c "peers" (IsLst (IsObj fun p => Key p "public_key" (fun _ => True) ∧ Key p "allowed_ips" fun _ => True))

theorem WgMid.erase {c : VDict} (h : WgMid c) (k : String) : WgMid (Dict.erase c k) := ⟨Dict.nodup_erase h.nodup _, opt_erase h.dns, opt_erase h.peers⟩

theorem WgMid.set {c : VDict} (h : WgMid c) {k : String} (v : Val) (h1 : k ≠ "dns") (h2 : k ≠ "peers") : WgMid (Dict.set c k v) :=
  ⟨Dict.nodup_set h.nodup _ _, opt_set_ne h1 h.dns, opt_set_ne h2 h.peers⟩

theorem wgOption_sure {c : VDict} {p : String × String} (hp : p ∈ wgOptional) (h : WgMid c) : Sure WgMid (wgOption c p) := by
  have hne : p.2 ≠ "dns" ∧ p.2 ≠ "peers" := by
    have : ∀ p ∈ wgOptional, p.2 ≠ "dns" ∧ p.2 ≠ "peers" := by decide
    exact this p hp
  unfold wgOption
  cases hg : Dict.get? c p.1 with
  | none => exact ⟨c, rfl, h⟩
  | some v =>
    dsimp only
    split
    · refine sure_bind (Q := fun _ => True) ?_ fun w _ => ⟨_, rfl, (h.erase _).set _ hne.1 hne.2⟩
      unfold wgValue
      split
      · rename_i e
        rw [e] at hg
        obtain ⟨l, rfl, hl⟩ := h.dns v hg
        refine sure_bind (Q := fun _ => True) ?_ fun _ _ => ⟨_, rfl, trivial⟩
        refine sure_mono (sure_mapM (P := fun _ => True) fun x hx => ?_) fun _ _ => trivial
        obtain ⟨s, rfl⟩ := hl x hx
        exact ⟨_, rfl, trivial⟩
      · split
        · exact ⟨_, rfl, trivial⟩
        · exact ⟨_, rfl, trivial⟩
    · exact ⟨_, rfl, h.erase _⟩

theorem wgOptions_sure {l : List (String × String)} (hl : ∀ p ∈ l, p ∈ wgOptional) {c : VDict} (h : WgMid c) : Sure WgMid (l.foldlM wgOption c) := by
  induction l generalizing c with
  | nil => exact ⟨c, rfl, h⟩
  | cons p l ih =>
    rw [List.foldlM_cons]
    exact sure_bind (wgOption_sure (hl p List.mem_cons_self) h) fun c' h => ih (fun q hq => hl q (List.mem_cons_of_mem _ hq)) h

theorem renamePop_sure {c : VDict} {a b : String} (h : Key c a fun _ => True) : ∃ v, renamePop c (a, b) = .ok (Dict.set (Dict.erase c a) b v) := by
  obtain ⟨⟨v, d⟩, hv, -, he⟩ := sure_popKey h
  dsimp only at he
  subst he
  exact ⟨v, by unfold renamePop; dsimp only; rw [hv]; rfl⟩

theorem wgBlock_sure {env : Env} {d : VDict} (h : WgFit d) : Sure (fun b => Opt b "peers" (IsLst (IsObj fun _ => True))) (wgBlock env d) := by
  unfold wgBlock
  have h1 : Sure WgMid (wgRequired.foldlM renamePop d) := by
    obtain ⟨v1, e1⟩ := renamePop_sure (b := "ListenPort") h.port
    obtain ⟨v2, e2⟩ := renamePop_sure (b := "PrivateKey") (key_set_ne (k := "ListenPort") (v := v1) (by decide) (key_erase (k := "port") (by decide) h.key))
    obtain ⟨v3, e3⟩ := renamePop_sure (b := "Address") (key_set_ne (k := "PrivateKey") (v := v2) (by decide) (key_erase (k := "private_key") (by decide)
      (key_set_ne (k := "ListenPort") (v := v1) (by decide) (key_erase (k := "port") (by decide) h.address))))
    unfold wgRequired
    rw [List.foldlM_cons, e1]
    show Sure _ (List.foldlM renamePop _ _)
    rw [List.foldlM_cons, e2]
    show Sure _ (List.foldlM renamePop _ _)
    rw [List.foldlM_cons, e3]
    have h0 : WgMid d := ⟨h.nodup, h.dns, h.peers⟩
    exact ⟨_, rfl, ((((((h0.erase _).set _ (by decide) (by decide)).erase _).set _ (by decide) (by decide)).erase _).set _ (by decide) (by decide))⟩
  refine sure_bind h1 fun c hc => ?_
  refine sure_bind (wgOptions_sure (fun _ h => h) hc) fun c' hc' => ?_
  have h2 : Sure (fun l => ∀ v ∈ l, IsObj (fun p => Key p "public_key" (fun _ => True) ∧ Key p "allowed_ips" fun _ => True) v) (wgPeerList c') := by
    unfold wgPeerList
    cases hg : Dict.get? c' "peers" with
    | none => exact ⟨[], rfl, fun _ h => nomatch h⟩
    | some v =>
      obtain ⟨l, rfl, hl⟩ := hc'.peers v hg
      exact ⟨l, rfl, hl⟩
  refine sure_bind h2 fun ps hps => ?_
  have h3 : Sure (fun l => ∀ v ∈ l, IsObj (fun _ => True) v) (ps.mapM (wgPeer env)) := by
    refine sure_mapM fun v hv => ?_
    obtain ⟨p, rfl, hk, hi⟩ := hps v hv
    unfold wgPeer
    refine sure_bind (Q := fun x => x = p) ⟨p, rfl, rfl⟩ fun x hx => ?_
    subst hx
    refine sure_bind (sure_popKey hi) ?_
    rintro ⟨ips, q⟩ ⟨-, hq⟩
    dsimp only at hq ⊢
    subst hq
    refine sure_bind (sure_popKey (key_set_ne (by decide) (key_erase (by decide) hk))) ?_
    rintro ⟨key, q⟩ ⟨-, hq⟩
    exact ⟨_, rfl, _, rfl, trivial⟩
  refine sure_bind h3 fun qs hqs => ⟨_, rfl, ?_⟩
  intro v hv
  rw [get?_sortedDict (Dict.nodup_set hc'.nodup _ _)] at hv
  exact opt_of_key (P := IsLst (IsObj fun _ => True)) (key_set_self ⟨qs, rfl, hqs⟩) v hv

theorem wireguard_run {env : Env} {config : VDict} (h : Opt config "wireguard" (IsLst (IsObj WgFit))) (hc : FilesFit config)
    (hs : (wgConv env).should config = true) : FilesFit ((wgConv env).run config []).1 ∧
      Sure (OneList "wireguard" fun b => Opt b "peers" (IsLst (IsObj fun _ => True))) ((wgConv env).run config []).2 := by
  obtain ⟨v, hv, l, rfl, hl⟩ := key_of hs h
  refine ⟨hc, ?_⟩
  show Sure _ (fwd "wireguard" (wgFwd env) config)
  unfold fwd
  rw [hv]
  refine fwdList_sure (P := WgFit) (fun i d r hd => ?_) hl 1 (.inl rfl)
  obtain ⟨b, hb, hp⟩ := wgBlock_sure (env := env) hd
  refine ⟨b, hp, ?_⟩
  show (wgBlock env d >>= fun b => _) = _
  rw [hb]
  rfl

theorem wireguard_native {reprC : Val → String} {r : VDict} (h : OneList "wireguard" (fun b => Opt b "peers" (IsLst (IsObj fun _ => True))) r) :
    ∃ t, wgNative reprC r = .ok t := by
  rcases h with rfl | ⟨l, rfl, hl⟩
  · exact ⟨_, rfl⟩
  · obtain ⟨bs, hb, hbs⟩ := blocksOf_sure hl
    have h1 : Sure (fun _ => True) (renderWgs reprC bs) := by
      unfold renderWgs
      refine sure_bind (sure_mapM (P := fun _ => True) fun b hb => ?_) fun _ _ => ⟨_, rfl, trivial⟩
      unfold rawWg
      refine sure_bind (Q := fun _ => True) ?_ fun _ _ => ⟨_, rfl, trivial⟩
      cases hg : Dict.get? b "peers" with
      | none => exact ⟨_, rfl, trivial⟩
      | some v =>
        obtain ⟨ps, rfl, hps⟩ := hbs b hb v hg
        exact sure_mono (blocksOf_sure hps) fun _ _ => trivial
    obtain ⟨t, ht, -⟩ := h1
    refine ⟨t, ?_⟩
    unfold wgNative
    rw [show Dict.get? [("wireguard", Val.list l)] "wireguard" = some (.list l) from rfl]
    dsimp only
    rw [hb]
    exact ht

/-- the WireGuard backend with its schema -/
abbrev wireguardReal (env : Env) (sh : Val → Bool) (loads : Chars → Option Val) : Class := wireguardClass env (schemaValidate wireguardSchema env.ip6) sh loads
/-- the VXLAN over WireGuard backend with its schema -/
abbrev vxlanReal (env : Env) (sh : Val → Bool) (loads : Chars → Option Val) : Class := wireguardClass env (schemaValidate vxlanSchema env.ip6) sh loads

theorem wg_render {env : Env} {schema : VDict → Except PyErr Unit} {sh : Val → Bool} {loads : Chars → Option Val} {config : VDict} (hw : (Val.dict config).WF)
    (hv : validate (wireguardClass env schema sh loads) config = .ok ()) (hf : tunnelFact.Holds env.ip6 (.dict config) ∧ filesFact.Holds env.ip6 (.dict config))
    (ht : HasAddress config) (files : Bool) :
    ∃ t, (render (wireguardClass env schema sh loads) files ⟨config, none⟩).2 = .ok t ∧
      FilesFit (render (wireguardClass env schema sh loads) files ⟨config, none⟩).1.config :=
  render_single (c := wgConv env) rfl hv (files_of_fact hw hf.2) (wireguard_run (wireguard_fit hw hf.1 ht) (files_of_fact hw hf.2)) (fun _ => wireguard_native) files

/-- **C81**, WireGuard: a valid configuration in which every tunnel has an address is rendered and archived. -/
theorem C81_wireguard (env : Env) (sh : Val → Bool) (loads : Chars → Option Val) (config : VDict) (hw : (Val.dict config).WF)
    (hv : validate (wireguardReal env sh loads) config = .ok ()) (ht : HasAddress config) :
    (∀ files, ∃ t, (render (wireguardReal env sh loads) files ⟨config, none⟩).2 = .ok t) ∧
    ∃ ms, (generate (wireguardReal env sh loads) ⟨config, none⟩).2 = .ok ms :=
  have hf := wireguard_facts (schema_valid (ip6 := env.ip6) rfl hv)
  ⟨fun files => ⟨_, (wg_render hw hv hf ht files).choose_spec.1⟩, generate_single (vpnSplit_ok _ _) (wg_render hw hv hf ht false)⟩

/-- **C81**, VXLAN over WireGuard: a valid configuration in which every tunnel has an address is rendered and archived. -/
theorem C81_vxlan (env : Env) (sh : Val → Bool) (loads : Chars → Option Val) (config : VDict) (hw : (Val.dict config).WF)
    (hv : validate (vxlanReal env sh loads) config = .ok ()) (ht : HasAddress config) :
    (∀ files, ∃ t, (render (vxlanReal env sh loads) files ⟨config, none⟩).2 = .ok t) ∧
    ∃ ms, (generate (vxlanReal env sh loads) ⟨config, none⟩).2 = .ok ms :=
  have hf := vxlan_facts (schema_valid (ip6 := env.ip6) rfl hv)
  ⟨fun files => ⟨_, (wg_render hw hv hf ht files).choose_spec.1⟩, generate_single (vpnSplit_ok _ _) (wg_render hw hv hf ht false)⟩

/-! ## ZeroTier -/

/-- the ZeroTier backend with its schema -/
abbrev zerotierReal (env : Env) (sh : Val → Bool) : Class := zerotierClass env (schemaValidate zerotierSchema env.ip6) sh

theorem zerotier_render (env : Env) (sh : Val → Bool) (config : VDict) (hw : (Val.dict config).WF) (hv : validate (zerotierReal env sh) config = .ok ()) (files : Bool) :
    ∃ t, (render (zerotierReal env sh) files ⟨config, none⟩).2 = .ok t ∧ FilesFit (render (zerotierReal env sh) files ⟨config, none⟩).1.config := by
  obtain ⟨f1, f2⟩ := zerotier_facts (schema_valid (ip6 := env.ip6) rfl hv)
  refine render_single (c := ztnConv) (k := "zerotier") (B := fun _ => True) rfl hv (files_of_fact hw f2) (fun hs => ⟨files_of_fact hw f2, ?_⟩) (fun r hr => ?_) files
  · obtain ⟨v, hv, l, rfl, hl⟩ := key_of hs (holds_objects f1)
    show Sure _ (fwd "zerotier" ztnFwd config)
    unfold fwd
    rw [hv]
    exact fwdList_sure (B := fun _ => True) (fun i d r hd => ⟨ztnBlock d, trivial, rfl⟩) hl 1 (.inl rfl)
  · show ∃ t, ztnNative env.reprC r = .ok t
    rcases hr with rfl | ⟨l, rfl, hl⟩
    · exact ⟨_, rfl⟩
    · obtain ⟨bs, hb, -⟩ := blocksOf_sure hl
      refine ⟨renderZtn env.reprC bs, ?_⟩
      unfold ztnNative
      rw [show Dict.get? [("zerotier", Val.list l)] "zerotier" = some (.list l) from rfl]
      dsimp only
      rw [hb]
      rfl

/-- **C81**, ZeroTier: every valid configuration is rendered and archived. -/
theorem C81_zerotier (env : Env) (sh : Val → Bool) (config : VDict) (hw : (Val.dict config).WF) (hv : validate (zerotierReal env sh) config = .ok ()) :
    (∀ files, ∃ t, (render (zerotierReal env sh) files ⟨config, none⟩).2 = .ok t) ∧ ∃ ms, (generate (zerotierReal env sh) ⟨config, none⟩).2 = .ok ms :=
  ⟨fun files => ⟨_, (zerotier_render env sh config hw hv files).choose_spec.1⟩, generate_single (vpnSplit_ok _ _) (zerotier_render env sh config hw hv false)⟩

end NJ
