import Verif.WireGuard
import Verif.PropsVpnRound

/-!
# WireGuard (C62)
-/

namespace NJ

/-! ## The options of a tunnel -/

/-- the names of the options in WireGuard files, and in NetJSON -/
def wgNames : Dict String String :=
  [("ListenPort", "port"), ("PrivateKey", "private_key"), ("Address", "address"), ("DNS", "dns"), ("MTU", "mtu"),
   ("SaveConfig", "save_config"), ("Table", "table"), ("PreUp", "pre_up"), ("PostUp", "post_up"), ("PreDown", "pre_down"),
   ("PostDown", "post_down")]

/-- a tunnel with what is needed to write it: port, private key and address; the DNS servers, if any, are a list of texts -/
structure TunnelOK (t : VDict) : Prop where
  nodup : (Dict.keys t).Nodup
  port : Dict.has t "port" = true
  key : Dict.has t "private_key" = true
  address : Dict.has t "address" = true
  dns : ∀ v, Dict.get? t "dns" = some v → ∃ ts : List Chars, v = .list (ts.map txt)

/-- the text of a value that is one -/
def textOf : Val → Chars
  | .str s => s.toList
  | _ => []

/-- the value shown for the option `o` of a tunnel: port, private key and address as they are; of the others nothing when empty,
DNS servers separated by commas, a word for `save_config` -/
def tunnelShown (o : String) (v : Val) : Option Val :=
  if o ∈ ["port", "private_key", "address"] then some v
  else if v = .none ∨ v = .str "" ∨ v = .list [] then none
  else if o = "dns" then (match v with
    | .list l => some (txt (joinWith [','] (l.map textOf)))
    | _ => none)
  else if o = "save_config" then some (.str (if v.truthy then "true" else "false"))
  else some v

/-- the option `k` of the `[Interface]` section of a tunnel: the option with the NetJSON name of `k`, or any other option under
its own name -/
def tunnelOption (t : VDict) (k : String) : Option Val :=
  if k = "peers" ∨ k ∈ wgNames.map Prod.snd then none
  else match Dict.get? wgNames k with
    | some o => ((Dict.get? t o).bind (tunnelShown o)).or (Dict.get? t k)
    | none => Dict.get? t k

theorem renames_get (l : List (String × String)) (c : VDict) (hn : (Dict.keys c).Nodup) (ho : (l.map Prod.fst).Nodup)
    (hd : ∀ p ∈ l, p.2 ∉ l.map Prod.fst) (hu : (l.map Prod.snd).Nodup) (hc : ∀ p ∈ l, Dict.has c p.1 = true) :
    ∃ r, l.foldlM renamePop c = .ok r ∧ (Dict.keys r).Nodup ∧ ∀ k, Dict.get? r k = if k ∈ l.map Prod.fst then none
      else match l.find? (fun p => p.2 == k) with
        | some p => Dict.get? c p.1
        | none => Dict.get? c k := by
  induction l generalizing c with
  | nil => exact ⟨c, rfl, hn, fun k => by simp⟩
  | cons p l ih =>
    obtain ⟨v, hv⟩ := get?_has.1 (hc p (by simp))
    have hp2 : p.2 ≠ p.1 := fun h => hd p (by simp) (by simp [h])
    have ho' := List.nodup_cons.1 ho
    have hu' := List.nodup_cons.1 hu
    have hpl : ∀ q ∈ l, q.1 ≠ p.1 := fun q hq h => ho'.1 (by rw [← h]; exact List.mem_map_of_mem hq)
    have hql : ∀ q ∈ l, q.1 ≠ p.2 := fun q hq h => hd p (by simp) (by rw [← h]; exact List.mem_cons_of_mem _ (List.mem_map_of_mem hq))
    have g : ∀ k, Dict.get? (Dict.set (Dict.erase c p.1) p.2 v) k = if k = p.2 then some v else if k = p.1 then none else Dict.get? c k := by
      intro k; rw [Dict.get?_set', Dict.get?_erase']
    obtain ⟨r, hr, hrn, hrg⟩ := ih (Dict.set (Dict.erase c p.1) p.2 v) (Dict.nodup_set (Dict.nodup_erase hn _) _ _) ho'.2
      (fun q hq h => hd q (by simp [hq]) (by simp only [List.map_cons, List.mem_cons]; exact .inr h)) hu'.2
      (fun q hq => by
        rw [get?_has]
        obtain ⟨w, hw⟩ := get?_has.1 (hc q (by simp [hq]))
        exact ⟨w, by rw [g, if_neg (hql q hq), if_neg (hpl q hq), hw]⟩)
    refine ⟨r, ?_, hrn, ?_⟩
    · rw [List.foldlM_cons]
      have : renamePop c p = .ok (Dict.set (Dict.erase c p.1) p.2 v) := by
        unfold renamePop
        rw [popKey_ok hv]; rfl
      rw [this]; exact hr
    · intro k
      rw [hrg]
      by_cases h1 : k ∈ l.map Prod.fst
      · rw [if_pos h1, if_pos (by simp only [List.map_cons, List.mem_cons]; exact .inr h1)]
      · rw [if_neg h1]
        by_cases h2 : k = p.1
        · subst h2
          rw [if_pos (by simp)]
          have : l.find? (fun q => q.2 == p.1) = none := by
            rw [List.find?_eq_none]
            intro q hq h
            exact hd q (by simp [hq]) (by simp [beq_iff_eq.1 h])
          rw [this]
          simp only [g, if_neg (Ne.symm hp2), if_pos]
        · rw [if_neg (by simp only [List.map_cons, List.mem_cons]; rintro (h | h); exact h2 h; exact h1 h)]
          by_cases h3 : p.2 = k
          · have : l.find? (fun q => q.2 == k) = none := by
              rw [List.find?_eq_none]
              intro q hq h
              exact hu'.1 (by rw [h3, ← beq_iff_eq.1 h]; exact List.mem_map_of_mem hq)
            rw [this, List.find?_cons_of_pos (by simp [h3])]
            simp only [g, if_pos h3.symm, hv]
          · rw [List.find?_cons_of_neg (by simp [h3])]
            cases hf : l.find? (fun q => q.2 == k) with
            | none => simp only [g, if_neg (Ne.symm h3), if_neg h2]
            | some q =>
              have hq := List.mem_of_find?_eq_some hf
              simp only [g, if_neg (hql q hq), if_neg (hpl q hq)]

theorem options_get (l : List (String × String)) (c : VDict) (f : String → Val → Option Val) (hn : (Dict.keys c).Nodup) (ho : (l.map Prod.fst).Nodup)
    (hd : ∀ p ∈ l, p.2 ∉ l.map Prod.fst) (hu : (l.map Prod.snd).Nodup)
    (hf : ∀ p ∈ l, ∀ v, Dict.get? c p.1 = some v → if wgGiven (some v) then ∃ w, wgValue p.1 v = .ok w ∧ f p.1 v = some w else f p.1 v = none) :
    ∃ r, l.foldlM wgOption c = .ok r ∧ (Dict.keys r).Nodup ∧ ∀ k, Dict.get? r k = if k ∈ l.map Prod.fst then none
      else match l.find? (fun p => p.2 == k) with
        | some p => ((Dict.get? c p.1).bind (f p.1)).or (Dict.get? c k)
        | none => Dict.get? c k := by
  induction l generalizing c with
  | nil => exact ⟨c, rfl, hn, fun k => by simp⟩
  | cons p l ih =>
    have hp2 : p.2 ≠ p.1 := fun h => hd p (by simp) (by simp [h])
    have ho' := List.nodup_cons.1 ho
    have hu' := List.nodup_cons.1 hu
    have hpl : ∀ q ∈ l, q.1 ≠ p.1 := fun q hq h => ho'.1 (by rw [← h]; exact List.mem_map_of_mem hq)
    have hql : ∀ q ∈ l, q.1 ≠ p.2 := fun q hq h => hd p (by simp) (by rw [← h]; exact List.mem_cons_of_mem _ (List.mem_map_of_mem hq))
    obtain ⟨c1, hc1, hn1, g⟩ : ∃ c1, wgOption c p = .ok c1 ∧ (Dict.keys c1).Nodup ∧ ∀ k, Dict.get? c1 k =
        if k = p.1 then none else if k = p.2 then ((Dict.get? c p.1).bind (f p.1)).or (Dict.get? c k) else Dict.get? c k := by
      unfold wgOption
      cases hv : Dict.get? c p.1 with
      | none =>
        refine ⟨c, rfl, hn, fun k => ?_⟩
        by_cases e : k = p.1
        · rw [e, if_pos rfl, hv]
        · rw [if_neg e]; split <;> simp
      | some v =>
        have := hf p (by simp) v hv
        simp only
        by_cases hg : wgGiven (some v) = true
        · rw [if_pos hg] at this ⊢
          obtain ⟨w, hw, hfw⟩ := this
          refine ⟨Dict.set (Dict.erase c p.1) p.2 w, by rw [hw]; rfl, Dict.nodup_set (Dict.nodup_erase hn _) _ _, fun k => ?_⟩
          rw [Dict.get?_set', Dict.get?_erase']
          by_cases e : k = p.1
          · rw [if_pos e, if_pos e, if_neg (by rw [e]; exact Ne.symm hp2)]
          · rw [if_neg e, if_neg e]
            by_cases e2 : k = p.2
            · rw [if_pos e2, if_pos e2]; simp [hfw]
            · rw [if_neg e2, if_neg e2]
        · rw [if_neg hg] at this ⊢
          refine ⟨Dict.erase c p.1, rfl, Dict.nodup_erase hn _, fun k => ?_⟩
          rw [Dict.get?_erase']
          by_cases e : k = p.1
          · rw [if_pos e, if_pos e]
          · rw [if_neg e, if_neg e]; split <;> simp [this]
    obtain ⟨r, hr, hrn, hrg⟩ := ih c1 hn1 ho'.2
      (fun q hq h => hd q (by simp [hq]) (by simp only [List.map_cons, List.mem_cons]; exact .inr h)) hu'.2
      (fun q hq v hv => hf q (by simp [hq]) v (by rw [g, if_neg (hpl q hq), if_neg (hql q hq)] at hv; exact hv))
    refine ⟨r, ?_, hrn, ?_⟩
    · rw [List.foldlM_cons, hc1]; exact hr
    · intro k
      rw [hrg]
      by_cases h1 : k ∈ l.map Prod.fst
      · rw [if_pos h1, if_pos (by simp only [List.map_cons, List.mem_cons]; exact .inr h1)]
      · rw [if_neg h1]
        by_cases h2 : k = p.1
        · subst h2
          rw [if_pos (by simp)]
          have : l.find? (fun q => q.2 == p.1) = none := by
            rw [List.find?_eq_none]
            intro q hq h
            exact hd q (by simp [hq]) (by simp [beq_iff_eq.1 h])
          rw [this]
          simp only [g, if_pos]
        · rw [if_neg (by simp only [List.map_cons, List.mem_cons]; rintro (h | h); exact h2 h; exact h1 h)]
          by_cases h3 : p.2 = k
          · have : l.find? (fun q => q.2 == k) = none := by
              rw [List.find?_eq_none]
              intro q hq h
              exact hu'.1 (by rw [h3, ← beq_iff_eq.1 h]; exact List.mem_map_of_mem hq)
            rw [this, List.find?_cons_of_pos (by simp [h3])]
            simp only [g, if_neg h2, if_pos h3.symm]
          · rw [List.find?_cons_of_neg (by simp [h3])]
            cases hf : l.find? (fun q => q.2 == k) with
            | none => simp only [g, if_neg (Ne.symm h3), if_neg h2]
            | some q =>
              have hq := List.mem_of_find?_eq_some hf
              simp only [g, if_neg (hql q hq), if_neg (hpl q hq), if_neg (Ne.symm h3), if_neg h2]

theorem given_iff (v : Val) : wgGiven (some v) = true ↔ ¬ (v = .none ∨ v = .str "" ∨ v = .list []) := by
  cases v with
  | none => simp [wgGiven]
  | bool b => simp [wgGiven]
  | int i => simp [wgGiven]
  | str s => simp [wgGiven]
  | list l => cases l <;> simp [wgGiven]
  | dict d => simp [wgGiven]

theorem mapM_textItem (ts : List Chars) : (ts.map txt).mapM textItem = .ok ts := by
  induction ts with
  | nil => rfl
  | cons t ts ih =>
    rw [List.map_cons]
    apply (mapM_ok_cons _ _ _ _).2
    exact ⟨t, ts, by simp [textItem, txt], ih, rfl⟩

/-- **C62.** The `[Interface]` section of a tunnel: every option under its WireGuard name, nothing for the empty ones, and nothing else. -/
theorem C62_interface (t : VDict) (h : TunnelOK t) :
    ∃ c, (do
      let c ← wgRequired.foldlM renamePop t
      wgOptional.foldlM wgOption c) = .ok c ∧ (Dict.keys c).Nodup ∧ (∀ k, k ≠ "peers" → Dict.get? c k = tunnelOption t k) ∧
      Dict.get? c "peers" = Dict.get? t "peers" := by
  obtain ⟨c, hc, hn, g⟩ := renames_get wgRequired t h.nodup (by decide) (by decide) (by decide) (by
    intro p hp
    simp only [wgRequired, List.mem_cons, List.not_mem_nil, or_false] at hp
    rcases hp with rfl | rfl | rfl
    · exact h.port
    · exact h.key
    · exact h.address)
  have gopt : ∀ p ∈ wgOptional, Dict.get? c p.1 = Dict.get? t p.1 := by
    intro p hp
    rw [g]
    simp only [wgOptional, List.mem_cons, List.not_mem_nil, or_false] at hp
    rcases hp with rfl | rfl | rfl | rfl | rfl | rfl | rfl | rfl <;> rfl
  obtain ⟨r, hr, hrn, gr⟩ := options_get wgOptional c tunnelShown hn (by decide) (by decide) (by decide) (by
    intro p hp v hv
    rw [gopt p hp] at hv
    have hreq : p.1 ∉ ["port", "private_key", "address"] := by
      have : ∀ p ∈ wgOptional, p.1 ∉ ["port", "private_key", "address"] := by decide
      exact this p hp
    by_cases e : wgGiven (some v) = true
    · rw [if_pos e]
      rw [given_iff] at e
      unfold tunnelShown wgValue
      rw [if_neg hreq, if_neg e]
      by_cases hd : p.1 = "dns"
      · rw [if_pos hd, if_pos hd]
        rw [hd] at hv
        obtain ⟨ts, rfl⟩ := h.dns v hv
        refine ⟨_, by rw [commaJoin, mapM_textItem]; rfl, ?_⟩
        simp only [List.map_map]
        have : ts.map (textOf ∘ txt) = ts := by
          conv_rhs => rw [← List.map_id ts]
          apply List.map_congr_left
          intro x _
          simp [textOf, txt]
        rw [this]
      · rw [if_neg hd, if_neg hd]
        by_cases hs : p.1 = "save_config"
        · rw [if_pos hs, if_pos hs]; exact ⟨_, rfl, rfl⟩
        · rw [if_neg hs, if_neg hs]; exact ⟨_, rfl, rfl⟩
    · rw [if_neg e]
      rw [given_iff, not_not] at e
      unfold tunnelShown
      rw [if_neg hreq, if_pos e])
  refine ⟨r, by rw [hc]; exact hr, hrn, ?_, ?_⟩
  · intro k hk
    unfold tunnelOption
    by_cases h1 : k ∈ wgNames.map Prod.snd
    · have hx : k = "peers" ∨ k ∈ wgNames.map Prod.snd := .inr h1
      rw [if_pos hx, gr, g]
      simp only [wgNames, List.map_cons, List.map_nil, List.mem_cons, List.not_mem_nil, or_false] at h1
      rcases h1 with rfl | rfl | rfl | rfl | rfl | rfl | rfl | rfl | rfl | rfl | rfl <;> rfl
    · have h2 : ¬ (k = "peers" ∨ k ∈ wgNames.map Prod.snd) := by rintro (h | h); exact hk h; exact h1 h
      rw [if_neg h2]
      by_cases h3 : k ∈ wgNames.map Prod.fst
      · simp only [wgNames, List.map_cons, List.map_nil, List.mem_cons, List.not_mem_nil, or_false] at h3
        have req : ∀ o, Dict.has t o = true → o ∈ ["port", "private_key", "address"] → ∀ x, Dict.get? t o = ((Dict.get? t o).bind (tunnelShown o)).or x := by
          intro o ho hm x
          obtain ⟨v, hv⟩ := get?_has.1 ho
          rw [hv]
          simp [tunnelShown, hm]
        have opt : ∀ p ∈ wgOptional, Dict.get? c p.2 = Dict.get? t p.2 := by
          intro p hp
          rw [g]
          simp only [wgOptional, List.mem_cons, List.not_mem_nil, or_false] at hp
          rcases hp with rfl | rfl | rfl | rfl | rfl | rfl | rfl | rfl <;> rfl
        have both : ∀ p ∈ wgOptional, ((Dict.get? c p.1).bind (tunnelShown p.1)).or (Dict.get? c p.2) =
            ((Dict.get? t p.1).bind (tunnelShown p.1)).or (Dict.get? t p.2) := by
          intro p hp; rw [gopt p hp, opt p hp]
        rcases h3 with rfl | rfl | rfl | rfl | rfl | rfl | rfl | rfl | rfl | rfl | rfl
        · rw [gr, g]; exact req "port" h.port (by decide) _
        · rw [gr, g]; exact req "private_key" h.key (by decide) _
        · rw [gr, g]; exact req "address" h.address (by decide) _
        · rw [gr]; exact both ("dns", "DNS") (by decide)
        · rw [gr]; exact both ("mtu", "MTU") (by decide)
        · rw [gr]; exact both ("save_config", "SaveConfig") (by decide)
        · rw [gr]; exact both ("table", "Table") (by decide)
        · rw [gr]; exact both ("pre_up", "PreUp") (by decide)
        · rw [gr]; exact both ("post_up", "PostUp") (by decide)
        · rw [gr]; exact both ("pre_down", "PreDown") (by decide)
        · rw [gr]; exact both ("post_down", "PostDown") (by decide)
      · have e1 : Dict.get? wgNames k = none := by
          rw [Dict.get?_eq_none_iff]; exact h3
        have a1 : ∀ p ∈ wgRequired ++ wgOptional, p.1 ∈ wgNames.map Prod.snd ∧ p.2 ∈ wgNames.map Prod.fst := by decide
        have f1 : wgOptional.find? (fun p => p.2 == k) = none := by
          rw [List.find?_eq_none]
          intro p hp he
          exact h3 (by rw [← beq_iff_eq.1 he]; exact (a1 p (by simp [hp])).2)
        have f2 : wgRequired.find? (fun p => p.2 == k) = none := by
          rw [List.find?_eq_none]
          intro p hp he
          exact h3 (by rw [← beq_iff_eq.1 he]; exact (a1 p (by simp [hp])).2)
        have n1 : k ∉ wgOptional.map Prod.fst := by
          intro hm
          obtain ⟨p, hp, rfl⟩ := List.mem_map.1 hm
          exact h1 (a1 p (by simp [hp])).1
        have n2 : k ∉ wgRequired.map Prod.fst := by
          intro hm
          obtain ⟨p, hp, rfl⟩ := List.mem_map.1 hm
          exact h1 (a1 p (by simp [hp])).1
        rw [gr, if_neg n1, f1]
        simp only
        rw [g, if_neg n2, f2, e1]
  · rw [gr, g]; rfl

/-! ## Peers -/

/-- a peer with what is needed to write it -/
structure WgPeerOK (p : VDict) : Prop where
  nodup : (Dict.keys p).Nodup
  ips : Dict.has p "allowed_ips" = true
  key : Dict.has p "public_key" = true

/-- the endpoint of a peer: host and port, when both are given -/
def peerEndpoint (reprC : Val → String) (p : VDict) : Option Val :=
  match Dict.get? p "endpoint_host", Dict.get? p "endpoint_port" with
  | some h, some q => if h.truthy ∧ q.truthy then some (.str (pyStr reprC h ++ ":" ++ pyStr reprC q)) else none
  | _, _ => none

/-- the option `k` of the `[Peer]` section of a peer; empty options are not written -/
def peerOption (reprC : Val → String) (p : VDict) (k : String) : Option Val :=
  (if k = "AllowedIPs" then Dict.get? p "allowed_ips"
   else if k = "PublicKey" then Dict.get? p "public_key"
   else if k = "PreSharedKey" then Dict.get? p "preshared_key"
   else if k = "Endpoint" then (peerEndpoint reprC p).or (Dict.get? p "Endpoint")
   else if k ∈ ["allowed_ips", "public_key", "preshared_key", "endpoint_host", "endpoint_port"] then none
   else Dict.get? p k).filter (fun v => v.truthy)

/-- a section: the options in the order of their names, each once -/
structure SectionOf (d : VDict) (f : String → Option Val) : Prop where
  once : (Dict.keys d).Nodup
  sorted : d.Pairwise (fun a b => charsLe a.1.toList b.1.toList = true)
  options : ∀ k, Dict.get? d k = f k

theorem endpoint_eq (env : Env) (p q : VDict) (k : String) :
    Dict.get? (wgEndpoint env ((Dict.get? p "endpoint_host").getD .none) ((Dict.get? p "endpoint_port").getD .none) q) k =
      if k = "Endpoint" then (peerEndpoint env.reprC p).or (Dict.get? q "Endpoint") else Dict.get? q k := by
  unfold wgEndpoint peerEndpoint
  cases h1 : Dict.get? p "endpoint_host" with
  | none =>
    simp only [Option.getD_none, Val.truthy, Bool.false_and, Bool.false_eq_true, if_false, Option.none_or]
    split
    · next e => rw [e]
    · rfl
  | some h =>
    cases h2 : Dict.get? p "endpoint_port" with
    | none =>
      simp only [Option.getD_none, Val.truthy, Bool.and_false, Bool.false_eq_true, if_false, Option.none_or]
      split
      · next e => rw [e]
      · rfl
    | some q' =>
      simp only [Option.getD_some, Bool.and_eq_true]
      by_cases e : h.truthy = true ∧ q'.truthy = true
      · rw [if_pos e, if_pos e, Dict.get?_set']
        split <;> simp
      · rw [if_neg e, if_neg e]
        split
        · next e => rw [e]; simp
        · rfl

theorem wgPeer_ok (env : Env) (p : VDict) (h : WgPeerOK p) :
    ∃ r, wgPeer env (.dict p) = .ok (.dict r) ∧ SectionOf (r.filter (fun q => q.2.truthy)) (peerOption env.reprC p) := by
  obtain ⟨ips, hips⟩ := get?_has.1 h.ips
  obtain ⟨key, hkey⟩ := get?_has.1 h.key
  unfold wgPeer asDict
  simp only [bind, Except.bind]
  rw [popKey_ok hips]
  dsimp only
  have g1 : ∀ k, Dict.get? (Dict.set (Dict.erase p "allowed_ips") "AllowedIPs" ips) k =
      if k = "AllowedIPs" then some ips else if k = "allowed_ips" then none else Dict.get? p k := by
    intro k; rw [Dict.get?_set', Dict.get?_erase']
  have n1 : (Dict.keys (Dict.set (Dict.erase p "allowed_ips") "AllowedIPs" ips)).Nodup := Dict.nodup_set (Dict.nodup_erase h.nodup _) _ _
  generalize Dict.set (Dict.erase p "allowed_ips") "AllowedIPs" ips = p1 at g1 n1 ⊢
  have hkey1 : Dict.get? p1 "public_key" = some key := by rw [g1]; exact hkey
  rw [popKey_ok hkey1]
  dsimp only
  unfold popOr
  dsimp only
  have g2 : ∀ k, Dict.get? (Dict.set (Dict.erase p1 "public_key") "PublicKey" key) k =
      if k = "PublicKey" then some key else if k = "public_key" then none else Dict.get? p1 k := by
    intro k; rw [Dict.get?_set', Dict.get?_erase']
  have n2 : (Dict.keys (Dict.set (Dict.erase p1 "public_key") "PublicKey" key)).Nodup := Dict.nodup_set (Dict.nodup_erase n1 _) _ _
  generalize Dict.set (Dict.erase p1 "public_key") "PublicKey" key = p2 at g2 n2 ⊢
  have epsk : Dict.get? p2 "preshared_key" = Dict.get? p "preshared_key" := by rw [g2, g1]; rfl
  rw [epsk]
  generalize hpsk : (Dict.get? p "preshared_key").getD .none = psk
  have g3 : ∀ k, Dict.get? (Dict.set (Dict.erase p2 "preshared_key") "PreSharedKey" psk) k =
      if k = "PreSharedKey" then some psk else if k = "preshared_key" then none else Dict.get? p2 k := by
    intro k; rw [Dict.get?_set', Dict.get?_erase']
  have n3 : (Dict.keys (Dict.set (Dict.erase p2 "preshared_key") "PreSharedKey" psk)).Nodup := Dict.nodup_set (Dict.nodup_erase n2 _) _ _
  generalize Dict.set (Dict.erase p2 "preshared_key") "PreSharedKey" psk = p3 at g3 n3 ⊢
  have eh : Dict.get? p3 "endpoint_host" = Dict.get? p "endpoint_host" := by rw [g3, g2, g1]; rfl
  have ep : Dict.get? (Dict.erase p3 "endpoint_host") "endpoint_port" = Dict.get? p "endpoint_port" := by rw [Dict.get?_erase', g3, g2, g1]; rfl
  rw [eh, ep]
  have g4 : ∀ k, Dict.get? (Dict.erase (Dict.erase p3 "endpoint_host") "endpoint_port") k =
      if k = "endpoint_port" then none else if k = "endpoint_host" then none else Dict.get? p3 k := by
    intro k; rw [Dict.get?_erase', Dict.get?_erase']
  have n4 : (Dict.keys (Dict.erase (Dict.erase p3 "endpoint_host") "endpoint_port")).Nodup := Dict.nodup_erase (Dict.nodup_erase n3 _) _
  generalize Dict.erase (Dict.erase p3 "endpoint_host") "endpoint_port" = p4 at g4 n4 ⊢
  have g5 := endpoint_eq env p p4
  have n5 : (Dict.keys (wgEndpoint env ((Dict.get? p "endpoint_host").getD .none) ((Dict.get? p "endpoint_port").getD .none) p4)).Nodup := by
    unfold wgEndpoint; split
    · exact Dict.nodup_set n4 _ _
    · exact n4
  generalize wgEndpoint env ((Dict.get? p "endpoint_host").getD .none) ((Dict.get? p "endpoint_port").getD .none) p4 = p5 at g5 n5 ⊢
  refine ⟨sortedDict p5, rfl, ?_, (C33_sorting_sorts p5).filter _, ?_⟩
  · exact ((sortedDict_nodup n5).sublist (List.Sublist.map _ (List.filter_sublist)))
  · intro k
    rw [Dict.get?_filter (sortedDict_nodup n5), get?_sortedDict n5, g5]
    unfold peerOption
    have eb : ∀ o : Option Val, o.bind (fun v => if v.truthy = true then some v else none) = o.filter (fun v => v.truthy) := by
      intro o; cases o <;> simp [Option.filter]
    rw [eb]
    have g : ∀ k, Dict.get? p4 k = if k = "PreSharedKey" then some psk else if k = "PublicKey" then some key else if k = "AllowedIPs" then some ips
        else if k ∈ ["allowed_ips", "public_key", "preshared_key", "endpoint_host", "endpoint_port"] then none else Dict.get? p k := by
      intro k
      rw [g4, g3, g2, g1]
      by_cases hk : k ∈ ["allowed_ips", "public_key", "preshared_key", "endpoint_host", "endpoint_port", "PreSharedKey", "PublicKey", "AllowedIPs"]
      · simp only [List.mem_cons, List.not_mem_nil, or_false] at hk
        rcases hk with rfl | rfl | rfl | rfl | rfl | rfl | rfl | rfl <;> rfl
      · simp only [List.mem_cons, List.not_mem_nil, or_false, not_or] at hk ⊢
        simp [hk]
    by_cases hE : k = "Endpoint"
    · subst hE
      rw [if_pos rfl, g]; rfl
    · rw [if_neg hE, g, if_neg hE]
      by_cases h1 : k = "PreSharedKey"
      · subst h1
        show (some psk).filter (fun v => v.truthy) = (Dict.get? p "preshared_key").filter (fun v => v.truthy)
        cases hh : Dict.get? p "preshared_key" with
        | none => rw [hh] at hpsk; subst hpsk; rfl
        | some v => rw [hh] at hpsk; subst hpsk; rfl
      · rw [if_neg h1, if_neg h1, hips, hkey]
        by_cases h2 : k = "PublicKey"
        · subst h2; rfl
        · rw [if_neg h2, if_neg h2]

/-! ## The text -/

/-- the line of an option -/
def optionEq (reprC : Val → String) (p : String × Val) : Chars := p.1.toList ++ " = ".toList ++ (pyStr reprC p.2).toList

/-- the lines of a tunnel, from its name, the options of the `[Interface]` section and those of each `[Peer]` section -/
def tunnelLines (reprC : Val → String) (name : Chars) (i : VDict) (ps : List VDict) : List Chars :=
  ("# wireguard config: ".toList ++ name) :: [] :: "[Interface]".toList :: i.map (optionEq reprC) ++ [[]] ++
    ps.flatMap (fun p => "[Peer]".toList :: p.map (optionEq reprC) ++ [[]])

theorem wgLine_eq (reprC : Val → String) (p : String × Val) : wgLine reprC p = optionEq reprC p := by
  unfold wgLine optionEq
  rfl

theorem out_clean {w : Chars} (h : CleanLine w) : Out (w ++ ['\n']) (w ++ ['\n']) := by
  have := Out.line w
  rwa [r4_clean h] at this

theorem unl_cons (l : Chars) (ls : List Chars) : unl (l :: ls) = l ++ ['\n'] ++ unl ls := by simp [unl]

theorem unl_flatMap {α : Type} (l : List α) (f : α → List Chars) : unl (l.flatMap f) = l.flatMap (fun x => unl (f x)) := by
  simp [unl, List.flatMap_assoc]

theorem out_filtered (reprC : Val → String) (d : VDict) (q : String × Val → Prop) [DecidablePred q]
    (hc : ∀ p ∈ d, q p → CleanLine (optionEq reprC p)) :
    Out (d.flatMap (fun p => sp 12 ++ (if q p then sp 16 ++ wgLine reprC p ++ ['\n'] ++ sp 12 else []) ++ sp 8))
      (unl ((d.filter (fun p => decide (q p))).map (optionEq reprC))) := by
  induction d with
  | nil => exact Out.nil
  | cons p d ih =>
    have ih := ih (fun r hr => hc r (by simp [hr]))
    rw [List.flatMap_cons]
    by_cases e : q p
    · rw [if_pos e, List.filter_cons_of_pos (by simp [e]), List.map_cons, unl_cons, wgLine_eq]
      have h1 := out_clean (hc p (by simp) e)
      have := (((Out.sp (n := 12) 3 rfl).append (((Out.sp (n := 16) 4 rfl).append h1).append (Out.sp (n := 12) 3 rfl))).append (Out.sp (n := 8) 2 rfl)).append ih
      simpa using this
    · rw [if_neg e, List.filter_cons_of_neg (by simp [e])]
      have := (((Out.sp (n := 12) 3 rfl).append Out.nil).append (Out.sp (n := 8) 2 rfl)).append ih
      simpa using this

theorem rawWgPeer_out (reprC : Val → String) (p : VDict) (hc : ∀ q ∈ p, q.2.truthy = true → CleanLine (optionEq reprC q)) :
    Out (rawWgPeer reprC p) (unl ("[Peer]".toList :: (p.filter (fun q => q.2.truthy)).map (optionEq reprC) ++ [[]])) := by
  unfold rawWgPeer
  have h1 : Out (p.flatMap (rawWgPeerOption reprC)) (unl ((p.filter (fun q => decide (q.2.truthy = true))).map (optionEq reprC))) :=
    out_filtered reprC p (fun q => q.2.truthy = true) hc
  simp only [Bool.decide_eq_true] at h1
  have h2 : Out ("[Peer]".toList ++ ['\n']) ("[Peer]".toList ++ ['\n']) := out_clean ⟨by decide +kernel, by decide +kernel⟩
  have := ((((((Out.sp (n := 4) 1 rfl).append h2).append (Out.sp (n := 8) 2 rfl)).append h1).append Out.nl)).append (Out.sp (n := 4) 1 rfl)
  rw [List.cons_append, unl_cons, unl_append]
  simpa [unl] using this

/-- the options of the `[Interface]` section -/
def wgShownOptions (b : VDict) : VDict := b.filter (fun p => decide (¬ (p.1 = "name" ∨ p.1 = "peers")))

theorem rawWg_out (reprC : Val → String) (b : VDict) (ps : List VDict) (hb : Dict.get? b "peers" = some (.list (ps.map .dict)))
    (hn : CleanLine ("# wireguard config: ".toList ++ fieldText reprC b "name"))
    (hc : ∀ q ∈ wgShownOptions b, CleanLine (optionEq reprC q))
    (hp : ∀ p ∈ ps, ∀ q ∈ p, q.2.truthy = true → CleanLine (optionEq reprC q)) :
    ∃ t, rawWg reprC b = .ok t ∧ Out t (unl (tunnelLines reprC (fieldText reprC b "name") (wgShownOptions b)
      (ps.map (fun p => p.filter (fun q => q.2.truthy))))) := by
  unfold rawWg
  rw [hb]
  have hbl : blocksOf (.list (ps.map .dict)) = .ok ps := by
    exact blocksOf_map ps
  simp only [bind, Except.bind, hbl]
  refine ⟨_, rfl, ?_⟩
  have e : (fun p : String × Val => decide (¬ (p.1 = "name" ∨ p.1 = "peers"))) = (fun p => decide (¬ (p.1 = "name" ∨ p.1 = "peers"))) := rfl
  have h1 : Out (b.flatMap (rawWgOption reprC)) (unl ((wgShownOptions b).map (optionEq reprC))) := by
    have := out_filtered reprC b (fun p => ¬ (p.1 = "name" ∨ p.1 = "peers")) (fun p hp hq => hc p (by
      unfold wgShownOptions; rw [List.mem_filter]; exact ⟨hp, decide_eq_true hq⟩))
    have e2 : (fun p => sp 12 ++ (if ¬ (p.1 = "name" ∨ p.1 = "peers") then sp 16 ++ wgLine reprC p ++ ['\n'] ++ sp 12 else []) ++ sp 8) =
        rawWgOption reprC := by
      funext p
      unfold rawWgOption
      rw [ite_not]
    rw [e2] at this
    exact this
  have h2 : Out (ps.flatMap (rawWgPeer reprC)) (ps.flatMap (fun p => unl ("[Peer]".toList :: (p.filter (fun q => q.2.truthy)).map (optionEq reprC) ++ [[]]))) :=
    Out.flatMap (fun p h => rawWgPeer_out reprC p (hp p h))
  have hk : wgKw ++ [' '] = "# wireguard config: ".toList := by decide +kernel
  have h3 := out_clean hn
  have h4 : Out ("[Interface]".toList ++ ['\n']) ("[Interface]".toList ++ ['\n']) := out_clean ⟨by decide +kernel, by decide +kernel⟩
  have := ((((((((((Out.sp (n := 4) 1 rfl).append h3).append Out.nl).append (Out.sp (n := 4) 1 rfl)).append h4).append (Out.sp (n := 8) 2 rfl)).append h1).append
    Out.nl).append (Out.sp (n := 4) 1 rfl))).append h2
  unfold tunnelLines
  rw [List.append_assoc, unl_append, unl_append, unl_cons, unl_cons, unl_cons, unl_flatMap, List.flatMap_map]
  have e3 : sp 4 ++ wgKw ++ [' '] ++ fieldText reprC b "name" = sp 4 ++ ("# wireguard config: ".toList ++ fieldText reprC b "name") := by
    rw [← hk]; simp
  rw [e3]
  simpa [unl] using this

/-- what is written for a tunnel: its name, the options of the interface, and those of each of its peers, in the same order -/
structure TunnelText (reprC : Val → String) (t : VDict) (o : Chars × VDict × List VDict) : Prop where
  name : o.1 = fieldText reprC t "name"
  interface : SectionOf o.2.1 (fun k => if k = "name" then none else tunnelOption t k)
  peers : ∃ ps : List VDict, (Dict.get? t "peers").getD (.list []) = .list (ps.map .dict) ∧
    List.Forall₂ (fun p s => SectionOf s (peerOption reprC p)) ps o.2.2

/-- a tunnel that can be written without a line being broken or changed -/
structure TunnelClean (reprC : Val → String) (t : VDict) : Prop where
  ok : TunnelOK t
  peers : ∃ ps : List VDict, (Dict.get? t "peers").getD (.list []) = .list (ps.map .dict) ∧
    ∀ p ∈ ps, WgPeerOK p ∧ ∀ k v, peerOption reprC p k = some v → CleanLine (optionEq reprC (k, v))
  name : CleanLine ("# wireguard config: ".toList ++ fieldText reprC t "name")
  options : ∀ k v, tunnelOption t k = some v → CleanLine (optionEq reprC (k, v))

theorem wgBlock_ok (env : Env) (t : VDict) (h : TunnelClean env.reprC t) :
    ∃ b, wgBlock env t = .ok b ∧ ∃ raw o, rawWg env.reprC b = .ok raw ∧ TunnelText env.reprC t o ∧
      Out raw (unl (tunnelLines env.reprC o.1 o.2.1 o.2.2)) := by
  obtain ⟨c, hc, hn, g, gp⟩ := C62_interface t h.ok
  obtain ⟨ps, hps, hpok⟩ := h.peers
  obtain ⟨rs, hrs⟩ : ∃ rs : List VDict, List.Forall₂ (fun p r => wgPeer env (.dict p) = .ok (.dict r) ∧
      SectionOf (r.filter (fun q => q.2.truthy)) (peerOption env.reprC p)) ps rs := by
    apply forall2_of_forall
    intro p hp
    exact wgPeer_ok env p (hpok p hp).1
  have hm : (ps.map Val.dict).mapM (wgPeer env) = .ok (rs.map .dict) := by
    clear * - hrs
    induction hrs with
    | nil => rfl
    | cons h1 _ ih => exact (mapM_ok_cons _ _ _ _).2 ⟨_, _, h1.1, ih, rfl⟩
  have hlist : wgPeerList c = .ok (ps.map .dict) := by
    unfold wgPeerList
    rw [gp]
    cases hp : Dict.get? t "peers" with
    | none =>
      rw [hp] at hps
      simp only [Option.getD_none, Val.list.injEq] at hps
      simp only [← hps]
    | some v =>
      rw [hp] at hps
      simp only [Option.getD_some] at hps
      subst hps
      rfl
  have hb : wgBlock env t = .ok (sortedDict (Dict.set c "peers" (.list (rs.map .dict)))) := by
    obtain ⟨c0, hc0, hc1⟩ := bind_ok_iff.1 hc
    unfold wgBlock
    rw [hc0]
    show (wgOptional.foldlM wgOption c0 >>= _) = _
    rw [hc1]
    show (wgPeerList c >>= _) = _
    rw [hlist]
    show ((ps.map Val.dict).mapM (wgPeer env) >>= _) = _
    rw [hm]
    rfl
  have n1 : (Dict.keys (Dict.set c "peers" (.list (rs.map .dict)))).Nodup := Dict.nodup_set hn _ _
  have gb : ∀ k, Dict.get? (sortedDict (Dict.set c "peers" (.list (rs.map .dict)))) k =
      if k = "peers" then some (.list (rs.map .dict)) else tunnelOption t k := by
    intro k
    rw [get?_sortedDict n1, Dict.get?_set']
    by_cases e : k = "peers"
    · rw [if_pos e, if_pos e]
    · rw [if_neg e, if_neg e, g k e]
  refine ⟨_, hb, ?_⟩
  have nb := sortedDict_nodup n1
  have hsorted := C33_sorting_sorts (Dict.set c "peers" (.list (rs.map .dict)))
  generalize sortedDict (Dict.set c "peers" (.list (rs.map .dict))) = b at gb nb hsorted
  have hname : fieldText env.reprC b "name" = fieldText env.reprC t "name" := by
    unfold fieldText
    rw [gb]
    rfl
  have hsec : SectionOf (wgShownOptions b) (fun k => if k = "name" then none else tunnelOption t k) := by
    refine ⟨nb.sublist (List.Sublist.map _ List.filter_sublist), hsorted.filter _, ?_⟩
    intro k
    unfold wgShownOptions
    rw [Dict.get?_filter nb, gb]
    by_cases e1 : k = "name"
    · subst e1
      rw [if_pos rfl]
      cases hv : (if "name" = "peers" then some (Val.list (rs.map .dict)) else tunnelOption t "name") with
      | none => rfl
      | some v => simp
    · rw [if_neg e1]
      by_cases e2 : k = "peers"
      · subst e2; simp [tunnelOption]
      · rw [if_neg e2]
        cases tunnelOption t k with
        | none => rfl
        | some v => simp [e1, e2]
  obtain ⟨raw, hraw, hout⟩ := rawWg_out env.reprC b rs (by rw [gb, if_pos rfl]) (by rw [hname]; exact h.name) (by
      intro q hq
      have hq' := Dict.get?_of_mem hsec.once hq
      rw [hsec.options] at hq'
      by_cases e : q.1 = "name"
      · rw [if_pos e] at hq'; cases hq'
      · rw [if_neg e] at hq'
        exact h.options q.1 q.2 hq') (by
      intro r hr q hq ht
      clear * - hrs hr hq ht hpok
      induction hrs with
      | nil => cases hr
      | @cons p r' ps rs h1 _ ih =>
        rcases List.mem_cons.1 hr with rfl | hr
        · have hm : q ∈ r.filter (fun q => q.2.truthy) := List.mem_filter.2 ⟨hq, ht⟩
          have := Dict.get?_of_mem h1.2.once hm
          rw [h1.2.options] at this
          exact (hpok p (by simp)).2 q.1 q.2 this
        · exact ih (fun p hp => hpok p (by simp [hp])) hr)
  refine ⟨raw, (fieldText env.reprC t "name", wgShownOptions b, rs.map (fun p => p.filter (fun q => q.2.truthy))), hraw, ⟨rfl, hsec, ps, hps, ?_⟩, ?_⟩
  · rw [List.forall₂_map_right_iff]
    exact hrs.imp (fun _ _ h => h.2)
  · rw [hname] at hout
    exact hout

theorem end_two {α : Type} (a : α) (m : List α) (z : α) : ∃ ls x, a :: m ++ [z] = ls ++ [x, z] := by
  rcases List.eq_nil_or_concat m with rfl | ⟨m, y, rfl⟩
  · exact ⟨[], a, rfl⟩
  · exact ⟨a :: m, y, by simp⟩

theorem tunnelLines_end (reprC : Val → String) (name : Chars) (i : VDict) (ps : List VDict) :
    ∃ ls x, tunnelLines reprC name i ps = ls ++ [x, []] := by
  unfold tunnelLines
  rcases List.eq_nil_or_concat ps with rfl | ⟨ps, p, rfl⟩
  · rw [List.flatMap_nil, List.append_nil]
    exact end_two _ _ _
  · rw [List.concat_eq_append, List.flatMap_append, List.flatMap_cons, List.flatMap_nil, List.append_nil]
    obtain ⟨ls, x, e⟩ := end_two "[Peer]".toList (p.map (optionEq reprC)) []
    rw [e]
    generalize ("# wireguard config: ".toList ++ name) :: [] :: "[Interface]".toList :: i.map (optionEq reprC) ++ [[]] = a
    generalize List.flatMap _ ps = c
    exact ⟨a ++ (c ++ ls), x, by simp⟩

/-- rendering with a class that has one converter -/
theorem render_one {cls : Class} {conv : Conv} {config config' inter : VDict} (hc : cls.convs = [conv]) (hs : conv.should config = true)
    (hrun : conv.run config [] = (config, .ok inter)) (hne : inter ≠ []) (hi : (Dict.keys inter).Nodup) (hv : validate cls config = .ok ())
    (hd : deduplicateFiles config = .ok config') : render cls false ⟨config, none⟩ = (⟨config', some inter⟩, cls.native inter) := by
  unfold render
  rw [hv]
  have he : ensureIntermediate cls ⟨config, none⟩ = (⟨config, some inter⟩, .ok ()) := by
    unfold ensureIntermediate toIntermediate
    dsimp only
    rw [hv, hc]
    dsimp only
    unfold convLoop
    rw [if_neg (by rw [hs]; simp), hrun]
    dsimp only
    rw [if_neg (by cases inter with | nil => exact absurd rfl hne | cons => simp), C04_empty_template _ _ _ hi]
    rfl
  rw [he]
  show renderTail _ _ _ = _
  unfold renderTail
  rw [hd]
  show (_, (cls.native inter >>= fun out => pure out)) = _
  cases cls.native inter <;> rfl

/-- **C62.** The text rendered for a configuration of the WireGuard backend holds, for every tunnel in order, its name, every option
of its interface under its WireGuard name exactly once, and one `[Peer]` section for every peer with every option of it exactly
once; and nothing else. -/
theorem C62_render (env : Env) (schema : VDict → Except PyErr Unit) (sh : Val → Bool) (loads : Chars → Option Val) (config config' : VDict)
    (l : List VDict) (hne : l ≠ []) (hk : Dict.get? config "wireguard" = some (.list (l.map .dict))) (hl : ∀ t ∈ l, TunnelClean env.reprC t)
    (hv : validate (wireguardClass env schema sh loads) config = .ok ()) (hd : deduplicateFiles config = .ok config') :
    ∃ st os, List.Forall₂ (TunnelText env.reprC) l os ∧ st.config = config' ∧
      render (wireguardClass env schema sh loads) false ⟨config, none⟩ =
        (st, .ok (joinWith ['\n'] (os.flatMap (fun o => tunnelLines env.reprC o.1 o.2.1 o.2.2)))) := by
  obtain ⟨bs, hbs⟩ : ∃ bs : List VDict, List.Forall₂ (fun t b => wgBlock env t = .ok b ∧ ∃ raw o, rawWg env.reprC b = .ok raw ∧ TunnelText env.reprC t o ∧
      Out raw (unl (tunnelLines env.reprC o.1 o.2.1 o.2.2))) l bs := by
    apply forall2_of_forall
    intro t ht
    exact wgBlock_ok env t (hl t ht)
  have hbne : bs ≠ [] := by
    rintro rfl
    cases hbs
    exact hne rfl
  have hrun : fwd "wireguard" (wgFwd env) config = .ok [("wireguard", .list (bs.map .dict))] := by
    refine fwd_blocks "wireguard" (wgFwd env) "wireguard" (fun _ d => wgBlock env d) (fun i d r => rfl) config l bs hne hk ?_
    exact mapIdxM_const 1 (hbs.imp (fun _ _ h => h.1))
  obtain ⟨os, raws, h1, h2, h3⟩ : ∃ os raws, List.Forall₂ (TunnelText env.reprC) l os ∧ bs.mapM (rawWg env.reprC) = .ok raws ∧
      Out raws.flatten (unl (os.flatMap (fun o => tunnelLines env.reprC o.1 o.2.1 o.2.2))) := by
    clear * - hbs
    induction hbs with
    | nil => exact ⟨[], [], .nil, rfl, Out.nil⟩
    | cons h _ ih =>
      obtain ⟨_, raw, o, h1, h2, h3⟩ := h
      obtain ⟨os, raws, i1, i2, i3⟩ := ih
      refine ⟨o :: os, raw :: raws, .cons h2 i1, (mapM_ok_cons _ _ _ _).2 ⟨_, _, h1, i2, rfl⟩, ?_⟩
      rw [List.flatten_cons, List.flatMap_cons, unl_append]
      exact h3.append i3
  have hone : os ≠ [] := by
    rintro rfl
    cases h1
    exact hne rfl
  have hnat : wgNative env.reprC [("wireguard", .list (bs.map .dict))] = .ok (joinWith ['\n'] (os.flatMap (fun o => tunnelLines env.reprC o.1 o.2.1 o.2.2))) := by
    unfold wgNative
    simp only [Dict.get?, if_pos]
    show (blocksOf (.list (bs.map .dict)) >>= _) = _
    rw [blocksOf_map]
    show renderWgs env.reprC bs = _
    unfold renderWgs
    rw [h2]
    show Except.ok (vpnCleanup raws.flatten) = _
    unfold vpnCleanup
    rw [h3.eq]
    obtain ⟨os, o, rfl⟩ : ∃ os' o, os = os' ++ [o] := ⟨os.dropLast, os.getLast hone, (List.dropLast_append_getLast hone).symm⟩
    obtain ⟨ls, x, e⟩ : ∃ ls x, tunnelLines env.reprC o.1 o.2.1 o.2.2 = ls ++ [x, []] := by
      exact tunnelLines_end env.reprC o.1 o.2.1 o.2.2
    rw [List.flatMap_append, List.flatMap_cons, List.flatMap_nil, List.append_nil, e]
    congr 1
    generalize os.flatMap _ = pre
    have e1 : pre ++ (ls ++ [x, []]) = (pre ++ ls ++ [x]) ++ [[]] := by simp
    rw [e1, ← unl_join, unl_append, unl_append]
    have : unl (pre ++ ls) ++ unl [x] ++ unl [[]] = (unl (pre ++ ls) ++ x) ++ ['\n', '\n'] := by simp [unl]
    rw [this, dropFinalBreak_two]
    simp [unl]
  refine ⟨⟨config', some [("wireguard", .list (bs.map .dict))]⟩, os, h1, rfl, ?_⟩
  rw [← hnat]
  refine render_one (conv := wgConv env) rfl ?_ ?_ (by simp) (by simp [Dict.keys]) hv hd
  · show Dict.has config "wireguard" = true
    simp [Dict.has, hk]
  · show (config, fwd "wireguard" (wgFwd env) config) = _
    rw [hrun]

end NJ
