import Verif.PropsZtItems

/-!
# C104: which packages there are, and what the additional ones say
-/

namespace NJ

/-! ## Specification -/

/-- **Specification.** The sections listed under the name of an additional package: the objects that have a `config_name`. -/
def listedSections : List Val → List VDict
  | [] => []
  | .dict d :: r => if Dict.get? d "config_name" = none then listedSections r else d :: listedSections r
  | _ :: r => listedSections r

/-- **Specification.** The section `b` says what the object `d`, number `i` from 1, says: its type is the `config_name`, its name the `config_value`, by default the
type and the number. -/
def ListedSays (env : Env) (i : Nat) (d b : VDict) : Prop :=
  ∃ ty n, Dict.get? d "config_name" = some ty ∧
    (Dict.get? d "config_value" = some (.str n) ∨ Dict.get? d "config_value" = none ∧ n = String.ofList ((pyStr env.reprC ty).toList ++ '_' :: showNat i)) ∧
    (Dict.keys b).Nodup ∧ ∀ k, Dict.get? b k =
      if k = ".name" then some (txt (uciName n.toList))
      else if k = "config_value" then none
      else if k = ".type" then some ty
      else if k = "config_name" then none
      else Dict.get? d k

/-! ## The sections -/

theorem listed_says {env : Env} {i : Nat} {d b : VDict} (hn : (Dict.keys d).Nodup) (h : defaultBlock env i d = .ok b) : ListedSays env i d (sortedDict b) := by
  unfold defaultBlock at h
  obtain ⟨⟨ty, r⟩, e1, h⟩ := bind_ok_iff.1 h
  obtain ⟨a1, a2⟩ := popKey_is e1
  dsimp only at a1 a2 h
  subst a2
  simp only [popOr] at h
  have hv : Dict.get? (Dict.set (Dict.erase d "config_name") ".type" ty) "config_value" = Dict.get? d "config_value" := by
    rw [Dict.get?_set', if_neg (by decide), Dict.get?_erase', if_neg (by decide)]
  rw [hv] at h
  obtain ⟨nm, e2, h⟩ := bind_ok_iff.1 h
  have h := pure_ok_iff.1 h
  have hnd : (Dict.keys b).Nodup := by
    rw [← h]
    exact Dict.nodup_set (Dict.nodup_erase (Dict.nodup_set (Dict.nodup_erase hn _) _ _) _) _ _
  have key : ∃ n : String, nm = n.toList ∧ (Dict.get? d "config_value" = some (.str n) ∨
      Dict.get? d "config_value" = none ∧ n = String.ofList ((pyStr env.reprC ty).toList ++ '_' :: showNat i)) := by
    cases hc : Dict.get? d "config_value" with
    | none =>
      rw [hc] at e2
      cases e2
      exact ⟨_, rfl, .inr ⟨rfl, rfl⟩⟩
    | some v =>
      rw [hc] at e2
      cases v with
      | str s => cases e2; exact ⟨s, rfl, .inl rfl⟩
      | _ => cases e2
  obtain ⟨n, rfl, key⟩ := key
  refine ⟨ty, n, a1, key, sortedDict_nodup hnd, fun k => ?_⟩
  rw [get?_sortedDict hnd, ← h]
  simp only [Dict.get?_set', Dict.get?_erase']

theorem listed_all {env : Env} : ∀ (l : List Val) (i : Nat) {bs : List Val}, (∀ d, Val.dict d ∈ l → (Dict.keys d).Nodup) → (defaultBlocks env i l).2 = .ok bs →
    ∃ ss : List VDict, bs = ss.map .dict ∧ Forall2Idx (ListedSays env) i (listedSections l) ss
  | [], _, _, _, h => by cases h; exact ⟨[], rfl, trivial⟩
  | v :: r, i, bs, hn, h => by
    have hr : ∀ d, Val.dict d ∈ r → (Dict.keys d).Nodup := fun d hd => hn d (List.mem_cons_of_mem _ hd)
    cases v with
    | dict d =>
      rw [defaultBlocks] at h
      rw [listedSections]
      cases hc : Dict.get? d "config_name" with
      | none =>
        rw [Dict.has_eq, hc] at h
        rw [if_pos rfl]
        exact listed_all r i hr h
      | some ty =>
        rw [Dict.has_eq, hc, Option.isSome_some, if_pos rfl] at h
        rw [if_neg (by simp)]
        cases e : defaultBlock env i d with
        | error x => rw [e] at h; cases h
        | ok b =>
          rw [e] at h
          dsimp only at h
          obtain ⟨more, e1, h⟩ := bind_ok_iff.1 h
          obtain ⟨ss, rfl, hs⟩ := listed_all r (i + 1) hr e1
          exact ⟨sortedDict b :: ss, (pure_ok_iff.1 h).symm, listed_says (hn d List.mem_cons_self) e, hs⟩
    | _ => exact listed_all r i hr h


theorem knownKeys_all : knownKeys = ["general", "interfaces", "radios", "dns_servers", "dns_search", "routes", "files", "ip_rules", "ntp", "switch", "led",
    "wireguard_peers", "zerotier", "openvpn"] := rfl

/-- **C104.** Besides the packages of the system, the network, Wi-Fi and the two kinds of VPN, the packages are those the configuration lists under names that are none of its
own keys, each with one section for each object with a type, in their order, each with exactly the options it should have. -/
theorem C104_packages (env : Env) (ip6 : Ip6) (sh : Val → Bool) (loads : Chars → Option Val) (dsa : Bool) (config : VDict) (hw : (Val.dict config).WF)
    {st : BState} (h : toIntermediate (openwrtClass env (owValidate ip6) sh loads dsa) ⟨config, none⟩ = (st, .ok ())) {j : VDict} (hj : st.inter = some j)
    {p : String} (hp : p ∉ ["system", "network", "wireless", "openvpn", "zerotier"]) :
    (p ∈ ["general", "interfaces", "radios", "dns_servers", "dns_search", "routes", "files", "ip_rules", "ntp", "switch", "led", "wireguard_peers"] → Dict.get? j p = none) ∧
    (p ∉ ["general", "interfaces", "radios", "dns_servers", "dns_search", "routes", "files", "ip_rules", "ntp", "switch", "led", "wireguard_peers"] →
      (∀ l, Dict.get? config p = some (.list l) → ∃ bs, Forall2Idx (ListedSays env) 1 (listedSections l) bs ∧ Dict.get? j p = stored bs) ∧
      ((∀ l, Dict.get? config p ≠ some (.list l)) → Dict.get? j p = none)) := by
  obtain ⟨facts, H⟩ := ow_loop h
  have hn := wf_nodup hw
  rw [convs_readers] at H
  obtain ⟨c1, i1, a1, a2, a3, H⟩ := skip_many (P := [p]) _ (fun x hx => ⟨readers_reads x hx, by
    intro w hw' hpw
    rw [List.mem_singleton] at hpw
    subst hpw
    apply hp
    simp only [readers, List.mem_cons, List.not_mem_nil, or_false] at hx
    rcases hx with rfl | rfl | rfl | rfl | rfl | rfl | rfl | rfl | rfl | rfl | rfl | rfl <;> simp at hw' <;> simp [hw']
    rcases hw' with rfl | rfl <;> simp⟩) hn H
  have hi1 : Dict.get? i1 p = none := a3 p (by simp)
  constructor
  · intro hk
    rw [known_kept (k := p) (by
      rw [knownKeys_all]
      simp only [List.mem_cons, List.not_mem_nil, or_false] at hk ⊢
      tauto) a2 H hj, hi1]
  · intro hk
    have hkn : p ∉ knownKeys := by
      rw [knownKeys_all]
      simp only [List.mem_cons, List.not_mem_nil, or_false] at hk hp ⊢
      tauto
    have hpf : p ≠ "files" := by rintro rfl; exact hkn (by decide)
    obtain ⟨v, e1, e2⟩ := last_step H hj
    obtain ⟨hnv, hd⟩ := default_at a2 e1
    have none_of : Dict.get? v p = none → Dict.get? j p = none := fun hv => by
      rw [mergeKvs_get?_not_mem e2 ((Dict.get?_eq_none_iff _ _).1 hv), hi1]
    constructor
    · intro l hl
      obtain ⟨y, hy, hg⟩ := (hd p).1 _ (by rw [a1 p hpf, hl])
      unfold entryRun at hy
      dsimp only at hy
      rw [if_neg hkn] at hy
      obtain ⟨bs, e3, e4⟩ := bind_ok_iff.1 hy
      obtain ⟨ss, rfl, hs⟩ := listed_all l 1 (fun d hd => wf_nodup (wf_each hw hl hd)) e3
      refine ⟨ss, hs, stored_first e2 hi1 ?_ hnv⟩
      rw [hg, ← pure_ok_iff.1 e4]
      have := (stored_get p ss).1
      simpa using this
    · intro hl
      apply none_of
      cases hc : Dict.get? config p with
      | none => exact (hd p).2 (by rw [a1 p hpf, hc])
      | some x =>
        obtain ⟨y, hy, hg⟩ := (hd p).1 x (by rw [a1 p hpf, hc])
        rw [hg]
        unfold entryRun at hy
        cases x with
        | list l => exact absurd hc (hl l)
        | _ => cases hy; rfl

end NJ
