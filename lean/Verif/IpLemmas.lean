import Verif.Ip

/-!
# Reading back IPv4 addresses, prefix lengths and netmasks
-/

namespace NJ

theorem parseOctet_show (n : Nat) (h : n < 256) : parseOctet (showNat n) = some n := by
  have key : ∀ m : Fin 256, parseOctet (showNat m.1) = some m.1 := by decide +kernel
  exact key ⟨n, h⟩

theorem showNat_noSep (n : Nat) (c : Char) (hc : isDigit c = false) : c ∉ showNat n := fun h => by
  rw [showNat_digits n c h] at hc; cases hc

/-- an IPv4 address is read back from its text -/
theorem parseIp4_show (n : Nat) (h : n < 2 ^ 32) : parseIp4 (showIp4 n) = some n := by
  unfold parseIp4 showIp4
  rw [splitOn_joinWith _ (by simp)]
  · simp only [parseOctet_show _ (Nat.mod_lt _ (by decide : 0 < 256))]
    congr 1
    omega
  · intro w hw
    simp only [List.mem_cons, List.not_mem_nil, or_false] at hw
    rcases hw with rfl | rfl | rfl | rfl <;> exact showNat_noSep _ _ (by decide)

theorem showIp4_chars (n : Nat) : ∀ c ∈ showIp4 n, isDigit c = true ∨ c = '.' := by
  intro c hc
  simp only [showIp4, joinWith, List.mem_append, List.mem_cons, List.not_mem_nil, or_false, or_assoc] at hc
  rcases hc with hc | hc | hc | hc | hc | hc | hc
  all_goals first
    | exact .inl (showNat_digits _ _ hc)
    | exact .inr hc

theorem showIp4_dot (n : Nat) : '.' ∈ showIp4 n := by
  simp [showIp4, joinWith]

theorem mask4_lt (p : Nat) : mask4 p < 2 ^ 32 := by
  unfold mask4
  have : 0 < 2 ^ (32 - p) := Nat.two_pow_pos _
  omega

theorem prefixOfMask_mask (p : Nat) (h : p ≤ 32) : prefixOfMask (mask4 p) = some p := by
  have key : ∀ q : Fin 33, prefixOfMask (mask4 q.1) = some q.1 := by decide +kernel
  exact key ⟨p, by omega⟩

theorem parsePrefix4_mask (p : Nat) (h : p ≤ 32) : parsePrefix4 (showIp4 (mask4 p)) = some p := by
  unfold parsePrefix4
  have : (showIp4 (mask4 p)).all isDigit = false := by
    rw [List.all_eq_false]
    exact ⟨'.', showIp4_dot _, by decide⟩
  simp [this, parseIp4_show _ (mask4_lt p), prefixOfMask_mask p h]

theorem parsePrefix4_show (p : Nat) (h : p ≤ 32) : parsePrefix4 (showNat p) = some p := by
  have key : ∀ q : Fin 33, parsePrefix4 (showNat q.1) = some q.1 := by decide +kernel
  exact key ⟨p, by omega⟩

theorem showIp4_noSlash (n : Nat) : '/' ∉ showIp4 n := fun h => by
  rcases showIp4_chars n _ h with h | h
  · revert h; decide
  · revert h; decide

theorem parseIf4_parts (a p : Chars) (ha : '/' ∉ a) (hp : '/' ∉ p) :
    parseIf4 (a ++ '/' :: p) = (parseIp4 a).bind (fun n => (parsePrefix4 p).map (fun k => (n, k))) := by
  unfold parseIf4
  rw [splitOn_append a p ha, splitOn_single p hp]
  cases h1 : parseIp4 a <;> cases h2 : parsePrefix4 p <;> simp [h1, h2]

/-- `address/prefix` is read back -/
theorem parseIf4_prefix (n p : Nat) (hn : n < 2 ^ 32) (hp : p ≤ 32) : parseIf4 (showIp4 n ++ '/' :: showNat p) = some (n, p) := by
  rw [parseIf4_parts _ _ (showIp4_noSlash n) (showNat_noSep p _ (by decide)), parseIp4_show n hn, parsePrefix4_show p hp]; rfl

/-- `address/netmask` is read as the address and the length of the prefix -/
theorem parseIf4_mask (n p : Nat) (hn : n < 2 ^ 32) (hp : p ≤ 32) : parseIf4 (showIp4 n ++ '/' :: showIp4 (mask4 p)) = some (n, p) := by
  rw [parseIf4_parts _ _ (showIp4_noSlash n) (showIp4_noSlash _), parseIp4_show n hn, parsePrefix4_mask p hp]; rfl

theorem parseOctet_le {s : Chars} {n : Nat} (h : parseOctet s = some n) : n ≤ 255 := by
  unfold parseOctet at h
  split at h
  · cases h
  · split at h
    · split at h
      · next h2 => cases h; exact h2
      · cases h
    · cases h

theorem parseIp4_lt {s : Chars} {n : Nat} (h : parseIp4 s = some n) : n < 2 ^ 32 := by
  unfold parseIp4 at h
  split at h
  · split at h
    · next h1 h2 h3 h4 =>
      cases h
      have := parseOctet_le h1
      have := parseOctet_le h2
      have := parseOctet_le h3
      have := parseOctet_le h4
      omega
    · cases h
  · cases h

theorem prefixOfMask_le {n p : Nat} (h : prefixOfMask n = some p) : p ≤ 32 := by
  unfold prefixOfMask at h
  split at h
  · next q hq =>
    cases h
    have := List.mem_of_find?_eq_some hq
    simp at this; omega
  · have := List.mem_of_find?_eq_some h
    simp at this; omega

theorem parsePrefix4_le {s : Chars} {p : Nat} (h : parsePrefix4 s = some p) : p ≤ 32 := by
  have hd : (match parseIp4 s with | some n => prefixOfMask n | none => none) = some p → p ≤ 32 := by
    intro h
    split at h
    · exact prefixOfMask_le h
    · cases h
  unfold parsePrefix4 at h
  simp only at h
  split at h
  · split at h
    · split at h
      · next h2 => cases h; exact h2
      · exact hd h
    · exact hd h
  · exact hd h

theorem parseIf4_bounds {s : Chars} {n p : Nat} (h : parseIf4 s = some (n, p)) : n < 2 ^ 32 ∧ p ≤ 32 := by
  unfold parseIf4 at h
  split at h
  · split at h
    · next h1 => cases h; exact ⟨parseIp4_lt h1, by omega⟩
    · cases h
  · split at h
    · next h1 h2 => cases h; exact ⟨parseIp4_lt h1, parsePrefix4_le h2⟩
    · cases h
  · cases h

theorem ipInterface_v4 {ip6 : Ip6} {s : Chars} {net : IpIf} (h : ipInterface ip6 s = some net) (hv : net.v6 = false) :
    net.addr < 2 ^ 32 ∧ net.plen ≤ 32 := by
  unfold ipInterface at h
  split at h
  · next n p hp => cases h; exact parseIf4_bounds hp
  · split at h
    · cases h; cases hv
    · cases h

end NJ
