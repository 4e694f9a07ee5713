import Verif.InvalidRun.Primes
import Verif.PrimeCert
import Mathlib.NumberTheory.Bertrand

/-!
# The primes of a run are below `2^63`
-/

namespace Ecgen.InvalidRun

open Invalid

theorem last_small {o n : Nat} {rs : List Nat} (h0 : 0 < o) (hp : o ^ 2 < primorial (2 ^ 62)) (hq : PrimesFromTo 2 n (rs ++ [n])) (h1 : o ^ 2 < rs.prod)
    (h2 : ∀ rs' m, rs = rs' ++ [m] → rs'.prod ≤ o ^ 2) : n < 2 ^ 63 := by
  obtain ⟨hs, hm⟩ := hq
  rcases List.eq_nil_or_concat rs with rfl | ⟨rs', m, e⟩
  · have : 1 ≤ o ^ 2 := Nat.one_le_pow _ _ h0
    simp only [List.prod_nil] at h1
    omega
  · rw [List.concat_eq_append] at e
    subst e
    have h3 := h2 rs' m rfl
    have hpm : m.Prime := ((hm m).1 (by simp)).1
    have hlt : ∀ q ∈ rs', q < m := fun q hq => by
      have := (List.pairwise_append.1 (List.pairwise_append.1 hs).1).2.2 q hq m (by simp)
      exact this
    have hmn : m < n := (List.pairwise_append.1 hs).2.2 m (by simp) n (by simp)
    have hm62 : m ≤ 2 ^ 62 := by
      by_contra hc
      have hnd : rs'.Nodup := (List.pairwise_append.1 (List.pairwise_append.1 hs).1).1.imp Nat.ne_of_lt
      have hle : primorial (2 ^ 62) ≤ rs'.prod := by
        have e : (∏ p ∈ rs'.toFinset, p) = rs'.prod := (List.prod_toFinset id hnd).trans (by rw [List.map_id])
        rw [← e]
        unfold primorial
        refine Finset.prod_le_prod_of_subset_of_one_le' ?_ ?_
        · intro p hp
          obtain ⟨p1, p2⟩ := Finset.mem_filter.1 hp
          have p1 := Finset.mem_range.1 p1
          have : p ∈ rs' ++ [m] ++ [n] := (hm p).2 ⟨p2, p2.two_le, by omega⟩
          simp only [List.append_assoc, List.mem_append, List.mem_singleton] at this
          rcases this with h | h | h
          · simpa using h
          · omega
          · omega
        · intro p hp _
          have := ((hm p).1 (by simp only [List.mem_toFinset] at hp; simp [hp])).2.1
          omega
      omega
    obtain ⟨p, pp, p1, p2⟩ := Nat.exists_prime_lt_and_le_two_mul m hpm.ne_zero
    have hnp : n ≤ p := by
      by_contra hc
      have : p ∈ rs' ++ [m] ++ [n] := (hm p).2 ⟨pp, pp.two_le, by omega⟩
      simp only [List.append_assoc, List.mem_append, List.mem_singleton] at this
      rcases this with h | h | h
      · have := hlt p h; omega
      · omega
      · omega
    have hp63 : p ≠ 2 ^ 63 := fun e => by
      rw [e] at pp
      exact absurd pp (Nat.Prime.not_prime_pow (by decide))
    omega

theorem prime_456065899 : Nat.Prime 456065899 := by
  refine prime_of_cert _ 2 30 1 [2, 3, 1471, 51673] (by norm_num) (by norm_num) (by decide +kernel) ?_ (by decide +kernel)
  intro q hq
  simp only [List.mem_cons, List.not_mem_nil, or_false] at hq
  rcases hq with rfl | rfl | rfl | rfl <;> exact ⟨by norm_num, by decide +kernel⟩

theorem prime_63 : Nat.Prime 9223372036854775783 := by
  refine prime_of_cert _ 3 64 4 [2, 3, 17, 23, 319279, 456065899] (by norm_num) (by norm_num) (by decide +kernel) ?_ (by decide +kernel)
  intro q hq
  simp only [List.mem_cons, List.not_mem_nil, or_false] at hq
  rcases hq with rfl | rfl | rfl | rfl | rfl | rfl <;> exact ⟨by first | exact prime_456065899 | norm_num, by decide +kernel⟩

/-- primes selected are below `2^63`; a single number must not be above the last prime there -/
theorem selected_small {bits o : Nat} {range : Option (List Char)} {qs : List Nat} (hm : Meant bits range) (h0 : 0 < o) (ho : o ≤ 2 ^ (bits + 2))
    (hs : ∀ s, range = some s → Number s → value s ≤ 2 ^ 63 - 25) (h : Selected range o qs) : ∀ q ∈ qs, q < 2 ^ 63 := by
  cases range with
  | none =>
    obtain ⟨rs, n, rfl, hp, h1, h2⟩ := h.product rfl
    have := last_small h0 (order_small hm ho) hp h1 h2
    intro q hq
    have := ((hp.2 q).1 hq).2.2
    omega
  | some r =>
    rcases hm with hm | ⟨s, t, rfl, h1, h2⟩
    · obtain ⟨q, rfl, -, -, h4⟩ := h.single r rfl hm
      intro p hp
      obtain rfl := List.mem_singleton.1 hp
      have := h4 _ prime_63 (hs r rfl hm)
      omega
    · obtain ⟨-, h4⟩ := h.range s t rfl h1 h2
      intro q hq
      have := ((h4 q).1 hq).2.2
      have := h2.2.2
      omega

end Ecgen.InvalidRun
