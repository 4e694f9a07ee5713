import Verif.Sha1.Props
import Verif.Bits.Props

/-!
# Vocabulary for hash expansions of seeds

Bit strings are lists of Booleans, most significant bit first. `H` is SHA-1 on bit strings; a string whose length is
not a multiple of eight is filled up with zero bits first (for multiples of eight it is SHA-1 itself).
-/

namespace Ecgen.SeedSpec

open Ecgen.Bits

/-- the `g` lowest binary digits of `n` -/
def toBits (g n : Nat) : List Bool := (List.range g).map fun i => n.testBit (g - 1 - i)

/-- the bits of a byte string -/
def unpack (d : List Byte) : List Bool := d.flatMap fun x => (List.range 8).map fun k => x.getMsbD k

/-- SHA-1 as a function of bit strings -/
def H (l : List Bool) : List Bool := unpack (Sha1.Spec.sha1 (Sha1.pack l))

theorem toBits_length (g n : Nat) : (toBits g n).length = g := by simp [toBits]

theorem unpack_length (d : List Byte) : (unpack d).length = 8 * d.length := by
  induction d with
  | nil => rfl
  | cons x t ih =>
    unfold unpack at ih ⊢
    rw [List.flatMap_cons, List.length_append, ih]
    simp
    omega

theorem H_length (l : List Bool) : (H l).length = 160 := by
  rw [H, unpack_length, Sha1.sha1_length]

theorem toBits_succ (g n : Nat) : toBits (g + 1) n = toBits g (n / 2) ++ [n.testBit 0] := by
  unfold toBits
  rw [List.range_succ, List.map_append]
  congr 1
  · apply List.map_congr_left
    intro i hi
    rw [List.mem_range] at hi
    rw [show g + 1 - 1 - i = (g - 1 - i) + 1 by omega, Nat.testBit_succ]
  · simp

theorem ofBits_toBits (g n : Nat) : ofBits (toBits g n) = n % 2 ^ g := by
  induction g generalizing n with
  | zero => simp [toBits, ofBits, Nat.mod_one]
  | succ g ih =>
    rw [toBits_succ, ofBits_snoc, ih, Nat.pow_succ, Nat.mul_comm (2 ^ g) 2, Nat.mod_mul]
    have : (n.testBit 0).toNat = n % 2 := by
      rw [Nat.testBit_zero]
      rcases Nat.mod_two_eq_zero_or_one n with h | h <;> simp [h]
    rw [this]; omega

theorem toBits_ofBits (l : List Bool) : toBits l.length (ofBits l) = l := by
  apply ofBits_inj (toBits_length _ _)
  rw [ofBits_toBits, Nat.mod_eq_of_lt (ofBits_lt l)]

theorem eq_toBits (l : List Bool) (g n : Nat) (hl : l.length = g) (h : ofBits l = n % 2 ^ g) : l = toBits g n := by
  apply ofBits_inj (by rw [toBits_length, hl])
  rw [ofBits_toBits, h]

theorem bitAt_unpack (raw : List Byte) : (List.range (8 * raw.length)).map (bitAt raw) = unpack raw := by
  apply List.ext_getElem
  · rw [unpack_length]; simp
  · intro i h1 h2
    simp only [List.getElem_map, List.getElem_range]
    have key : ∀ (raw : List Byte) (i : Nat), (unpack raw).getD i false = bitAt raw i := by
      intro raw
      induction raw with
      | nil => intro i; simp [unpack, bitAt]
      | cons x t ih =>
        intro i
        have e : unpack (x :: t) = (List.range 8).map (fun k => x.getMsbD k) ++ unpack t := rfl
        rw [e]
        by_cases hi : i < 8
        · simp only [List.getD_eq_getElem?_getD]
          rw [List.getElem?_append_left (by simpa using hi)]
          simp [hi, bitAt, Nat.div_eq_of_lt hi, Nat.mod_eq_of_lt hi]
        · simp only [List.getD_eq_getElem?_getD]
          rw [List.getElem?_append_right (by simp; omega), ← List.getD_eq_getElem?_getD]
          simp only [List.length_map, List.length_range]
          rw [ih (i - 8)]
          unfold bitAt
          rw [show i / 8 = (i - 8) / 8 + 1 by omega, List.getD_cons_succ, show i % 8 = (i - 8) % 8 by omega]
    rw [← key raw i, List.getD_eq_getElem?_getD, List.getElem?_eq_getElem h2]
    rfl

/-- `bits_from_raw` of a digest -/
theorem fromRaw_unpack (raw : List Byte) (n : Nat) (h : raw.length = n) :
    ∃ r, fromRaw raw (8 * n) = some r ∧ r.WF ∧ r.sign = false ∧ r.val = unpack raw := by
  obtain ⟨r, h1, h2, h3, h4⟩ := fromRaw_bits raw (8 * n) (by omega)
  exact ⟨r, h1, h2, h3, by rw [h4, ← h, bitAt_unpack]⟩

theorem clean_of_mul8 (b : Bits) (h : b.bitlen = 8 * b.allocated) : b.Clean := by
  intro i h1 h2; omega

end Ecgen.SeedSpec
