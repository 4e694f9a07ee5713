import Verif.Sha1.Lemmas
import Verif.Bits.Props

/-!
# SHA-1 properties (C05)
-/

namespace Ecgen.Sha1

/-- C05: feeding any sequence of pieces and finalising gives the FIPS 180-4 digest of the concatenation
(for messages of less than `2^64` bits, the limit of the standard). The padding loop always ends. -/
theorem sha1_correct (pieces : List (List Byte)) (h : 8 * pieces.flatten.length < 2 ^ 64) (fuel : Nat)
    (hf : 64 ≤ fuel) :
    final fuel (pieces.foldl update init) = some (Spec.sha1 pieces.flatten) := by
  have hc : pieces.foldl update init = update init pieces.flatten := by
    unfold update
    rw [List.foldl_flatten]
  rw [hc]
  have h0 : Inv (update init pieces.flatten) pieces.flatten := by
    have := inv_update init [] pieces.flatten inv_init
    simpa using this
  generalize pieces.flatten = m at h h0
  have h1 := inv_update _ _ [0x80] h0
  obtain ⟨c', hp, h2⟩ := inv_pad ((119 - m.length % 64) % 64) _ _ fuel h1 (by
    rw [List.length_append, List.length_singleton]; omega) (by omega) (by omega)
  unfold final
  simp only
  rw [hp, Option.map_some]
  have hbe := be_padlen (update init m).sizeHi (update init m).sizeLo (8 * m.length) (by
    rw [h0.size, Nat.mod_eq_of_lt h])
  rw [hbe]
  have h3 := inv_update c' _ (Spec.be 8 (8 * m.length)) h2
  have hpad : m ++ [0x80] ++ List.replicate ((119 - m.length % 64) % 64) 0 ++ Spec.be 8 (8 * m.length) =
      Spec.pad m := rfl
  rw [hpad] at h3
  have hl : (Spec.pad m).length % 64 = 0 := by
    unfold Spec.pad
    simp [Spec.be]
    omega
  have hH := h3.hash
  rw [fullLen, List.take_of_length_le (by omega)] at hH
  simp only [outWord_eq, hH]
  rfl

/-- C05: two ways of cutting the same message give the same digest. -/
theorem sha1_chunking (p q : List (List Byte)) (h : p.flatten = q.flatten) (fuel : Nat) :
    final fuel (p.foldl update init) = final fuel (q.foldl update init) := by
  have hc : ∀ p : List (List Byte), p.foldl update init = update init p.flatten := by
    intro p
    unfold update
    rw [List.foldl_flatten]
  rw [hc p, hc q, h]

/-- C05: the index `lenW / 4` used by `SHA1_Update` stays inside the 16 message words. -/
theorem sha1_index (pieces : List (List Byte)) : (pieces.foldl update init).lenW / 4 < 16 := by
  have hc : pieces.foldl update init = update init pieces.flatten := by
    unfold update
    rw [List.foldl_flatten]
  have h0 := inv_update init [] pieces.flatten inv_init
  rw [hc, h0.lenW]
  omega

/-- the digest has 20 bytes -/
theorem sha1_length (m : List Byte) : (Spec.sha1 m).length = 20 := by
  simp [Spec.sha1, Spec.digest, Spec.be]

-- the hypotheses are met by a message of three pieces crossing a block boundary
example : 8 * ([List.replicate 60 (1 : Byte), [], List.replicate 70 2].flatten).length < 2 ^ 64 := by
  decide +kernel

open Ecgen.Bits in
/-- the bytes of a bit string, filled up with zero bits on the right -/
def pack (l : List Bool) : List Byte :=
  (List.range ((l.length + 7) / 8)).map fun i =>
    BitVec.ofNat 8 (ofBits ((List.range 8).map fun k => l.getD (8 * i + k) false))

open Ecgen.Bits in
/-- `bits_sha1`, bits.c:489-494 -/
def bitsSha1 (b : Bits) : Option (List Byte) := (sha1Input b).bind fun d => final 64 (update init d)

open Ecgen.Bits in
theorem byte_of_bits (x : Byte) :
    BitVec.ofNat 8 (ofBits ((List.range 8).map fun k => x.getMsbD k)) = x := by
  revert x
  decide

open Ecgen.Bits in
theorem sha1Input_pack (b : Bits) (h : b.WF) (hc : b.Clean) : sha1Input b = some (pack b.val) := by
  have hwf := h
  obtain ⟨h1, h2⟩ := h
  rw [byteLen_eq] at h2
  unfold sha1Input
  rw [memdup_take _ _ (by rw [byteLen_eq]; omega), byteLen_eq]
  congr 1
  apply List.ext_getElem
  · simp [pack, val_length]; omega
  · intro i hi1 hi2
    have hi : i < (b.bitlen + 7) / 8 := by simpa [pack, val_length] using hi2
    simp only [pack, List.getElem_take, List.getElem_map, List.getElem_range]
    have hb : b.bits[i]'(by omega) = b.bits.getD i 0 := by
      rw [List.getD_eq_getElem?_getD, List.getElem?_eq_getElem (by omega)]; rfl
    rw [hb, ← byte_of_bits (b.bits.getD i 0)]
    congr 2
    apply List.map_congr_left
    intro k hk
    have hk : k < 8 := by simpa using hk
    rw [val_getD]
    have e : bitAt b.bits (8 * i + k) = (b.bits.getD i 0).getMsbD k := by
      unfold bitAt
      rw [show (8 * i + k) / 8 = i by omega, show (8 * i + k) % 8 = k by omega]
    by_cases hlt : 8 * i + k < b.bitlen
    · rw [e]; simp [hlt]
    · have := hc (8 * i + k) (by omega) (by omega)
      rw [← e, this]; simp

open Ecgen.Bits in
/-- C05: hashing a bit string gives the SHA-1 digest of its bits packed into bytes. -/
theorem bitsSha1_correct (b : Bits) (h : b.WF) (hc : b.Clean) (hl : b.bitlen < 2 ^ 31) :
    bitsSha1 b = some (Spec.sha1 (pack b.val)) := by
  unfold bitsSha1
  rw [sha1Input_pack b h hc, Option.bind_some]
  have := sha1_correct [pack b.val] (by simp [pack, val_length]; omega) 64 (Nat.le_refl _)
  simpa using this

end Ecgen.Sha1
