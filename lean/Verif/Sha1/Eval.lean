import Verif.Sha1.Props

/-!
# Evaluating the specification of SHA-1 in the kernel

An equivalent form of `Spec.sha1` for messages of at most 55 bytes that the kernel can evaluate, used for test vectors and
concrete witnesses only.
-/

namespace Ecgen.Sha1.Eval

/-- one round with the word `w` -/
def round1 (w : Word) (s : Hash) (t : Nat) : Hash :=
  let T := Spec.rotl 5 s.h0 + Spec.f t s.h1 s.h2 s.h3 + s.h4 + Spec.K t + w
  ⟨T, s.h0, Spec.rotl 30 s.h1, s.h2, s.h3⟩

/-- `n` rounds from round `t` on, the window holds the next 16 words of the schedule -/
def go : Nat → Nat → List Word → Hash → Hash
  | 0, _, _, s => s
  | n + 1, t, win, s =>
    go n (t + 1) (win.drop 1 ++ [Spec.rotl 1 (win.getD 13 0 ^^^ win.getD 8 0 ^^^ win.getD 2 0 ^^^ win.getD 0 0)])
      (round1 (win.getD 0 0) s t)

theorem go_eq (M : Nat → Word) (n t : Nat) (s : Hash) :
    go n t ((List.range 16).map fun i => Spec.W M (t + i)) s = (List.range' t n).foldl (Spec.round M) s := by
  induction n generalizing t s with
  | zero => rfl
  | succ n ih =>
    rw [go, List.range'_succ, List.foldl_cons, ← ih (t + 1)]
    have h0 : ((List.range 16).map fun i => Spec.W M (t + i)).getD 0 0 = Spec.W M t := rfl
    have h2 : ((List.range 16).map fun i => Spec.W M (t + i)).getD 2 0 = Spec.W M (t + 2) := rfl
    have h8 : ((List.range 16).map fun i => Spec.W M (t + i)).getD 8 0 = Spec.W M (t + 8) := rfl
    have h13 : ((List.range 16).map fun i => Spec.W M (t + i)).getD 13 0 = Spec.W M (t + 13) := rfl
    have hn : Spec.W M (t + 16) = Spec.rotl 1 (Spec.W M (t + 13) ^^^ Spec.W M (t + 8) ^^^ Spec.W M (t + 2) ^^^ Spec.W M t) := by
      conv_lhs => rw [Spec.W]
      rw [if_neg (by omega), show t + 16 - 3 = t + 13 by omega, show t + 16 - 8 = t + 8 by omega,
        show t + 16 - 14 = t + 2 by omega, show t + 16 - 16 = t by omega]
    rw [h0, h2, h8, h13, ← hn]
    have hwin : ((List.range 16).map fun i => Spec.W M (t + i)).drop 1 ++ [Spec.W M (t + 16)] =
        (List.range 16).map fun i => Spec.W M (t + 1 + i) := by
      have : ∀ i, t + 1 + i = t + (i + 1) := by intro i; omega
      simp only [this]
      rfl
    rw [hwin]
    rfl

/-- SHA-1 of a message of at most 55 bytes -/
def sha1 (m : List Byte) : List Byte :=
  let p := Spec.pad m
  let s := go 80 0 ((List.range 16).map (Spec.word p)) Spec.H0
  Spec.digest ⟨s.h0 + Spec.H0.h0, s.h1 + Spec.H0.h1, s.h2 + Spec.H0.h2, s.h3 + Spec.H0.h3, s.h4 + Spec.H0.h4⟩

theorem sha1_eq (m : List Byte) (h : m.length ≤ 55) : Spec.sha1 m = sha1 m := by
  have hl : (Spec.pad m).length = 64 := by
    simp [Spec.pad, Spec.be]; omega
  have ht : (Spec.pad m).take 64 = Spec.pad m := List.take_of_length_le (by omega)
  have hd : (Spec.pad m).drop 64 = [] := List.drop_of_length_le (by omega)
  unfold Spec.sha1 sha1
  rw [Spec.process, if_neg (by omega), ht, hd, Spec.process, if_pos (by simp)]
  unfold Spec.compress
  rw [List.range_eq_range', ← go_eq]
  have hw : ((List.range 16).map fun i => Spec.W (Spec.word (Spec.pad m)) (0 + i)) =
      (List.range 16).map (Spec.word (Spec.pad m)) := by
    apply List.map_congr_left
    intro i hi
    rw [List.mem_range] at hi
    rw [Nat.zero_add, Spec.W, if_pos hi]
  rw [hw]

/-- the test vector of FIPS 180 for "abc" -/
theorem abc : Spec.sha1 [0x61, 0x62, 0x63] =
    [0xa9, 0x99, 0x3e, 0x36, 0x47, 0x06, 0x81, 0x6a, 0xba, 0x3e, 0x25, 0x71, 0x78, 0x50, 0xc2, 0x6c, 0x9c, 0xd0, 0xd8, 0x9d] := by
  rw [sha1_eq _ (by decide)]
  decide +kernel

end Ecgen.Sha1.Eval
