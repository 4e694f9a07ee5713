import Verif.Cli.Model
import Verif.Invalid.Primes

/-!
# Sizes and times on the command line (C47)
-/

namespace Ecgen.Cli

open Ecgen.Invalid (IsNumber value digits_append digit?)

/-! ## Specification -/

/-- the documented suffixes of a size (cli.c:90, 92: "can have suffix k/m/g"), and no suffix -/
def sizeFactor : List Char → Option Nat
  | [] => some 1
  | ['k'] => some (10 ^ 3)
  | ['K'] => some (10 ^ 3)
  | ['m'] => some (10 ^ 6)
  | ['M'] => some (10 ^ 6)
  | ['g'] => some (10 ^ 9)
  | ['G'] => some (10 ^ 9)
  | _ => none

/-- the documented suffixes of a time (cli.c:93: "can have suffix s/m/h/d"), in seconds -/
def timeFactor : List Char → Option Nat
  | [] => some 1
  | ['s'] => some 1
  | ['m'] => some 60
  | ['h'] => some (60 * 60)
  | ['d'] => some (24 * 60 * 60)
  | _ => none

/-! ## Reading numbers -/

theorem strtoul_number (ds rest : List Char) (h : IsNumber ds) (hr : rest.head?.bind digit? = none)
    (hv : value ds < 2 ^ 64) : strtoul (ds ++ rest) = (value ds, rest) := by
  obtain ⟨hne, hall⟩ := h
  obtain ⟨c, cs, rfl⟩ := List.exists_cons_of_ne_nil hne
  have hc := hall c List.mem_cons_self
  have hd : digit? c = some (c.toNat - 48) := by unfold digit?; rw [if_pos hc]
  have hsp : isspace c = false := by
    simp only [isspace, Bool.or_eq_false_iff, Bool.and_eq_false_imp, decide_eq_false_iff_not, decide_eq_true_eq]
    omega
  have hdw : (c :: cs ++ rest).dropWhile isspace = c :: cs ++ rest := by
    rw [List.cons_append, List.dropWhile_cons, hsp]; rfl
  have hm : ¬ ((c :: cs ++ rest).head? = some '-' ∨ (c :: cs ++ rest).head? = some '+') := by
    simp only [List.cons_append, List.head?_cons, Option.some.injEq]
    rintro (rfl | rfl) <;> revert hc <;> decide
  have hneg : ((c :: cs ++ rest).head? == some '-') = false := by
    rw [beq_eq_false_iff_ne]
    exact fun e => hm (Or.inl e)
  unfold strtoul number?
  simp only [hdw]
  rw [if_neg hm, if_pos (by simp [hd]), digits_append _ _ hall hr, hneg]
  have e : (List.foldl (fun n c => 10 * n + (c.toNat - 48)) 0 (c :: cs)) = value (c :: cs) := rfl
  simp only [e]
  rw [if_neg (by omega)]
  rfl

theorem number_ne (ds rest : List Char) (h : IsNumber ds) : rest ≠ ds ++ rest := by
  intro e
  have := congrArg List.length e
  rw [List.length_append] at this
  have : ds.length ≠ 0 := fun hz => h.1 (List.length_eq_zero_iff.mp hz)
  omega

/-! ## C47 -/

/-- **C47** for sizes: a number with a documented suffix denotes that many units, if this is representable -/
theorem memory_value (ds suffix : List Char) (f : Nat) (h : IsNumber ds) (hf : sizeFactor suffix = some f)
    (hv : value ds * f < 2 ^ 64) : parseMemory (ds ++ suffix) = some (value ds * f) := by
  have hfpos : 0 < f ∧ suffix.head?.bind digit? = none := by
    unfold sizeFactor at hf
    split at hf <;> first | (cases hf; done) | (cases hf; exact ⟨by decide, by decide⟩)
  have hv1 : value ds < 2 ^ 64 := Nat.lt_of_le_of_lt (Nat.le_mul_of_pos_right _ hfpos.1) hv
  have hs := strtoul_number ds suffix h hfpos.2 hv1
  unfold parseMemory
  simp only [hs]
  rw [if_neg (number_ne ds suffix h)]
  unfold sizeFactor at hf
  split at hf <;> first | (cases hf; done) | skip
  all_goals
    simp only [Option.some.injEq] at hf
    subst hf
    simp
  all_goals omega

/-- **C47** for times -/
theorem time_value (ds suffix : List Char) (f : Nat) (h : IsNumber ds) (hf : timeFactor suffix = some f)
    (hv : value ds * f < 2 ^ 64) : parseTime (ds ++ suffix) = some (value ds * f) := by
  have hfpos : 0 < f ∧ suffix.head?.bind digit? = none := by
    unfold timeFactor at hf
    split at hf <;> first | (cases hf; done) | (cases hf; exact ⟨by decide, by decide⟩)
  have hv1 : value ds < 2 ^ 64 := Nat.lt_of_le_of_lt (Nat.le_mul_of_pos_right _ hfpos.1) hv
  have hs := strtoul_number ds suffix h hfpos.2 hv1
  unfold parseTime
  simp only [hs]
  rw [if_neg (number_ne ds suffix h)]
  unfold timeFactor at hf
  split at hf <;> first | (cases hf; done) | skip
  all_goals
    simp only [Option.some.injEq] at hf
    subst hf
    simp
  all_goals omega

/-- text without a number is refused -/
theorem memory_refused (s : List Char) (h : ∀ c ∈ s, ¬ (48 ≤ c.toNat ∧ c.toNat ≤ 57)) : parseMemory s = none ∧ parseTime s = none := by
  have hn : number? s = none := by
    have hsub : ∀ t : List Char, (∀ c ∈ t, c ∈ s) → (t.head?.bind digit?).isSome = false := by
      intro t ht
      cases t with
      | nil => rfl
      | cons c t =>
        simp only [List.head?_cons, Option.bind_some]
        unfold digit?
        rw [if_neg (h c (ht c List.mem_cons_self))]
        rfl
    unfold number?
    simp only
    rw [if_neg]
    rw [Bool.not_eq_true]
    apply hsub
    intro c hc
    apply (List.dropWhile_suffix isspace).subset
    split at hc
    · exact List.mem_of_mem_drop hc
    · exact hc
  have hs : strtoul s = (0, s) := by unfold strtoul; rw [hn]
  unfold parseMemory parseTime
  simp only [hs, if_true]
  exact ⟨trivial, trivial⟩

/-- sizes that are not representable are not refused: `20000000000g` is taken for 1553255926290448384 bytes -/
theorem memory_overflow : parseMemory "20000000000g".toList = some 1553255926290448384 := by decide +kernel

/-- nor are suffixes that are not documented -/
theorem memory_lenient : parseMemory "5x".toList = some 5 ∧ parseMemory "5kilo".toList = some 5000 ∧ parseTime "5ms".toList = some 300 := by
  decide +kernel

/-- the hypotheses can be met -/
theorem memory_case : parseMemory "512m".toList = some 512000000 ∧ parseTime "90s".toList = some 90 ∧ parseTime "2h".toList = some 7200 := by
  have h1 := memory_value "512".toList ['m'] (10 ^ 6) (by refine ⟨by decide, by decide⟩) rfl (by decide)
  have h2 := time_value "90".toList ['s'] 1 (by refine ⟨by decide, by decide⟩) rfl (by decide)
  have h3 := time_value "2".toList ['h'] (60 * 60) (by refine ⟨by decide, by decide⟩) rfl (by decide)
  exact ⟨h1, h2, h3⟩

end Ecgen.Cli
