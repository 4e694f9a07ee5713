import Verif.Input.Model
import Verif.Family.Props

/-!
# Interactive input (C24, C48, C56)
-/

namespace Ecgen.Input

/-! ## Specification: decimal numerals -/

/-- the decimal numeral of a number -/
def decimal (n : Nat) : List Char :=
  if n < 10 then [Char.ofNat (48 + n)] else decimal (n / 10) ++ [Char.ofNat (48 + n % 10)]
termination_by n
decreasing_by omega

theorem digit_char (k : Nat) (h : k < 10) : digitVal 10 (Char.ofNat (48 + k)) = some k := by
  revert k
  decide

theorem digit_char_ne (k : Nat) (h : k < 10) : Char.ofNat (48 + k) ≠ '\n' ∧ Char.ofNat (48 + k) ≠ ',' ∧
    Char.ofNat (48 + k) ≠ '-' ∧ Char.ofNat (48 + k) ≠ 'x' ∧ Char.ofNat (48 + k) ≠ 'X' ∧
    Char.ofNat (48 + k) ≠ 'b' ∧ Char.ofNat (48 + k) ≠ 'B' := by
  revert k
  decide

theorem readDigits_decimal (n acc : Nat) (rest : List Char)
    (hr : ∀ c, rest.head? = some c → digitVal 10 c = none) :
    ∃ k, readDigits 10 acc (decimal n ++ rest) = k ∧ (acc = 0 → k = n) ∧
      ∀ acc', readDigits 10 acc' (decimal n ++ rest) = acc' * 10 ^ (decimal n).length + n := by
  have hend : ∀ a, readDigits 10 a rest = a := by
    intro a
    cases rest with
    | nil => rfl
    | cons c s => rw [readDigits, hr c rfl]
  have main : ∀ n (rest : List Char) (acc' : Nat),
      readDigits 10 acc' (decimal n ++ rest) =
        readDigits 10 (acc' * 10 ^ (decimal n).length + n) rest := by
    intro n
    induction n using decimal.induct with
    | case1 n hn =>
      intro rest acc'
      rw [decimal, if_pos hn, List.singleton_append, readDigits, digit_char n hn]
      simp [Nat.mul_comm]
    | case2 n hn ih =>
      intro rest acc'
      rw [decimal, if_neg hn, List.append_assoc, ih, List.singleton_append, readDigits,
        digit_char _ (by omega)]
      simp only [List.length_append, List.length_singleton, Nat.pow_succ]
      congr 1
      have : 10 * (n / 10) + n % 10 = n := by omega
      rw [Nat.mul_add, show 10 * (acc' * 10 ^ (decimal (n / 10)).length) =
        acc' * (10 ^ (decimal (n / 10)).length * 10) by ac_rfl, Nat.add_assoc, this]
  refine ⟨_, rfl, ?_, ?_⟩
  · rintro rfl
    rw [main, hend]; simp
  · intro acc'
    rw [main, hend]

/-- a decimal numeral consists of digits and is not empty -/
theorem decimal_chars (n : Nat) : ∀ c ∈ decimal n, ∃ k, k < 10 ∧ c = Char.ofNat (48 + k) := by
  induction n using decimal.induct with
  | case1 n hn => rw [decimal, if_pos hn]; intro c hc; exact ⟨n, hn, by simpa using hc⟩
  | case2 n hn ih =>
    rw [decimal, if_neg hn]
    intro c hc
    rw [List.mem_append] at hc
    rcases hc with hc | hc
    · exact ih c hc
    · exact ⟨n % 10, by omega, by simpa using hc⟩

theorem decimal_ne (n : Nat) : decimal n ≠ [] := by
  rw [decimal]; split <;> simp

/-- a decimal numeral is not taken for a hexadecimal or binary one -/
theorem strtoi_decimal (n : Nat) (rest : List Char)
    (hr : ∀ c, rest.head? = some c → digitVal 10 c = none ∧ c ≠ 'x' ∧ c ≠ 'X' ∧ c ≠ 'b' ∧ c ≠ 'B') :
    strtoi (decimal n ++ rest) = n := by
  have hch := decimal_chars n
  have hgen : strtoi (decimal n ++ rest) = readDigits 10 0 (decimal n ++ rest) := by
    have hne := decimal_ne n
    cases hd : decimal n with
    | nil => exact absurd hd hne
    | cons a l =>
      rw [hd] at hch
      have h2 : ∀ c, (l ++ rest).head? = some c → c ≠ 'x' ∧ c ≠ 'X' ∧ c ≠ 'b' ∧ c ≠ 'B' := by
        intro c hc
        cases l with
        | nil => exact (hr c hc).2
        | cons b l =>
          simp only [List.cons_append, List.head?_cons, Option.some.injEq] at hc
          subst hc
          obtain ⟨k, hk, rfl⟩ := hch b (by simp)
          have := digit_char_ne k hk
          exact ⟨this.2.2.2.1, this.2.2.2.2.1, this.2.2.2.2.2.1, this.2.2.2.2.2.2⟩
      rw [List.cons_append]
      generalize l ++ rest = t at h2
      cases t with
      | nil => unfold strtoi; split <;> simp_all
      | cons b t =>
        obtain ⟨h3, h4, h5, h6⟩ := h2 b rfl
        unfold strtoi; split <;> simp_all
  rw [hgen]
  obtain ⟨k, hk, hk0, _⟩ := readDigits_decimal n 0 rest (fun c hc => (hr c hc).1)
  rw [hk, hk0 rfl]

/-! ## C48 -/

theorem getdelim_line (d : Char) (l rest : List Char) (h : d ∉ l) :
    getdelim d (l ++ d :: rest) = (l ++ [d], false, rest) := by
  induction l with
  | nil => simp [getdelim]
  | cons c l ih =>
    simp only [List.mem_cons, not_or] at h
    rw [List.cons_append, getdelim, if_neg (fun e => h.1 e.symm), ih h.2]
    rfl

theorem getdelim_eof (d : Char) (l : List Char) (h : d ∉ l) : getdelim d l = (l, true, []) := by
  induction l with
  | nil => rfl
  | cons c l ih =>
    simp only [List.mem_cons, not_or] at h
    rw [getdelim, if_neg (fun e => h.1 e.symm), ih h.2]

/-- C48: a line with the decimal numeral of a number up to `2^bits` is read as that number, whether the
line is terminated or the last one of the input, and exactly this line is consumed. -/
theorem inputI_decimal_partial (d : Char) (hd : d = '\n' ∨ d = ',') (bits n : Nat) (h : n ≤ 2 ^ bits) (rest : List Char) :
    inputI d bits (decimal n ++ d :: rest) = ((n : Int), rest) ∧
    inputI d bits (decimal n) = ((n : Int), []) := by
  have hch := decimal_chars n
  have hnd : d ∉ decimal n := by
    intro hm
    obtain ⟨k, hk, he⟩ := hch d hm
    have := digit_char_ne k hk
    rcases hd with rfl | rfl
    · exact this.1 he.symm
    · exact this.2.1 he.symm
  have hlen : 0 < (decimal n).length := List.length_pos_iff.2 (decimal_ne n)
  have hsign : ∀ t, ¬ (decimal n ++ t).head? = some '-' := by
    intro t
    cases hc : decimal n with
    | nil => exact absurd hc (decimal_ne n)
    | cons a l =>
      rw [hc] at hch
      obtain ⟨k, hk, he⟩ := hch a (by simp)
      simp only [List.cons_append, List.head?_cons, Option.some.injEq]
      rw [he]
      exact (digit_char_ne k hk).2.2.1
  have hv : (n : Int) ≤ 2 ^ bits := by exact_mod_cast h
  constructor
  · unfold inputI
    rw [getdelim_line d _ rest hnd]
    simp only [List.length_append, List.length_singleton]
    rw [if_neg (by omega), if_neg (by rintro ⟨h1, -⟩; omega)]
    simp only [if_neg (hsign [d])]
    rw [strtoi_decimal n [d] (by
      intro c hc
      simp only [List.head?_cons, Option.some.injEq] at hc
      subst hc
      rcases hd with rfl | rfl <;> decide), if_pos hv]
  · unfold inputI
    rw [getdelim_eof d _ hnd]
    simp only
    rw [if_neg (by omega), if_neg (by rintro ⟨-, h1⟩; cases h1)]
    have hs := hsign []
    rw [List.append_nil] at hs
    simp only [if_neg hs]
    have := strtoi_decimal n [] (by simp)
    rw [List.append_nil] at this
    rw [this, if_pos hv]

/-- C48: nothing to read gives -2, an empty line -1, and a number above `2^bits` -1. -/
theorem inputI_errors (d : Char) (hd : d = '\n' ∨ d = ',') (bits n : Nat) (h : 2 ^ bits < n) (rest : List Char) :
    inputI d bits [] = (-2, []) ∧ inputI d bits (d :: rest) = (-1, rest) ∧
    inputI d bits (decimal n ++ d :: rest) = (-1, rest) := by
  have hch := decimal_chars n
  have hnd : d ∉ decimal n := by
    intro hm
    obtain ⟨k, hk, he⟩ := hch d hm
    have := digit_char_ne k hk
    rcases hd with rfl | rfl
    · exact this.1 he.symm
    · exact this.2.1 he.symm
  have hlen : 0 < (decimal n).length := List.length_pos_iff.2 (decimal_ne n)
  refine ⟨rfl, ?_, ?_⟩
  · unfold inputI
    rw [show d :: rest = [] ++ d :: rest from rfl, getdelim_line d [] rest (by simp)]
    simp
  · have hsign : ¬ (decimal n ++ [d]).head? = some '-' := by
      cases hc : decimal n with
      | nil => exact absurd hc (decimal_ne n)
      | cons a l =>
        rw [hc] at hch
        obtain ⟨k, hk, he⟩ := hch a (by simp)
        simp only [List.cons_append, List.head?_cons, Option.some.injEq]
        rw [he]
        exact (digit_char_ne k hk).2.2.1
    have hv : ¬ (n : Int) ≤ 2 ^ bits := by
      intro hle
      have : n ≤ 2 ^ bits := by exact_mod_cast hle
      omega
    unfold inputI
    rw [getdelim_line d _ rest hnd]
    simp only [List.length_append, List.length_singleton]
    rw [if_neg (by omega), if_neg (by rintro ⟨h1, -⟩; omega)]
    simp only [if_neg hsign]
    rw [strtoi_decimal n [d] (by
      intro c hc
      simp only [List.head?_cons, Option.some.injEq] at hc
      subst hc
      rcases hd with rfl | rfl <;> decide), if_neg hv]

/-- C48 is false: the legal inputs -1 and -2 are indistinguishable from an empty line and from the end of
the input. As coefficient, -1 is asked for again and -2 aborts the run. -/
theorem inputI_sentinel_false (bits : Nat) :
    inputI '\n' bits "-1\n".toList = inputI '\n' bits "\n".toList ∧
    inputI '\n' bits "-2\n".toList = inputI '\n' bits [] ∧
    (coeffInput (some : Int → Option Int) '\n' bits "-1\n".toList).1 = .again ∧
    (coeffInput (some : Int → Option Int) '\n' bits "-2\n".toList).1 = .abort := by
  have h : ∀ k : Nat, ((-(k : Int)) ≤ 2 ^ bits) := by
    intro k
    have : (0 : Int) ≤ 2 ^ bits := by positivity
    omega
  have h1 : inputI '\n' bits "-1\n".toList = (-1, []) := by
    have : getdelim '\n' "-1\n".toList = ("-1\n".toList, false, []) := by decide
    unfold inputI
    rw [this]
    have e : strtoi ("-1\n".toList.drop 1) = 1 := by decide
    have hs : "-1\n".toList.head? = some '-' := by decide
    simp only [hs, if_true, e]
    have := h 1
    simp only [Nat.cast_one] at this
    rw [if_neg (by decide), if_neg (by decide), if_pos this]
  have h2 : inputI '\n' bits "-2\n".toList = (-2, []) := by
    have : getdelim '\n' "-2\n".toList = ("-2\n".toList, false, []) := by decide
    unfold inputI
    rw [this]
    have e : strtoi ("-2\n".toList.drop 1) = 2 := by decide
    have hs : "-2\n".toList.head? = some '-' := by decide
    simp only [hs, if_true, e]
    have := h 2
    simp only [Nat.cast_ofNat] at this
    rw [if_neg (by decide), if_neg (by decide), if_pos this]
  refine ⟨h1.trans ?_, h2, ?_, ?_⟩
  · have : getdelim '\n' "\n".toList = ("\n".toList, false, []) := by decide
    unfold inputI
    rw [this]
    rfl
  · unfold coeffInput inputInt; rw [h1]; rfl
  · unfold coeffInput inputInt; rw [h2]; rfl

/-- C48 is false: there is no lower bound. A negative number of any size passes the size check. -/
theorem inputI_negative_unbounded (bits n : Nat) (rest : List Char) :
    inputI '\n' bits ('-' :: decimal n ++ '\n' :: rest) = (-(n : Int), rest) := by
  have hch := decimal_chars n
  have hnd : '\n' ∉ '-' :: decimal n := by
    simp only [List.mem_cons, not_or]
    refine ⟨by decide, ?_⟩
    intro hm
    obtain ⟨k, hk, he⟩ := hch _ hm
    exact (digit_char_ne k hk).1 he.symm
  have hv : -(n : Int) ≤ 2 ^ bits := by
    have : (0 : Int) ≤ 2 ^ bits := by positivity
    omega
  unfold inputI
  rw [getdelim_line '\n' _ rest hnd]
  simp only [List.length_append, List.length_cons, List.cons_append, List.head?_cons, if_true,
    List.drop_succ_cons, List.drop_zero]
  rw [if_neg (by omega), if_neg (by rintro ⟨h1, -⟩; simp at h1),
    strtoi_decimal n ['\n'] (by
      intro c hc
      simp only [List.head?_cons, Option.some.injEq] at hc
      subst hc
      decide), if_pos hv]

example : decimal 1203 = "1203".toList := by simp [decimal]
example : inputI '\n' 16 "65536\n7\n".toList = (65536, "7\n".toList) := by decide
example : inputI ',' 16 "65537,7".toList = (-1, "7".toList) := by decide

/-! ## C24 -/

open Family in
/-- C24 is false: at end of file, on an empty line and on a number that is too large the seed generator
succeeds with the sentinel as seed, and for BN both sentinels lead to an accepted field:
`GF(373)` and `GF(19)`. -/
theorem family_seed_false (isprime : Int → Bool) (hp : IsPrimeSpec isprime) (bits : Nat) :
    (familySeed '\n' bits []).1 = .ok (-2) ∧ (familySeed '\n' bits "\n".toList).1 = .ok (-1) ∧
    genField isprime .BN (-2) = some 373 ∧ genField isprime .BN (-1) = some 19 := by
  refine ⟨rfl, rfl, ?_, ?_⟩
  · rw [genField_some isprime hp]
    exact ⟨by norm_num [pz, nz], by norm_num, by norm_num, 349, by norm_num [rz, nz], by norm_num, by norm_num⟩
  · rw [genField_some isprime hp]
    exact ⟨by norm_num [pz, nz], by norm_num, by norm_num, 13, by norm_num [rz, nz], by norm_num, by norm_num⟩

/-- C24, positive part: a seed given as a decimal numeral in range is used as given. -/
theorem family_seed_partial (d : Char) (hd : d = '\n' ∨ d = ',') (bits n : Nat) (h : n ≤ 2 ^ bits)
    (rest : List Char) : familySeed d bits (decimal n ++ d :: rest) = (.ok (n : Int), rest) := by
  unfold familySeed inputInt
  rw [(inputI_decimal_partial d hd bits n h rest).1]

/-! ## C56 -/

theorem getdelim_rest (d : Char) (s : List Char) (h : s ≠ []) : (getdelim d s).2.2.length < s.length := by
  induction s with
  | nil => exact absurd rfl h
  | cons c s ih =>
    rw [getdelim]
    split
    · simp
    · cases s with
      | nil => simp [getdelim]
      | cons b s => have := ih (by simp); simp only [List.length_cons] at *; omega

theorem inputI_rest (d : Char) (bits : Nat) (s : List Char) : (inputI d bits s).2 = (getdelim d s).2.2 := by
  unfold inputI
  dsimp only
  split
  · rfl
  · split
    · rfl
    · split <;> split <;> rfl

/-- C56: asking for a coefficient again and again ends after at most one attempt per character of the
input, with a value or by giving up: every failed attempt consumes input, and the end of the input aborts. -/
theorem coeff_ask_terminates {α : Type} (elem : Int → Option α) (d : Char) (bits : Nat) (s : List Char) :
    ∃ r, ask (coeffInput elem d bits) (s.length + 1) s = some r ∧ r.1 ≠ .again := by
  generalize hn : s.length = n
  induction n using Nat.strongRecOn generalizing s with
  | _ n ih =>
    subst hn
    by_cases hs : s = []
    · subst hs
      exact ⟨(.abort, []), rfl, by simp⟩
    · have hlt : (coeffInput elem d bits s).2.length < s.length := by
        have : (coeffInput elem d bits s).2 = (getdelim d s).2.2 := by
          rw [← inputI_rest d bits s]
          unfold coeffInput inputInt
          dsimp only
          split
          · rfl
          · split
            · rfl
            · split <;> rfl
        rw [this]
        exact getdelim_rest d s hs
      rw [ask]
      cases hg : coeffInput elem d bits s with
      | mk r rest =>
        rw [hg] at hlt
        cases r with
        | ok v => exact ⟨_, rfl, by simp⟩
        | abort => exact ⟨_, rfl, by simp⟩
        | again =>
          obtain ⟨r, h1, h2⟩ := ih rest.length hlt rest rfl
          refine ⟨r, ?_, h2⟩
          have mono : ∀ (k m : Nat) (t : List Char) (x : Res α × List Char),
              ask (coeffInput elem d bits) k t = some x → k ≤ m →
                ask (coeffInput elem d bits) m t = some x := by
            intro k
            induction k with
            | zero => intro m t x hx; cases hx
            | succ k ihk =>
              intro m t x hx hm
              cases m with
              | zero => omega
              | succ m =>
                rw [ask] at hx ⊢
                cases hc : coeffInput elem d bits t with
                | mk r' rest' =>
                  rw [hc] at hx
                  cases r' with
                  | ok v => exact hx
                  | abort => exact hx
                  | again => exact ihk m rest' x hx (by omega)
          exact mono _ _ _ _ h1 (by simp only at hlt; omega)

/-- C56 is false for the field: at the end of the input neither a binary field nor (in the modes that
read the field once) a prime field ever stops asking. -/
theorem field_ask_diverges (isprime : Int → Bool) (irr : List Bool → Bool) (d : Char) (bits : Nat) (fuel : Nat) :
    ask (fieldOnce isprime d bits) fuel [] = none ∧ ask (binaryInput irr d bits) fuel [] = none := by
  constructor
  · induction fuel with
    | zero => rfl
    | succ n ih => rw [ask]; exact ih
  · induction fuel with
    | zero => rfl
    | succ n ih =>
      rw [ask]
      have : binaryInput irr d bits [] = (.again, []) := by
        unfold binaryInput
        have h : inputShort d [] = (-2, []) := rfl
        rw [h]
        dsimp only
        rw [if_pos (by omega)]
      rw [this]
      exact ih

/-! ## C57: typed fields -/

/-- C57, prime fields: what is accepted is a prime, at most `2^bits`, and it is the integer read from the line; and every
decimal numeral of such a prime is accepted as it is. -/
theorem prime_field_input (isprime : Int → Bool) (hip : ∀ p, isprime p = true ↔ ∃ n : Nat, n.Prime ∧ p = n)
    (d : Char) (hd : d = '\n' ∨ d = ',') (bits : Nat) :
    (∀ s p rest, fieldInput isprime d bits s = (.ok p, rest) →
      (∃ n : Nat, n.Prime ∧ p = n ∧ n ≤ 2 ^ bits) ∧ inputI d bits s = (p, rest)) ∧
    (∀ (n : Nat) rest, n.Prime → n ≤ 2 ^ bits → fieldInput isprime d bits (decimal n ++ d :: rest) = (.ok (n : Int), rest)) ∧
    (∀ (n : Nat) rest, ¬ n.Prime → fieldInput isprime d bits (decimal n ++ d :: rest) = (.again, rest)) := by
  refine ⟨?_, ?_, ?_⟩
  · intro s p rest h
    unfold fieldInput inputPrime at h
    dsimp only at h
    cases hi : inputI d bits s with
    | mk v r =>
      rw [hi] at h
      simp only at h
      by_cases h1 : v = -1 ∨ v = -2
      · rw [if_pos h1] at h
        rcases h1 with rfl | rfl <;> simp at h
      · rw [if_neg h1] at h
        by_cases h2 : isprime v = true
        · rw [if_pos h2] at h
          simp only [not_or] at h1
          rw [if_neg h1.1, if_neg h1.2] at h
          simp only [Prod.mk.injEq, Res.ok.injEq] at h
          obtain ⟨rfl, rfl⟩ := h
          obtain ⟨n, hn, rfl⟩ := (hip v).1 h2
          refine ⟨⟨n, hn, rfl, ?_⟩, rfl⟩
          have hle : ∀ t, (inputI d bits t).1 ≤ 2 ^ bits := by
            intro t
            have h0 : (0 : Int) ≤ 2 ^ bits := by positivity
            unfold inputI
            dsimp only
            split
            · simp only; omega
            · split
              · simp only; omega
              · split
                · split
                  · assumption
                  · simp only; omega
                · split
                  · assumption
                  · simp only; omega
          have := hle s
          rw [hi] at this
          have h3 : (n : Int) ≤ 2 ^ bits := this
          exact_mod_cast h3
        · rw [if_neg h2] at h
          simp at h
  · intro n rest hn hle
    unfold fieldInput inputPrime
    rw [(inputI_decimal_partial d hd bits n hle rest).1]
    have := hn.two_le
    have e : (if (n : Int) = -1 ∨ (n : Int) = -2 then ((n : Int), rest)
        else if isprime n = true then ((n : Int), rest) else (-1, rest)) = ((n : Int), rest) := by
      rw [if_neg (by omega), if_pos ((hip n).2 ⟨n, hn, rfl⟩)]
    simp only [e]
    rw [if_neg (by omega), if_neg (by omega)]
  · intro n rest hn
    unfold fieldInput inputPrime
    by_cases hle : n ≤ 2 ^ bits
    · rw [(inputI_decimal_partial d hd bits n hle rest).1]
      have hnp : ¬ isprime n = true := by
        intro h
        obtain ⟨k, hk, e⟩ := (hip _).1 h
        exact hn (by rwa [Int.ofNat_inj.1 e])
      have e : (if (n : Int) = -1 ∨ (n : Int) = -2 then ((n : Int), rest)
          else if isprime n = true then ((n : Int), rest) else (-1, rest)) = (-1, rest) := by
        rw [if_neg (by omega), if_neg hnp]
      simp only [e]
      rfl
    · rw [(inputI_errors d hd bits n (by omega) rest).2.2]
      rfl

/-- the coefficients (constant term first) of `x^m + Σ x^e + 1` over the positive exponents `e` of a list -/
def trinomialLike (m : Nat) (es : List Int) : List Bool :=
  (List.range (m + 1)).map fun i => i = m ∨ i = 0 ∨ ((i : Int) ∈ es)

theorem setExp_length (v : List Bool) (e : Int) : (setExp v e).length = v.length := by unfold setExp; split <;> simp

theorem setExp_get (v : List Bool) (e : Int) (i : Nat) (hi : i < v.length) (h0 : 0 < i) :
    (setExp v e)[i]'(by rw [setExp_length]; exact hi) = (decide ((i : Int) = e) || v[i]) := by
  by_cases he : 0 < e
  · have e1 : setExp v e = v.set e.toNat true := by unfold setExp; rw [if_pos he]
    simp only [e1, List.getElem_set]
    by_cases h : e.toNat = i
    · rw [if_pos h]
      have : (i : Int) = e := by omega
      simp [this]
    · rw [if_neg h]
      have : (i : Int) ≠ e := by omega
      simp [this]
  · have e1 : setExp v e = v := by unfold setExp; rw [if_neg he]
    simp only [e1]
    have : (i : Int) ≠ e := by omega
    simp [this]

theorem binary_vector (m : Nat) (e1 e2 e3 : Int) :
    (setExp (setExp (setExp ((List.replicate (m + 1) false).set m true) e1) e2) e3).set 0 true =
      trinomialLike m [e1, e2, e3] := by
  apply List.ext_getElem
  · simp [trinomialLike, setExp_length]
  · intro i h1 h2
    have hi : i < m + 1 := by simpa [trinomialLike] using h2
    rw [List.getElem_set]
    simp only [trinomialLike, List.getElem_map, List.getElem_range]
    by_cases h0 : i = 0
    · simp [h0]
    · rw [if_neg (fun h => h0 h.symm), setExp_get _ _ _ (by simpa [setExp_length] using hi) (by omega),
        setExp_get _ _ _ (by simpa [setExp_length] using hi) (by omega), setExp_get _ _ _ (by simpa using hi) (by omega),
        List.getElem_set]
      simp only [List.getElem_replicate, List.mem_cons, List.not_mem_nil, or_false]
      by_cases hm : m = i
      · simp [hm]
      · have : ¬ i = m := fun h => hm h.symm
        rw [if_neg hm]
        simp only [this, h0, false_or, Bool.or_false]
        by_cases a : (i : Int) = e1 <;> by_cases b : (i : Int) = e2 <;> by_cases c : (i : Int) = e3 <;>
          simp [a, b, c]

/-- C57, binary fields, soundness: an accepted polynomial has degree `bits`, constant term 1, in between exactly the
positive ones of the three integers read, it passed the irreducibility test, and not all three were zero. -/
theorem binary_field_sound (irr : List Bool → Bool) (d : Char) (bits : Nat) (s : List Char) (v : List Bool)
    (rest : List Char) (h : binaryInput irr d bits s = (.ok v, rest)) :
    ∃ e1 e2 e3 s1 s2 s3, inputShort d s = ((bits : Int), s1) ∧ inputShort d s1 = (e1, s2) ∧ inputShort d s2 = (e2, s3) ∧
      inputShort d s3 = (e3, rest) ∧ (∀ e ∈ [e1, e2, e3], e ≠ -1 ∧ e ≤ bits) ∧ ¬ (e1 = 0 ∧ e2 = 0 ∧ e3 = 0) ∧
      v = trinomialLike bits [e1, e2, e3] ∧ irr v = true := by
  unfold binaryInput at h
  cases h0 : inputShort d s with
  | mk m s1 =>
    rw [h0] at h
    simp only at h
    by_cases hm : m = bits
    · subst hm
      rw [if_neg (by simp)] at h
      cases h1 : inputShort d s1 with
      | mk e1 s2 =>
        rw [h1] at h
        simp only at h
        by_cases c1 : e1 = -1 ∨ (bits : Int) < e1
        · rw [if_pos c1] at h; simp at h
        rw [if_neg c1] at h
        cases h2 : inputShort d s2 with
        | mk e2 s3 =>
          rw [h2] at h
          simp only at h
          by_cases c2 : e2 = -1 ∨ (bits : Int) < e2
          · rw [if_pos c2] at h; simp at h
          rw [if_neg c2] at h
          cases h3 : inputShort d s3 with
          | mk e3 s4 =>
            rw [h3] at h
            simp only at h
            by_cases c3 : e3 = -1 ∨ (bits : Int) < e3
            · rw [if_pos c3] at h; simp at h
            rw [if_neg c3] at h
            by_cases c4 : e1 = 0 ∧ e2 = 0 ∧ e3 = 0
            · rw [if_pos c4] at h; simp at h
            rw [if_neg c4, Int.toNat_natCast, binary_vector] at h
            split at h
            · rename_i hirr
              simp only [Prod.mk.injEq, Res.ok.injEq] at h
              obtain ⟨rfl, rfl⟩ := h
              refine ⟨e1, e2, e3, s1, s2, s3, rfl, h1, h2, h3, ?_, c4, rfl, hirr⟩
              simp only [not_or] at c1 c2 c3
              simp only [List.mem_cons, List.not_mem_nil, or_false]
              rintro e (rfl | rfl | rfl)
              · exact ⟨c1.1, by omega⟩
              · exact ⟨c2.1, by omega⟩
              · exact ⟨c3.1, by omega⟩
            · simp at h
    · rw [if_pos hm] at h; simp at h

/-- C57, binary fields, completeness: the decimal lines `bits`, `e1`, `e2`, `e3` with exponents up to `bits`, not all zero,
give the polynomial with these exponents exactly when it is irreducible. -/
theorem binary_field_complete (irr : List Bool → Bool) (d : Char) (hd : d = '\n' ∨ d = ',') (bits e1 e2 e3 : Nat)
    (hb : bits ≤ 2 ^ 16) (h1 : e1 ≤ bits) (h2 : e2 ≤ bits) (h3 : e3 ≤ bits) (hne : ¬ (e1 = 0 ∧ e2 = 0 ∧ e3 = 0))
    (rest : List Char) :
    binaryInput irr d bits (decimal bits ++ d :: (decimal e1 ++ d :: (decimal e2 ++ d :: (decimal e3 ++ d :: rest)))) =
      (if irr (trinomialLike bits [e1, e2, e3]) then .ok (trinomialLike bits [e1, e2, e3]) else .again, rest) := by
  unfold binaryInput inputShort
  rw [(inputI_decimal_partial d hd 16 bits hb _).1]
  simp only
  rw [if_neg (by simp), (inputI_decimal_partial d hd 16 e1 (by omega) _).1]
  simp only
  rw [if_neg (by omega), (inputI_decimal_partial d hd 16 e2 (by omega) _).1]
  simp only
  rw [if_neg (by omega), (inputI_decimal_partial d hd 16 e3 (by omega) _).1]
  simp only
  rw [if_neg (by omega), if_neg (by omega), Int.toNat_natCast, binary_vector]
  split <;> rfl

/-- C57 is false for incomplete input: when the input ends after the first exponent, the missing ones count as absent
and the field is accepted. -/
theorem binary_field_eof_false (irr : List Bool → Bool) (h : irr (trinomialLike 3 [1]) = true) :
    binaryInput irr '\n' 3 "3\n1\n".toList = (.ok (trinomialLike 3 [1]), []) := by
  have e : trinomialLike 3 [1] = [true, true, false, true] := by decide
  rw [e] at h ⊢
  have h0 : inputShort '\n' "3\n1\n".toList = (3, "1\n".toList) := by decide
  have h1 : inputShort '\n' "1\n".toList = (1, []) := by decide
  have h2 : inputShort '\n' [] = (-2, []) := by decide
  unfold binaryInput
  rw [h0]
  simp only [h1, h2]
  rw [if_neg (by decide), if_neg (by decide), if_neg (by decide), if_neg (by decide)]
  have hv : (setExp (setExp (setExp ((List.replicate (3 + 1) false).set (3 : Int).toNat true) 1) (-2)) (-2)).set 0 true =
    [true, true, false, true] := by decide
  simp only [hv, h, if_true]
  rw [if_neg (by decide)]

/-! ## C58: typed strings and orders -/

/-- C58: a terminated line is returned without its terminator, and exactly that line is consumed. -/
theorem inputString_line (d : Char) (l rest : List Char) (h : d ∉ l) :
    inputString d (l ++ d :: rest) = (l, rest) := by
  unfold inputString
  rw [getdelim_line d l rest h]
  simp only [List.length_append, List.length_singleton]
  cases l with
  | nil => rfl
  | cons c l => rw [if_neg (by simp), List.dropLast_concat]

/-- C58 is false for the last line of an input without terminator: its last character is lost. -/
theorem inputString_eof_false (d : Char) (l : List Char) (h : d ∉ l) : inputString d l = (l.dropLast, []) := by
  unfold inputString
  rw [getdelim_eof d l h]
  simp only
  match l with
  | [] => rfl
  | [c] => rfl
  | a :: b :: l => rw [if_neg (by simp)]

/-- C58: a typed order is used as it is -/
theorem order_input (d : Char) (hd : d = '\n' ∨ d = ',') (bits n : Nat) (h : n ≤ 2 ^ bits) (rest : List Char) :
    orderInput d bits (decimal n ++ d :: rest) = (.ok (n : Int), rest) := by
  unfold orderInput inputInt
  rw [(inputI_decimal_partial d hd bits n h rest).1]
  simp only
  rw [if_neg (by omega)]

/-- C58 is false at the end of the input: the order becomes -2. It is also false for orders above `2^bits`, which Hasse's
bound allows: they are refused. -/
theorem order_input_false (bits n : Nat) (hn : 2 ^ bits < n) (rest : List Char) :
    orderInput '\n' bits [] = (.ok (-2), []) ∧
    orderInput '\n' bits (decimal n ++ '\n' :: rest) = (.again, rest) := by
  refine ⟨rfl, ?_⟩
  unfold orderInput inputInt
  rw [(inputI_errors '\n' (Or.inl rfl) bits n hn rest).2.2]
  rfl

example : inputString '\n' "ab12\nrest".toList = ("ab12".toList, "rest".toList) := by decide
example : inputString '\n' "ab12".toList = ("ab1".toList, []) := by decide

end Ecgen.Input
