import Verif.Cli.Spec

/-!
# Lemmas about the option parser
-/

namespace Ecgen.Cli

/-- attributes of the configuration that every key changes in a way that depends on the attribute and the key alone -/
theorem parseAll_attr {α : Type} (n : Int) (f : Config → α) (g : α → Opt → α)
    (h : ∀ c c' o, parse1 n c o = some c' → f c' = g (f c) o) :
    ∀ os c c', parseAll n c os = some c' → f c' = os.foldl g (f c) := by
  intro os
  induction os with
  | nil => intro c c' hc; simp only [parseAll, Option.some.injEq] at hc; subst hc; rfl
  | cons o os ih =>
    intro c c' hc
    simp only [parseAll, Option.bind_eq_some_iff] at hc
    obtain ⟨d, hd, hc⟩ := hc
    rw [List.foldl_cons, ← h c d o hd]
    exact ih d c' hc

theorem foldl_or (p : Opt → Bool) : ∀ (os : List Opt) (b : Bool), os.foldl (fun b o => b || p o) b = (b || os.any p) := by
  intro os
  induction os with
  | nil => simp
  | cons o os ih => intro b; rw [List.foldl_cons, ih, List.any_cons, Bool.or_assoc]

/-- flags that are only ever switched on -/
theorem parseAll_flag (n : Int) (f : Config → Bool) (p : Opt → Bool)
    (h : ∀ c c' o, parse1 n c o = some c' → f c' = (f c || p o)) (os : List Opt) (c c' : Config)
    (hc : parseAll n c os = some c') : f c' = (f c || os.any p) := by
  rw [parseAll_attr n f (fun b o => b || p o) h os c c' hc, foldl_or]

/-- invariants of the parser -/
theorem parseAll_inv (n : Int) (P : Config → Prop) (h : ∀ c c' o, P c → parse1 n c o = some c' → P c') :
    ∀ os c c', P c → parseAll n c os = some c' → P c' := by
  intro os
  induction os with
  | nil => intro c c' hp hc; simp only [parseAll, Option.some.injEq] at hc; subst hc; exact hp
  | cons o os ih =>
    intro c c' hp hc
    simp only [parseAll, Option.bind_eq_some_iff] at hc
    obtain ⟨d, hd, hc⟩ := hc
    exact ih d c' (h c d o hp hd) hc

/-- all the ways in which a key can be accepted -/
syntax "parse_cases " ident : tactic
macro_rules
  | `(tactic| parse_cases $h:ident) => `(tactic| (
      unfold parse1 seeded at $h:ident
      split at $h:ident <;> (try dsimp only at $h:ident) <;> (repeat' split at $h:ident) <;>
        first
        | (cases $h:ident; done)
        | (simp only [Option.map_eq_some_iff] at $h:ident; obtain ⟨_, _, h'⟩ := $h:ident; subst h')
        | (simp only [Option.some.injEq] at $h:ident; subst $h:ident)))


/-! ### Bit sets -/

theorem or_lt4 (a : Nat) (h : a < 4) : (a ||| 1 < 4) ∧ (a ||| 2 < 4) :=
  ⟨Nat.or_lt_two_pow (n := 2) h (by decide), Nat.or_lt_two_pow (n := 2) h (by decide)⟩

theorem field_lt (n : Int) (c c' : Config) (o : Opt) (hc : c.field < 4) (h : parse1 n c o = some c') : c'.field < 4 := by
  parse_cases h <;> (try simp only [Config.mark]) <;> first
    | exact hc
    | exact (or_lt4 _ hc).1
    | exact (or_lt4 _ hc).2

theorem field_bit0 (n : Int) (c c' : Config) (o : Opt) (h : parse1 n c o = some c') :
    c'.field.testBit 0 = (c.field.testBit 0 || decide (o = .fp)) := by
  parse_cases h <;> simp [Config.mark, FIELD_PRIME, FIELD_BINARY]

theorem field_bit1 (n : Int) (c c' : Config) (o : Opt) (h : parse1 n c o = some c') :
    c'.field.testBit 1 = (c.field.testBit 1 || decide (o = .f2m)) := by
  have e1 : Nat.testBit 1 1 = false := by decide
  have e2 : Nat.testBit 2 1 = true := by decide
  parse_cases h <;> simp [Config.mark, Nat.testBit_or, FIELD_PRIME, FIELD_BINARY, e1, e2]

theorem method_lt (n : Int) (c c' : Config) (o : Opt) (hc : c.method < 128) (h : parse1 n c o = some c') : c'.method < 128 := by
  parse_cases h <;> (try simp only [Config.mark]) <;> first
    | exact hc
    | exact Nat.or_lt_two_pow (n := 7) hc (by decide)

/-- position of a method's bit -/
def pos : Spec.Kind → Nat
  | .cm => 0 | .anomalous => 1 | .seed => 2 | .invalid => 3 | .twist => 4 | .supersingular => 5 | .family => 6

theorem method_bit (k : Spec.Kind) (n : Int) (c c' : Config) (o : Opt) (h : parse1 n c o = some c') :
    c'.method.testBit (pos k) = (c.method.testBit (pos k) || decide (Spec.kind o = some k)) := by
  have hb (m i : Nat) (b : Bool) (h : Nat.testBit m i = b) : (c.method ||| m).testBit i = (c.method.testBit i || b) := by
    rw [Nat.testBit_or, h]
  parse_cases h <;> (try simp only [Config.mark]) <;> cases k <;>
    first
    | (exact (Bool.or_false _).symm)
    | (exact hb _ _ _ rfl)

theorem prime_flag (n : Int) (c c' : Config) (o : Opt) (h : parse1 n c o = some c') :
    c'.prime = (c.prime || decide (Spec.constraint o = some .prime)) := by
  parse_cases h <;> simp [Config.mark, Spec.constraint]

theorem smooth_flag (n : Int) (c c' : Config) (o : Opt) (h : parse1 n c o = some c') :
    c'.smooth = (c.smooth || decide (Spec.constraint o = some .smooth)) := by
  parse_cases h <;> simp [Config.mark, Spec.constraint]

theorem cofactor_flag (n : Int) (c c' : Config) (o : Opt) (h : parse1 n c o = some c') :
    c'.cofactor = (c.cofactor || decide (Spec.constraint o = some .cofactor)) := by
  parse_cases h <;> simp [Config.mark, Spec.constraint]

/-- the last option of a kind wins -/
theorem algo_attr (n : Int) (c c' : Config) (o : Opt) (h : parse1 n c o = some c') :
    c'.seedAlgo = (Spec.algo o).getD c.seedAlgo := by
  parse_cases h <;> simp [Config.mark, Spec.algo]

theorem count_attr (n : Int) (c c' : Config) (o : Opt) (h : parse1 n c o = some c') (ho : ∀ s, o ≠ .count s) :
    c'.count = c.count := by
  parse_cases h <;> first | rfl | exact absurd rfl (ho _)

theorem memory_attr (n : Int) (c c' : Config) (o : Opt) (h : parse1 n c o = some c') (ho : ∀ s, o ≠ .memory s) :
    c'.memory = c.memory := by
  parse_cases h <;> first | rfl | exact absurd rfl (ho _)

theorem threads_attr (n : Int) (c c' : Config) (o : Opt) (h : parse1 n c o = some c') (ho : ∀ s, o ≠ .threads s) :
    c'.threads = c.threads := by
  parse_cases h <;> first | rfl | exact absurd rfl (ho _)

theorem threadMemory_attr (n : Int) (c c' : Config) (o : Opt) (h : parse1 n c o = some c') (ho : ∀ s, o ≠ .threadStack s) :
    c'.threadMemory = c.threadMemory := by
  parse_cases h <;> first | rfl | exact absurd rfl (ho _)

theorem timeout_attr (n : Int) (c c' : Config) (o : Opt) (h : parse1 n c o = some c') (ho : ∀ s, o ≠ .timeout s) :
    c'.timeout = c.timeout := by
  parse_cases h <;> first | rfl | exact absurd rfl (ho _)

theorem koblitz_inv (n : Int) (c c' : Config) (o : Opt) (hc : c.koblitzValue = 0 ∨ c.koblitzValue = 1)
    (h : parse1 n c o = some c') : c'.koblitzValue = 0 ∨ c'.koblitzValue = 1 := by
  parse_cases h <;> first | exact hc | skip
  rename_i h
  simp only [Config.mark] at h ⊢
  omega

/-- the configuration after a whole list that leaves an attribute alone -/
theorem parseAll_same {α : Type} (n : Int) (f : Config → α) (p : Opt → Prop)
    (h : ∀ c c' o, parse1 n c o = some c' → p o → f c' = f c) :
    ∀ os c c', (∀ o ∈ os, p o) → parseAll n c os = some c' → f c' = f c := by
  intro os
  induction os with
  | nil => intro c c' _ hc; simp only [parseAll, Option.some.injEq] at hc; rw [hc]
  | cons o os ih =>
    intro c c' hp hc
    simp only [parseAll, Option.bind_eq_some_iff] at hc
    obtain ⟨d, hd, hc⟩ := hc
    rw [ih d c' (fun o ho => hp o (List.mem_cons_of_mem _ ho)) hc, h c d o hd (hp o List.mem_cons_self)]

/-- what is known about a configuration that was reached by the options `os` -/
theorem parseAll_trace (n : Int) (P : List Opt → Config → Prop)
    (h : ∀ os c c' o, P os c → parse1 n c o = some c' → P (os ++ [o]) c') :
    ∀ os c0 c c', P c0 c → parseAll n c os = some c' → P (c0 ++ os) c' := by
  intro os
  induction os with
  | nil => intro c0 c c' hp hc; simp only [parseAll, Option.some.injEq] at hc; subst hc; simpa using hp
  | cons o os ih =>
    intro c0 c c' hp hc
    simp only [parseAll, Option.bind_eq_some_iff] at hc
    obtain ⟨d, hd, hc⟩ := hc
    have := ih (c0 ++ [o]) d c' (h c0 c d o hp hd) hc
    simpa using this

/-- the positional argument -/
def BitsInv (os : List Opt) (c : Config) : Prop :=
  (c.argNum = 0 ∧ (∀ s, Opt.arg s ∉ os) ∧ c.bits = 0 ∧ c.hexDigits = 0) ∨
  (c.argNum = 1 ∧ ∃ s, Opt.arg s ∈ os ∧ c.bits = (strtoul s).1 ∧ (strtoul s).2 = [] ∧ (∀ s', Opt.arg s' ∈ os → s' = s) ∧
    c.hexDigits = 2 * (c.bits / 8 + if c.bits % 8 ≠ 0 then 1 else 0))

theorem bits_same (n : Int) (c c' : Config) (o : Opt) (h : parse1 n c o = some c') (ho : ∀ s, o ≠ .arg s) :
    c'.argNum = c.argNum ∧ c'.bits = c.bits ∧ c'.hexDigits = c.hexDigits := by
  parse_cases h <;> first | exact ⟨rfl, rfl, rfl⟩ | exact absurd rfl (ho _)

theorem bits_inv (n : Int) (os : List Opt) (c c' : Config) (o : Opt) (hc : BitsInv os c) (h : parse1 n c o = some c') :
    BitsInv (os ++ [o]) c' := by
  by_cases ho : ∃ s, o = .arg s
  · obtain ⟨s, rfl⟩ := ho
    simp only [parse1] at h
    by_cases h1 : c.argNum ≥ 1
    · rw [if_pos h1] at h; cases h
    · rw [if_neg h1] at h
      by_cases h2 : (strtoul s).2 ≠ []
      · rw [if_pos h2] at h; cases h
      · rw [if_neg h2] at h
        simp only [Option.some.injEq] at h
        subst h
        rcases hc with ⟨h0, hs, _, _⟩ | ⟨h0, _⟩
        · refine Or.inr ⟨by simp only [h0], s, by simp, rfl, by simpa using h2, ?_, rfl⟩
          intro s' hs'
          rw [List.mem_append] at hs'
          rcases hs' with hs' | hs'
          · exact absurd hs' (hs s')
          · simpa using hs'
        · omega
  · have ho' : ∀ s, o ≠ .arg s := fun s e => ho ⟨s, e⟩
    obtain ⟨e1, e2, e3⟩ := bits_same n c c' o h ho'
    have hm : ∀ s, Opt.arg s ∈ os ++ [o] ↔ Opt.arg s ∈ os := by
      intro s
      simp only [List.mem_append, List.mem_singleton]
      constructor
      · rintro (h | h)
        · exact h
        · exact absurd h.symm (ho' s)
      · exact Or.inl
    unfold BitsInv
    simp only [hm, e1, e2, e3]
    exact hc

/-- the algorithm selected was asked for -/
def AlgoInv (os : List Opt) (c : Config) : Prop :=
  (c.method.testBit 2 = true ↔ c.seedAlgo ≠ .none) ∧ (c.seedAlgo ≠ .none → ∃ o ∈ os, Spec.algo o = some c.seedAlgo)

theorem algo_ne_none (o : Opt) : Spec.algo o ≠ some .none := by cases o <;> simp [Spec.algo]

theorem algo_kind (o : Opt) : (Spec.algo o).isSome = decide (Spec.kind o = some .seed) := by
  cases o <;> simp [Spec.algo, Spec.kind]

theorem algo_inv (n : Int) (os : List Opt) (c c' : Config) (o : Opt) (hc : AlgoInv os c) (h : parse1 n c o = some c') :
    AlgoInv (os ++ [o]) c' := by
  have e1 := algo_attr n c c' o h
  have e2 := method_bit .seed n c c' o h
  have e3 := algo_kind o
  simp only [pos] at e2
  cases ha : Spec.algo o with
  | none =>
    rw [ha] at e1 e3
    simp only [Option.getD_none] at e1
    rw [← e3] at e2
    simp only [Option.isSome_none, Bool.or_false] at e2
    unfold AlgoInv
    rw [e1, e2]
    refine ⟨hc.1, fun hne => ?_⟩
    obtain ⟨o', ho', ho2⟩ := hc.2 hne
    exact ⟨o', List.mem_append_left _ ho', ho2⟩
  | some a =>
    rw [ha] at e1 e3
    simp only [Option.getD_some] at e1
    rw [← e3] at e2
    simp only [Option.isSome_some, Bool.or_true] at e2
    have hane : a ≠ .none := fun e => algo_ne_none o (by rw [ha, e])
    unfold AlgoInv
    rw [e1, e2]
    exact ⟨⟨fun _ => hane, fun _ => rfl⟩, fun _ => ⟨o, by simp, ha⟩⟩

/-- the order to construct -/
def OrderInv (os : List Opt) (c : Config) : Prop :=
  c.method.testBit 0 = true → ∃ s, Opt.order s ∈ os ∧ c.cmOrder = some s

theorem cmOrder_same (n : Int) (c c' : Config) (o : Opt) (h : parse1 n c o = some c') (ho : ∀ s, o ≠ .order s) :
    c'.cmOrder = c.cmOrder := by
  parse_cases h <;> first | rfl | exact absurd rfl (ho _)

theorem order_inv (n : Int) (os : List Opt) (c c' : Config) (o : Opt) (hc : OrderInv os c) (h : parse1 n c o = some c') :
    OrderInv (os ++ [o]) c' := by
  by_cases ho : ∃ s, o = .order s
  · obtain ⟨s, rfl⟩ := ho
    intro _
    refine ⟨s, by simp, ?_⟩
    simp only [parse1] at h
    split at h
    · simp only [Option.some.injEq] at h
      subst h
      rfl
    · cases h
  · have ho' : ∀ s, o ≠ .order s := fun s e => ho ⟨s, e⟩
    have e1 := cmOrder_same n c c' o h ho'
    have e2 := method_bit .cm n c c' o h
    simp only [pos] at e2
    have : Spec.kind o ≠ some .cm := by
      cases o <;> first | exact absurd rfl (ho' _) | simp [Spec.kind]
    simp only [this, decide_false, Bool.or_false] at e2
    intro hb
    rw [e2] at hb
    obtain ⟨s, hs, he⟩ := hc hb
    exact ⟨s, List.mem_append_left _ hs, by rw [e1, he]⟩

/-! ### Seeds -/

theorem hexDigit_iff (c : Char) :
    Str.isxdigit c = true ↔ (('0' ≤ c ∧ c ≤ '9') ∨ ('a' ≤ c ∧ c ≤ 'f') ∨ ('A' ≤ c ∧ c ≤ 'F')) := by
  have h (a b : Char) : a ≤ b ↔ a.toNat ≤ b.toNat := by
    rw [Char.le_def, UInt32.le_iff_toNat_le]; rfl
  simp only [h, Str.isxdigit]
  have e0 : '0'.toNat = 48 := rfl
  have e9 : '9'.toNat = 57 := rfl
  have ea : 'a'.toNat = 97 := rfl
  have ef : 'f'.toNat = 102 := rfl
  have eA : 'A'.toNat = 65 := rfl
  have eF : 'F'.toNat = 70 := rfl
  rw [e0, e9, ea, ef, eA, eF]
  simp only [Bool.or_eq_true, Bool.and_eq_true, decide_eq_true_eq]
  omega

theorem allHex_iff (s : Str) : Str.allHex s = true ↔ Spec.IsHex s := by
  induction s with
  | nil => simp [Str.allHex, Spec.IsHex]
  | cons c s ih =>
    unfold Str.allHex
    unfold Spec.IsHex at ih ⊢
    rw [List.forall_mem_cons, ← ih, ← hexDigit_iff]
    cases Str.isxdigit c <;> simp

theorem strIsHex_body (s t : Str) (h : Str.strIsHex s = some t) : t = Spec.hexBody s ∧ Spec.IsHex t := by
  unfold Str.strIsHex Str.strIsHexOff at h
  simp only [Option.map_eq_some_iff] at h
  obtain ⟨k, hk, rfl⟩ := h
  have hb : s.drop (if s.length > 2 then if s[0]? = some '0' ∧ (s[1]? = some 'x' ∨ s[1]? = some 'X') then 2 else 0 else 0) =
      Spec.hexBody s := by
    unfold Spec.hexBody
    match s with
    | [] => simp
    | [a] => simp
    | a :: b :: s =>
      by_cases hl : (a :: b :: s).length > 2
      · rw [if_pos hl]
        by_cases hx : a = '0' ∧ (b = 'x' ∨ b = 'X')
        · rw [if_pos (by simpa using hx)]
          rw [if_pos]
          refine ⟨hl, ?_⟩
          obtain ⟨rfl, rfl | rfl⟩ := hx
          · exact Or.inl ⟨s, rfl⟩
          · exact Or.inr ⟨s, rfl⟩
        · rw [if_neg (by simpa using hx)]
          rw [if_neg]
          · rfl
          · rintro ⟨_, ⟨t, ht⟩ | ⟨t, ht⟩⟩
            · simp only [List.cons_append, List.nil_append, List.cons.injEq] at ht
              exact hx ⟨ht.1.symm, Or.inl ht.2.1.symm⟩
            · simp only [List.cons_append, List.nil_append, List.cons.injEq] at ht
              exact hx ⟨ht.1.symm, Or.inr ht.2.1.symm⟩
      · rw [if_neg hl, if_neg (fun h => hl h.1)]
        rfl
  by_cases ha : Str.allHex (s.drop (if s.length > 2 then if s[0]? = some '0' ∧ (s[1]? = some 'x' ∨ s[1]? = some 'X') then 2 else 0 else 0)) = true
  · rw [if_pos ha, Option.some.injEq] at hk
    subst hk
    exact ⟨hb, (allHex_iff _).mp ha⟩
  · rw [if_neg ha] at hk; cases hk

theorem ansi_form (s : Str) (h : ansiSeedValid s = true) : Spec.SeedForm .ansi s := by
  unfold ansiSeedValid at h
  split at h
  · rename_i t ht
    obtain ⟨rfl, h2⟩ := strIsHex_body s t ht
    exact ⟨h2, by simpa using h⟩
  · cases h

theorem brainpool_form (s : Str) (h : brainpoolSeedValid s = true) :
    Spec.IsHex (Spec.hexBody s) ∧ (Spec.hexBody s).length = 40 := by
  unfold brainpoolSeedValid at h
  split at h
  · rename_i t ht
    obtain ⟨rfl, h2⟩ := strIsHex_body s t ht
    exact ⟨h2, by simpa using h⟩
  · cases h

/-- a seed was checked by the rule of some algorithm that was asked for together with it -/
def SeedInv (os : List Opt) (c : Config) : Prop :=
  ∀ s, c.seed = some s → ∃ o ∈ os, ∃ a, Spec.algo o = some a ∧ Spec.SeedForm a s

theorem seed_inv (n : Int) (os : List Opt) (c c' : Config) (o : Opt) (hc : SeedInv os c) (h : parse1 n c o = some c') :
    SeedInv (os ++ [o]) c' := by
  have keep : c'.seed = c.seed → SeedInv (os ++ [o]) c' := by
    intro e s hs
    rw [e] at hs
    obtain ⟨o', ho', a, ha, hf⟩ := hc s hs
    exact ⟨o', List.mem_append_left _ ho', a, ha, hf⟩
  parse_cases h <;> first | exact keep rfl | skip
  · rename_i hv
    intro s hs
    simp only [Config.mark, Option.some.injEq] at hs
    subst hs
    exact ⟨_, List.mem_append_right _ List.mem_cons_self, .ansi, rfl, ansi_form _ hv⟩
  · rename_i hv
    intro s hs
    simp only [Config.mark, Option.some.injEq] at hs
    subst hs
    exact ⟨_, List.mem_append_right _ List.mem_cons_self, .brainpool, rfl, brainpool_form _ hv⟩
  · rename_i hv
    intro s hs
    simp only [Config.mark, Option.some.injEq] at hs
    subst hs
    exact ⟨_, List.mem_append_right _ List.mem_cons_self, .brainpoolRfc, rfl, brainpool_form _ hv⟩

end Ecgen.Cli
