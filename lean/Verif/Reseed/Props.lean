import Verif.Reseed.Lemmas

/-!
# Seeding the generator (C94)

The specification: a call takes the number that the first eight bytes of the device spell, however the reads are split; if it is zero or the
device does not open, the clock is taken.
-/

namespace Ecgen.Reseed

/-- the number that the first eight bytes spell -/
def spelled (b : Nat → UInt8) : Nat :=
  (b 0).toNat + (b 1).toNat * 2 ^ 8 + (b 2).toNat * 2 ^ 16 + (b 3).toNat * 2 ^ 24 + (b 4).toNat * 2 ^ 32 + (b 5).toNat * 2 ^ 40 +
    (b 6).toNat * 2 ^ 48 + (b 7).toNat * 2 ^ 56

theorem value_first (y : Sys) : value (firstBytes y 8) = spelled y.stream := by
  have : firstBytes y 8 = [y.stream 0, y.stream 1, y.stream 2, y.stream 3, y.stream 4, y.stream 5, y.stream 6, y.stream 7] := rfl
  rw [this]
  simp only [value, spelled]
  omega

/-- C94: a call never writes outside its variable, whatever the reads deliver. -/
theorem reseed_defined {y : Sys} (hy : y.Ok) (fuel : Nat) : reseed y fuel ≠ .undefined := by
  unfold reseed
  split
  · rcases loop_inv hy fuel 0 start (start_inv y) with ⟨t, h, -⟩ | ⟨t, h, -⟩ <;> simp [h]
  · simp

/-- C94: a call that ends with the device open has taken all the 64 bits of its first eight bytes, however short the reads were. -/
theorem reseed_device {y : Sys} (hy : y.Ok) {fuel n : Nat} (ho : y.opens = true) (h : reseed y fuel = .seeded n)
    (hz : spelled y.stream ≠ 0) : n = spelled y.stream := by
  unfold reseed at h
  rw [if_pos ho] at h
  rcases loop_inv hy fuel 0 start (start_inv y) with ⟨t, hl, -⟩ | ⟨t, hl, ht⟩
  · simp [hl] at h
  · simp only [hl, Outcome.seeded.injEq] at h
    rw [← h, ht, value_first, fallback, if_neg hz]

/-- C94: and every 64 bits that are not all zero make another seed. -/
theorem reseed_injective {y z : Sys} (hy : y.Ok) (hz : z.Ok) {f g n : Nat} (hoy : y.opens = true) (hoz : z.opens = true)
    (h : reseed y f = .seeded n) (h' : reseed z g = .seeded n) (hy0 : spelled y.stream ≠ 0) (hz0 : spelled z.stream ≠ 0) :
    ∀ i, i < 8 → y.stream i = z.stream i := by
  have e : spelled y.stream = spelled z.stream := (reseed_device hy hoy h hy0).symm.trans (reseed_device hz hoz h' hz0)
  rw [← value_first, ← value_first] at e
  have e := value_inj _ _ (by simp [firstBytes_length]) e
  intro i hi
  have := congrArg (fun l => l[i]?) e
  simpa [firstBytes, hi] using this

/-- C94: without the device the clock is taken, of which there are fewer than 10⁹ values. -/
theorem reseed_clock {y : Sys} (hy : y.Ok) {fuel n t : Nat} (h : reseed y fuel = .seeded n) (hn : y.nsec = some t)
    (hz : y.opens = false ∨ spelled y.stream = 0) : n = t ∧ n < 1000000000 := by
  have ht := hy.nsec t hn
  unfold reseed at h
  split at h
  · rename_i ho
    rcases loop_inv hy fuel 0 start (start_inv y) with ⟨s, hl, -⟩ | ⟨s, hl, hs⟩
    · simp [hl] at h
    · simp only [hl, Outcome.seeded.injEq] at h
      have h0 : spelled y.stream = 0 := hz.resolve_left (by simp [ho])
      rw [hs, value_first, fallback, if_pos h0, hn] at h
      exact ⟨h.symm, h ▸ ht⟩
  · simp only [Outcome.seeded.injEq, start, value_zeros, fallback, if_true, hn] at h
    exact ⟨h.symm, h ▸ ht⟩

/-- C94: the seed fits in the variable. -/
theorem reseed_fits {y : Sys} (hy : y.Ok) {fuel n : Nat} (h : reseed y fuel = .seeded n) : n < 2 ^ 64 := by
  have fb : ∀ v, v < 2 ^ 64 → fallback y v < 2 ^ 64 := by
    intro v hv
    unfold fallback
    split
    · split
      · rename_i t ht
        have := hy.nsec t ht
        omega
      · exact hy.time
    · exact hv
  unfold reseed at h
  split at h
  · rcases loop_inv hy fuel 0 start (start_inv y) with ⟨s, hl, -⟩ | ⟨s, hl, hs⟩
    · simp [hl] at h
    · simp only [hl, Outcome.seeded.injEq] at h
      rw [← h]
      apply fb
      have := value_lt s.seed
      rw [hs, firstBytes_length] at this
      rw [hs]
      omega
  · simp only [Outcome.seeded.injEq] at h
    rw [← h]
    exact fb _ (by rw [start, value_zeros]; omega)

/-- C94: a call ends within eight rounds if every read delivers something. -/
theorem reseed_ends {y : Sys} (hy : y.Ok) (hp : ∀ k n, 0 < n → 0 < y.amount k n) {fuel : Nat} (hf : 8 ≤ fuel) :
    ∃ n, reseed y fuel = .seeded n := by
  unfold reseed
  split
  · obtain ⟨t, ht⟩ := loop_ends hy hp fuel 0 start (start_inv y) (by simpa [start] using hf)
    exact ⟨_, by rw [ht]⟩
  · exact ⟨_, rfl⟩

/-- a system whose device opens, has the bytes 1, 2, 3, …, and delivers one byte at a time -/
def slow : Sys := ⟨true, fun i => UInt8.ofNat (i + 1), fun _ n => min n 1, some 5, 0⟩

/-- The conditions are met: a device that delivers one byte at a time. -/
theorem reseed_met : slow.Ok ∧ (∀ k n, 0 < n → 0 < slow.amount k n) ∧ reseed slow 8 = .seeded 0x0807060504030201 ∧
    spelled slow.stream = 0x0807060504030201 ∧ reseed slow 7 = .running :=
  ⟨⟨fun _ n => Nat.min_le_left n 1, fun t h => by cases h; decide, by decide⟩, fun _ n h => by simp only [slow]; omega, by decide +kernel,
    by decide +kernel, by decide +kernel⟩

/-- a system whose device opens but is at its end from the beginning -/
def atEnd : Sys := ⟨true, fun _ => 0, fun _ _ => 0, some 5, 0⟩

/-- C94 is refuted for devices that end or fail: neither the end of the file nor an error is looked at, so that the program never starts,
although the clock could be taken. -/
theorem reseed_ends_false : atEnd.Ok ∧ ∀ fuel, reseed atEnd fuel = .running := by
  have ok : atEnd.Ok := ⟨fun _ n => Nat.zero_le n, fun t h => by cases h; decide, by decide⟩
  refine ⟨ok, fun fuel => ?_⟩
  obtain ⟨t, ht⟩ := loop_stuck ok fuel 0 start (start_inv _) (by decide) (fun _ _ _ => rfl)
  unfold reseed
  rw [if_pos (show atEnd.opens = true from rfl), ht]

/-- More generally: a call that is still running when the reads cease to deliver never ends. -/
theorem reseed_stuck {y : Sys} (hy : y.Ok) {k : Nat} (hr : reseed y k = .running) (hz : ∀ j, k ≤ j → ∀ n, y.amount j n = 0) (more : Nat) :
    reseed y (k + more) = .running := by
  unfold reseed at hr ⊢
  split at hr
  · rename_i ho
    rw [if_pos ho]
    rcases loop_inv hy k 0 start (start_inv y) with ⟨s, hl, -⟩ | ⟨s, hl, -⟩
    · obtain ⟨t, ht⟩ := loop_stuck_later hy k 0 start (start_inv y) hl (by simpa using hz) more
      rw [ht]
    · simp [hl] at hr
  · cases hr

/-- a system without the device at the start of a second -/
def noDevice : Sys := ⟨false, fun _ => 0, fun _ _ => 0, some 0, 1700000000⟩

/-- C94 is refuted for the seed zero: at the start of a second without the device, `setrand` is given 0, although the time in seconds
is not 0. -/
theorem reseed_nonzero_false : noDevice.Ok ∧ reseed noDevice 0 = .seeded 0 :=
  ⟨⟨fun _ n => Nat.zero_le n, fun t h => by cases h; decide, by decide⟩, by decide +kernel⟩

end Ecgen.Reseed
