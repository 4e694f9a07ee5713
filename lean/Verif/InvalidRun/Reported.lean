import Verif.InvalidRun.Props
import Verif.InvalidRun.Examples

/-!
# What is undefined is not forgotten (C92)

The theorem `invalid_run_defined` says that a run is never found undefined. It says something only if what is undefined cannot get lost: here it is
shown that after an undefined step no search and no run is reported as finished.
-/

namespace Ecgen.InvalidRun

open Output Cli Whole

theorem gen_ub (P : Pari) (bits : Nat) (S : Cli.Setup) (primes : List Nat) (s : Nat) (w : W) (h : w.ub = true) : (gen P bits S primes s w).1.ub = true := by
  unfold gen
  split
  · exact h
  · split
    · rfl
    · split
      · exact h
      · unfold done
        split
        · exact h
        · rfl

theorem check_ub (w : W) (k : Check) (h : w.ub = true) : (check w k).1.ub = true := by
  unfold check
  split
  · split
    · exact h
    · rfl
  · exact h
  · rfl

theorem passes_ub (l : List Check) (w w' : W) (h : w.ub = true) (hp : Engine.Spec.Passes (l.map fun k w => check w k) w w') : w'.ub = true := by
  induction l generalizing w with
  | nil => cases hp; exact h
  | cons k l ih => cases hp with | cons _ hp => exact ih _ (check_ub w k h) hp

theorem rejects_ub (l : List Check) (w w' : W) (d : Int) (h : w.ub = true) (hp : Engine.Spec.Rejects (l.map fun k w => check w k) w d w') : w'.ub = true := by
  induction l generalizing w with
  | nil => cases hp
  | cons k l ih =>
    cases hp with
    | here _ => exact check_ub w k h
    | later _ hp => exact ih _ (check_ub w k h) hp

theorem succeeds_ub {P : Pari} {bits : Nat} {S : Cli.Setup} {primes : List Nat} {s : Nat} {w w' : W} {d : Int} (h : w.ub = true)
    (hs : Engine.Spec.Succeeds (setup P bits S primes) s w d w') : w'.ub = true := by
  obtain ⟨w1, h1, -, h2⟩ := hs
  refine passes_ub _ w1 w' ?_ h2
  have := gen_ub P bits S primes s w h
  rw [show gen P bits S primes s w = _ from h1] at this
  exact this

theorem fails_ub {P : Pari} {bits : Nat} {S : Cli.Setup} {primes : List Nat} {start s : Nat} {w w' : W} {d : Int} (h : w.ub = true)
    (hs : Engine.Spec.Fails (setup P bits S primes) start s w d w') : w'.ub = true := by
  have hg := gen_ub P bits S primes s w h
  rcases hs with ⟨h1, -⟩ | ⟨h1, -⟩ | ⟨w1, g, h1, -, h2⟩ <;> rw [show gen P bits S primes s w = _ from h1] at hg
  · exact hg
  · exact hg
  · exact rejects_ub _ w1 w' d hg h2

theorem cleaned_ub (P : Pari) (bits : Nat) (S : Cli.Setup) (primes : List Nat) (lo : Nat) : ∀ hi (w : W), w.ub = true →
    (Engine.Spec.cleaned (setup P bits S primes) lo hi w).ub = true := by
  intro hi
  induction hi with
  | zero => exact fun w h => h
  | succ i ih =>
    intro w h
    unfold Engine.Spec.cleaned
    split
    · exact ih _ h
    · exact h

/-- **C92** A search begun after something undefined is never reported as finished. -/
theorem undefined_sticks (P : Pari) (bits : Nat) (S : Cli.Setup) (primes : List Nat) (start stop : Nat) (hlt : start < stop) (retry : Int) (fuel : Nat) (w : W)
    (h : w.ub = true) (x : Int × W) : phase P bits S primes start stop retry fuel w ≠ .done x := by
  intro hx
  unfold phase at hx
  cases hg : Engine.genRetry (setup P bits S primes) start stop retry fuel w with
  | none => rw [hg] at hx; cases hx
  | some rs =>
    obtain ⟨r, st⟩ := rs
    rw [hg] at hx
    unfold Engine.genRetry at hg
    rw [if_neg (by omega), if_neg (by omega)] at hg
    have : st.w.ub = true := by
      rcases loop_keeps (setup P bits S primes) start stop retry (fun _ w => w.ub = true) (fun w => w.ub = true)
        (fun s w d w' _ _ h3 h4 => succeeds_ub h3 h4)
        (fun _ s w d w' _ _ h3 h4 _ => cleaned_ub _ _ _ _ _ _ _ (fails_ub h3 h4))
        (fun s w d w' _ _ h3 h4 _ => fails_ub h3 h4) fuel (Engine.init start w) (Nat.le_refl _) h r st hg with ⟨-, -, h1⟩ | ⟨-, h1⟩ <;> exact h1
    simp only [this, if_true] at hx
    cases hx

/-- **C92** No finished search has done anything undefined. -/
theorem finished_defined (P : Pari) (bits : Nat) (S : Cli.Setup) (primes : List Nat) (start stop : Nat) (retry : Int) (fuel : Nat) (w : W) (r : Int) (w' : W)
    (h : phase P bits S primes start stop retry fuel w = .done (r, w')) : w'.ub = false := by
  unfold phase at h
  split at h
  · cases h
  · split at h
    · cases h
    · rename_i hu
      cases h
      simpa using hu

/-- **C92** A run that begins after something undefined is never reported as finished. -/
theorem undefined_run (P : Pari) (np : Nat → Nat) (c : Config) (fuel : Nat) (w : W) (h : w.ub = true) (x : List (Ecgen.Json.Tok Output.Curve) × Int) :
    produce P np c fuel w ≠ .done x := by
  intro hx
  unfold produce at hx
  split at hx
  · cases hx
  · cases hx
  · rename_i r w' hp
    exact undefined_sticks P c.bits (originalSetup c) [] 1 7 (by omega) 0 fuel { w with cur := {} } h _ hp

/-- **C92, met**: undefined steps exist: the generator of the stage of the generators, called without a curve, makes one -/
theorem undefined_met : ∃ (w : W), w.ub = false ∧ TapeOk (original cA) w.tape ∧ (gen pari cA.bits (invalidSetup cA) [] 6 w).1.ub = true := by
  refine ⟨⟨{}, tape, 0, false⟩, rfl, tapeA, ?_⟩
  have e : ((stageOf (invalidSetup cA).gens 6).bind id) = some .gensAny := by decide +kernel
  simp only [gen, W.pick, tape, e]
  rfl

end Ecgen.InvalidRun
