import Verif.Json.Spec

/-!
# Model of `exhaustive_generate` (`/repo/src/exhaustive/exhaustive.c`, 466-488)

The printed text as tokens: `output_o_begin` is `[`, `output_o_separator` is `,`, `output_o_end` is `]` (output.c:186-190).
`gen` is a run of `exhaustive_gen` for a fresh curve in world `w`; `none` is a failure.
-/

namespace Ecgen.Json

variable {κ σ : Type}

/-- the loop over `i`, exhaustive.c:469-484; `left` is `count - i`. Returns the printed tokens and the exit status. -/
def generateLoop (gen : σ → Option κ × σ) (count : Nat) : Nat → σ → List (Tok κ) × Int
  | 0, _ => ([], 0)
  | left + 1, w =>
    let i := count - (left + 1)
    match gen w with
    | (none, _) => ([], 1)
    | (some c, w') =>
      let r := generateLoop gen count left w'
      ((if i ≠ count - 1 then [.obj c, .comma] else [.obj c]) ++ r.1, r.2)

/-- `exhaustive_generate` -/
def generate (gen : σ → Option κ × σ) (count : Nat) (w : σ) : List (Tok κ) × Int :=
  let r := generateLoop gen count count w
  (.open :: r.1 ++ [.close], r.2)

end Ecgen.Json
