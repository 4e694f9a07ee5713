import Verif.Str.Model
import Verif.Bits.Model

/-!
# Model of the printing of curves

`/repo/src/io/output.c` (`output_jjson`, `output_json_point`), `/repo/src/gen/field.c` (`field_params`, `field_elementi`, `field_ielement`)
and `/repo/src/gen/hex.c`.

PARI's `pari_sprintf` conversions `%P#x` and `%P0#*x` of a nonnegative `t_INT` are modelled by `px` below: `0x`, then the digits, lower case,
filled up with zeros to the width, which does not count the prefix (as in README.md:113, `"0x0aa1…"` for 128 bits). A `t_FFELT` of
characteristic 2 is the list of the coefficients of its reduced polynomial, highest degree first, as `gtovec(FF_to_FpXQ(x))` gives it.
JSON values are trees; `Verif.Parson` has the calls of the parson library and the text it makes. The text of the metadata, made by `%Pi`, is not modelled.
-/

namespace Ecgen.Output

abbrev Text := List Char

/-! ## Numbers -/

/-- the hex digits of a number behind those in `acc`, lowest first -/
def hexLoop : Nat → Nat → Text → Text
  | 0, _, acc => acc
  | fuel + 1, n, acc => if n = 0 then acc else hexLoop fuel (n / 16) (Bits.hexDigit (n % 16) :: acc)

/-- the hex digits of a number, highest first; `0` for zero -/
def hexText (n : Nat) : Text := if n = 0 then ['0'] else hexLoop (n.log2 + 1) n []

/-- `pari_sprintf("%P0#*x", width, n)`; `%P#x` is width 0 -/
def px (width : Nat) (n : Nat) : Text :=
  let d := hexText n
  ['0', 'x'] ++ (List.replicate (width - d.length) '0' ++ d)

/-! ## Fields -/

/-- a field as in `curve->field`: a prime, or the modulus of a binary field, coefficients highest degree first -/
inductive Field where
  | prime (p : Nat)
  | binary (modulus : List Bool)
  deriving DecidableEq, Repr

/-- a field element: `t_INT`, `t_INTMOD`, or `t_FFELT` -/
inductive Elt where
  | int (n : Nat)
  | intmod (n p : Nat)
  | ff (coeffs : List Bool)
  deriving DecidableEq, Repr

/-- PARI's `fromdigits(v, 2)` -/
def fromDigits (v : List Bool) : Nat := v.foldl (fun n b => 2 * n + b.toNat) 0

/-- PARI's `digits(n, 2)` -/
def digits2Loop : Nat → Nat → List Bool → List Bool
  | 0, _, acc => acc
  | fuel + 1, n, acc => if n = 0 then acc else digits2Loop fuel (n / 2) ((n % 2 == 1) :: acc)

/-- PARI's `digits(n, 2)`: none for zero -/
def digits2 (n : Nat) : List Bool := digits2Loop (n.log2 + 1) n []

/-- `field_elementi`, field.c:148-165 -/
def elementi : Elt → Nat
  | .int n => n
  | .intmod n p => n % p
  | .ff v => fromDigits v

/-- `field_ielement`, field.c:167-182. `gtopoly` drops leading zeros, of which `digits` makes none. Integers of more digits than the field
has are not reduced by `Fq_to_FF`; that call is outside the model. -/
def ielement (f : Field) (n : Nat) : Option Elt :=
  match f with
  | .prime p => some (.intmod (n % p) p)
  | .binary modulus => if (digits2 n).length < modulus.length then some (.ff (digits2 n)) else none

/-- the loop of `field_params`, field.c:132-142: `v` holds the coefficients of the degrees from `v.length` down to 1, `j` slots of `out`
are filled; a fifth nonzero coefficient is written past the end of the vector -/
def paramsLoop : List Bool → List Nat → Option (List Nat)
  | [], out => if out.length ≤ 4 then some (out ++ List.replicate (4 - out.length) 0) else none
  | c :: v, out => if out.length ≤ 4 then paramsLoop v (if c then out ++ [(c :: v).length] else out) else none

/-- `field_params` for a binary field, field.c:121-146 -/
def fieldParams (modulus : List Bool) : Option (List Nat) := paramsLoop modulus.dropLast []

/-! ## Curves -/

/-- `point_t` -/
structure Point where
  x : Elt
  y : Elt
  order : Nat
  cofactor : Option Nat
  deriving DecidableEq, Repr

/-- `subgroup_t` -/
structure Subgroup where
  generator : Point
  points : List Point
  deriving DecidableEq, Repr

/-- `curve_t`, without the PARI curve object; `info` is the printed metadata, name and text -/
structure Curve where
  seed : Option Bits.Bits
  field : Field
  a : Elt
  b : Elt
  order : Nat
  gens : List Subgroup
  info : List (String × Text)

/-- JSON values that occur -/
inductive Json where
  | str (s : Text)
  | obj (fields : List (String × Json))
  | arr (items : List Json)

/-- `output_json_point`, output.c:27-49; `width` is `cfg->hex_digits` -/
def jsonPoint (width : Nat) (p : Point) : List (String × Json) :=
  [("x", .str (px width (elementi p.x))), ("y", .str (px width (elementi p.y))), ("order", .str (px 0 p.order))] ++
    match p.cofactor with
    | some c => [("cofactor", .str (px 0 c))]
    | none => []

/-- the text of the seed, output.c:84-101: `hex` has room for `strlen(hex_str) + 3` characters -/
def seedText (seed : Bits.Bits) : Option Text :=
  (Bits.toHex seed).bind fun hex =>
    let start := if seed.sign then ['-', '0'] else ['0', 'x']
    -- `strcat`, then `hex[2] = 'x'`
    let s := start ++ hex
    if seed.sign then (if 2 < s.length then some (s.set 2 'x') else none) else some s

/-- the field, output.c:57-83 -/
def jsonField (width : Nat) (f : Field) : Option Json :=
  match f with
  | .prime p => some (.obj [("p", .str (px width p))])
  | .binary modulus =>
    (fieldParams modulus).map fun e =>
      .obj [("m", .str (px 0 (e.getD 0 0))), ("e1", .str (px 0 (e.getD 1 0))), ("e2", .str (px 0 (e.getD 2 0))),
        ("e3", .str (px 0 (e.getD 3 0)))]

/-- a subgroup, output.c:116-133 -/
def jsonSubgroup (width : Nat) (g : Subgroup) : Json :=
  .obj (jsonPoint width g.generator ++
    if g.points ≠ [] then [("points", .arr (g.points.map fun p => .obj (jsonPoint width p)))] else [])

/-- `output_jjson`, output.c:51-176 -/
def outputJson (width : Nat) (c : Curve) : Option Json :=
  (jsonField width c.field).bind fun f =>
    let tail : List (String × Json) :=
      [("a", .str (px width (elementi c.a))), ("b", .str (px width (elementi c.b))), ("order", .str (px width c.order))] ++
      (if c.gens ≠ [] then [("subgroups", .arr (c.gens.map (jsonSubgroup width)))] else []) ++
      (if c.info ≠ [] then [("meta", .obj (c.info.map fun x => (x.1, .str x.2)))] else [])
    match c.seed with
    | some s => (seedText s).map fun t => .obj (("field", f) :: ("seed", .str t) :: tail)
    | none => some (.obj (("field", f) :: tail))

/-! ## The hex search -/

/-- `strstr(s, p) != NULL` -/
def strstr (p : Text) : Text → Bool
  | [] => p.isPrefixOf []
  | c :: s => p.isPrefixOf (c :: s) || strstr p s

/-- `hex_point`, hex.c:12-21 -/
def hexPoint (width : Nat) (p : Point) : Option Text :=
  Str.strJoinv (some [',']) [px width (elementi p.x), px width (elementi p.y)]

/-- all of the list or nothing -/
def allSome {α : Type} : List (Option α) → Option (List α)
  | [] => some []
  | none :: _ => none
  | some a :: l => (allSome l).map (a :: ·)

/-- `hex_points`, hex.c:23-41: the buffer is just large enough -/
def hexPoints (width : Nat) (ps : List Point) : Option Text :=
  (allSome (ps.map (hexPoint width))).map List.flatten

/-- the parameters searched by `hex_check_param` at the stage `points` or later, hex.c:53-106 -/
def hexParams (width : Nat) (c : Curve) : Option (List Text) :=
  (match c.seed with
    | some s => (Bits.toHex s).map fun h => [h]
    | none => some []).bind fun seed =>
  (allSome (c.gens.map fun (g : Subgroup) => hexPoint width g.generator)).bind fun gs =>
  (Str.strJoin (some [',']) (gs.map some)).bind fun g =>
  (allSome (c.gens.map fun (g : Subgroup) => hexPoints width g.points)).bind fun ps =>
  (Str.strJoin (some [',']) (ps.map some)).map fun p =>
    seed ++
    (match c.field with
      | .prime q => [px width q]
      | .binary _ => []) ++
    [px width (elementi c.a), px width (elementi c.b), px width c.order, g, p]

/-- `tolower` in the C locale -/
def lower (c : Char) : Char := if 65 ≤ c.toNat ∧ c.toNat ≤ 90 then Char.ofNat (c.toNat + 32) else c

/-- `hex_check_param` at the stage `points` (state 7), hex.c:43-121: 1 accepts, -6 steps back to the field -/
def hexCheck (width : Nat) (pattern : Text) (c : Curve) : Option Int :=
  (hexParams width c).map fun ps => if ps.any fun s => strstr (pattern.map lower) s then 1 else 1 - 7

end Ecgen.Output
