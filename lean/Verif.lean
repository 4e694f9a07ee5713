import Verif.Engine.Props
import Verif.Bits.Props
import Verif.Sha1.Props
import Verif.Str.Props
import Verif.Family.Props
import Verif.Input.Props
import Verif.Koblitz.Props
import Verif.Poly.Props
import Verif.Sha1.Eval
import Verif.Ansi.Props
import Verif.Brainpool.Props
import Verif.Brainpool.Witness
import Verif.Subgroup.Props
import Verif.Group.Props
import Verif.Order.Props
import Verif.Nums.Props
import Verif.Cm.Props
import Verif.Cm.ConstructProps
import Verif.Koblitz.PrimeField
import Verif.P1363.Props
import Verif.Meta.Props
import Verif.Twist.Props
import Verif.Json.Props
import Verif.Invalid.Primes
import Verif.Invalid.Props
import Verif.Invalid.Formulas
import Verif.Cli.Props
import Verif.Cli.Units
import Verif.Cli.SetupProps
import Verif.Cli.ReportProps
import Verif.Output.Props
import Verif.Output.HexProps
import Verif.Random.Props
import Verif.Koblitz.Weil
import Verif.Irred.Check
import Verif.Irred.Bits
import Verif.Irred.Sound
import Verif.Irred.Rows
import Verif.Irred.All
import Verif.Irred.Props
import Verif.Irred.Part01
import Verif.Irred.Part02
import Verif.Irred.Part03
import Verif.Irred.Part04
import Verif.Irred.Part05
import Verif.Irred.Part06
import Verif.Irred.Part07
import Verif.Irred.Part08
import Verif.Irred.Part09
import Verif.Irred.Part10
import Verif.Irred.Part11
import Verif.Irred.Part12
import Verif.Cli.Values
import Verif.Files.Model
import Verif.Files.Lemmas
import Verif.Files.Props
import Verif.Engine.Reach
import Verif.Own.Model
import Verif.Own.Lemmas
import Verif.Own.Stages
import Verif.Own.Points
import Verif.Own.Search
import Verif.Own.Props
import Verif.Engine.Forever
import Verif.Unsat.Even
import Verif.Unsat.Props
import Verif.Unsat.Koblitz
import Verif.Unsat.KoblitzProps
import Verif.Parson.Spec
import Verif.Parson.Model
import Verif.Parson.Lemmas
import Verif.Parson.Texts
import Verif.Parson.Unique
import Verif.Parson.Utf8
import Verif.Parson.Output
import Verif.Parson.Refine
import Verif.Parson.Props
import Verif.Stack.Model
import Verif.Stack.Abstract
import Verif.Stack.Programs
import Verif.Stack.Certificate
import Verif.Stack.Search
import Verif.Stack.CertsRel
import Verif.Stack.CertsKeep
import Verif.Stack.Link
import Verif.Stack.Props
import Verif.Stack.Frame
import Verif.Stack.Invalid
import Verif.Stack.InvalidCheck
import Verif.Stack.InvalidSearch
import Verif.Stack.InvalidProps
import Verif.Timer.Model
import Verif.Timer.Props
import Verif.Whole.Spec
import Verif.Whole.Field
import Verif.Whole.Model
import Verif.Whole.Stages
import Verif.Whole.Lemmas
import Verif.Whole.Props
import Verif.Whole.Defined
import Verif.Whole.Examples
import Verif.Whole.Short
import Verif.Seeded.Spec
import Verif.Seeded.Model
import Verif.Seeded.Lemmas
import Verif.Seeded.Search
import Verif.Seeded.Props
import Verif.Seeded.Pari
import Verif.Seeded.Examples
import Verif.Seeded.NumsNone
import Verif.Seeded.Defined
import Verif.Seeded.Infinity
import Verif.Special.Spec
import Verif.Special.Model
import Verif.Special.Anomalous
import Verif.Special.Lemmas
import Verif.Special.Steps
import Verif.Special.Search
import Verif.Special.Props
import Verif.Special.Examples
import Verif.Special.Torsion
import Verif.Special.Defined
import Verif.Special.DefinedMet
import Verif.Special.Unique
import Verif.Special.UniqueMet
import Verif.Twisted.Spec
import Verif.Twisted.Model
import Verif.Twisted.Twist
import Verif.Twisted.Lemmas
import Verif.Twisted.Props
import Verif.Twisted.Defined
import Verif.Twisted.Koblitz
import Verif.Twisted.Examples
import Verif.Parson.Length
import Verif.Ordered.Spec
import Verif.Ordered.Model
import Verif.Ordered.Lemmas
import Verif.Ordered.Search
import Verif.Ordered.Curves
import Verif.Ordered.Props
import Verif.Ordered.Defined
import Verif.Ordered.Same
import Verif.Ordered.Short
import Verif.Ordered.Examples
import Verif.Ordered.Alloc
import Verif.InvalidRun.Spec
import Verif.InvalidRun.Model
import Verif.InvalidRun.Lemmas
import Verif.InvalidRun.Phases
import Verif.InvalidRun.Primes
import Verif.InvalidRun.Curves
import Verif.InvalidRun.Loop
import Verif.InvalidRun.Props
import Verif.InvalidRun.Never
import Verif.InvalidRun.Examples
import Verif.Whole.Bound
import Verif.Whole.ShortMet
import Verif.Special.Short
import Verif.Seeded.Short
import Verif.Twisted.Short
import Verif.InvalidRun.Short
import Verif.Whole.DefinedMet
import Verif.Whole.Subgroups
import Verif.Reseed.Model
import Verif.Reseed.Lemmas
import Verif.Reseed.Props
import Verif.Engine.Ints
import Verif.InvalidRun.Threaded
import Verif.InvalidRun.ThreadedInv
import Verif.InvalidRun.ThreadedProps
import Verif.InvalidRun.ThreadedBytes
import Verif.InvalidRun.ThreadedExamples
import Verif.InvalidRun.Small
import Verif.Copy.Model
import Verif.Copy.Spec
import Verif.Copy.Lemmas
import Verif.Copy.Props
import Verif.Engine.Verbose
import Verif.Engine.VerboseProps
import Verif.Whole.Vanishing
import Verif.Whole.Zero
import Verif.Whole.HexRun
import Verif.Whole.MetaRun
import Verif.Whole.Complete
import Verif.Whole.CompleteProps
import Verif.Whole.Exact
import Verif.InvalidRun.Reported
import Verif.Whole.Alive
import Verif.Whole.AliveProps
import Verif.Whole.KoblitzEnds
import Verif.Whole.Ansi
import Verif.Whole.AnsiSeed
import Verif.Whole.AnsiAlive
import Verif.Tables.Props
import Verif.Ordered.Scaled
import Verif.Ordered.Cyclic
import Verif.Special.MetaRun
import Verif.Special.MetaFamily
import Verif.Ordered.MetaRun
