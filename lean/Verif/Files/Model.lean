import Verif.Cli.Model

/-!
# Model of the files of a run

`output_init`, `output_quit`, `output_is_std` and the writing functions (`/repo/src/io/output.c`, 184-287), `input_init` and `input_quit`
(`/repo/src/io/input.c`, 95-115), `init`, `quit` and `main` (`/repo/src/ecgen.c`, 55-134).

A file system gives the content of every file there is. Streams carry their position; all output streams are unbuffered (output.c:245, 248,
259), so that a write takes effect at once. `FILE *` is a number of an entry in the table of opened files, or one of the three standard
streams; a null pointer is `none`. Closing a null pointer or a closed stream, or writing to one, is undefined behaviour and gives `none`.
What happens between `init` and `quit` is any program that prints, logs, reports errors and reads (`Prog`); PARI is not modelled.
-/

namespace Ecgen.Files

abbrev Path := List Char
abbrev Text := List Char

/-- the modes of `fopen` that are used -/
inductive Mode where
  | read | write | append
  deriving DecidableEq, Repr

/-- an entry in the table of opened files -/
structure Handle where
  path : Path
  mode : Mode
  pos : Nat
  closed : Bool
  deriving DecidableEq, Repr

/-- `FILE *` that is not null -/
inductive Stream where
  | stdin | stdout | stderr
  | file (h : Nat)
  deriving DecidableEq, Repr

/-- files, opened files, and what went through the standard streams -/
structure World where
  fs : Path → Option Text
  handles : Nat → Option Handle
  next : Nat
  stdin : Text
  stdout : Text
  stderr : Text

/-- what `fopen` depends on: whether a file can be opened in a mode, and the reason `perror` gives -/
structure Env where
  can : Path → Mode → Bool
  reason : Path → Text

/-- the change of one value -/
def set {α β : Type} [DecidableEq α] (f : α → β) (a : α) (b : β) : α → β := fun x => if x = a then b else f x

/-- C `fopen`. A file opened for writing is emptied, or created; one opened for appending is created if there is none. -/
def fopen (env : Env) (w : World) (p : Path) (m : Mode) : World × Option Stream :=
  let opened (fs : Path → Option Text) : World × Option Stream :=
    ({ w with fs := fs, handles := set w.handles w.next (some ⟨p, m, 0, false⟩), next := w.next + 1 }, some (.file w.next))
  if env.can p m then
    match m with
    | .read => if (w.fs p).isSome then opened w.fs else (w, none)
    | .write => opened (set w.fs p (some []))
    | .append => opened (set w.fs p (some ((w.fs p).getD [])))
  else (w, none)

/-- the content of a file after a write at a position -/
def overwrite (old : Text) (pos : Nat) (t : Text) : Text :=
  old.take pos ++ List.replicate (pos - old.length) (Char.ofNat 0) ++ t ++ old.drop (pos + t.length)

/-- C `fprintf(s, "%s", t)` and the other ways in which text is written -/
def fwrite (w : World) (s : Option Stream) (t : Text) : Option World :=
  match s with
  | none => none
  | some .stdin => none
  | some .stdout => some { w with stdout := w.stdout ++ t }
  | some .stderr => some { w with stderr := w.stderr ++ t }
  | some (.file h) =>
    match w.handles h with
    | none => none
    | some hd =>
      if hd.closed then none
      else
        let old := (w.fs hd.path).getD []
        match hd.mode with
        | .read => some w
        | .write => some { w with fs := set w.fs hd.path (some (overwrite old hd.pos t)),
                                  handles := set w.handles h (some { hd with pos := hd.pos + t.length }) }
        | .append => some { w with fs := set w.fs hd.path (some (old ++ t)) }

/-- reading up to `n` characters -/
def fread (w : World) (s : Option Stream) (n : Nat) : Option (World × Text) :=
  match s with
  | some .stdin => some ({ w with stdin := w.stdin.drop n }, w.stdin.take n)
  | some (.file h) =>
    match w.handles h with
    | none => none
    | some hd =>
      if hd.closed ∨ hd.mode ≠ .read then none
      else
        let t := (((w.fs hd.path).getD []).drop hd.pos).take n
        some ({ w with handles := set w.handles h (some { hd with pos := hd.pos + t.length }) }, t)
  | _ => none

/-- C `fclose` -/
def fclose (w : World) (s : Option Stream) : Option World :=
  match s with
  | some (.file h) =>
    match w.handles h with
    | none => none
    | some hd => if hd.closed then none else some { w with handles := set w.handles h (some { hd with closed := true }) }
  | _ => none

/-- the global streams: `out`, `err`, `verbose` (output.c:17-19) and `in` (input.c:10), null at the start -/
structure Globals where
  out : Option Stream := none
  err : Option Stream := none
  verbose : Option Stream := none
  inp : Option Stream := none
  deriving DecidableEq, Repr

/-- `perror`: a message and the reason on standard error -/
def perror (env : Env) (w : World) (msg : String) (p : Path) : World := { w with stderr := w.stderr ++ msg.toList ++ env.reason p }

/-- output.c:235-244 and 250-258: open a file named on the command line; fall back to a standard stream when none is named or it cannot be
opened -/
def openOr (env : Env) (w : World) (name : Option Path) (m : Mode) (msg : String) (std : Stream) : World × Option Stream :=
  match name with
  | some p => if (fopen env w p m).2.isNone then (perror env (fopen env w p m).1 msg p, some std) else fopen env w p m
  | none => (w, some std)

/-- `output_init`, output.c:232-270, without the selection of the format -/
def outputInit (env : Env) (c : Cli.Config) (w : World) (g : Globals) : World × Globals :=
  let o := openOr env w c.output (if c.append then .append else .write) "Failed to open output file." .stdout
  let v := openOr env o.1 c.verboseLog .write "Failed to open verbose output file." .stderr
  (v.1, { g with out := o.2, err := some .stderr, verbose := v.2 })

/-- `input_init`, input.c:95-109, without the delimiter -/
def inputInit (env : Env) (c : Cli.Config) (w : World) (g : Globals) : Bool × World × Globals :=
  match c.input with
  | some p =>
    let r := fopen env w p .read
    if r.2.isNone then (false, perror env r.1 "Failed to open input file." p, { g with inp := none }) else (true, r.1, { g with inp := r.2 })
  | none => (true, w, { g with inp := some .stdin })

/-- `output_is_std`, output.c:273-275 -/
def isStd (s : Option Stream) : Bool := s = some .stdout ∨ s = some .stderr ∨ s = some .stdin

/-- closing of a stream in `output_quit` -/
def closeUnlessStd (w : World) (s : Option Stream) : Option World := if isStd s then some w else fclose w s

/-- `output_quit`, output.c:277-287 -/
def outputQuit (w : World) (g : Globals) : Option World :=
  (closeUnlessStd w g.out).bind fun w => (closeUnlessStd w g.err).bind fun w => closeUnlessStd w g.verbose

/-- `input_quit`, input.c:111-115 -/
def inputQuit (w : World) (g : Globals) : Option World :=
  if g.inp ≠ none ∧ g.inp ≠ some .stdin then fclose w g.inp else some w

/-- `quit`, ecgen.c:96-105; `pari_close` and `timeout_quit` are not modelled -/
def quit (w : World) (g : Globals) (status : Nat) : Option (World × Nat) :=
  (outputQuit w g).bind fun w => (inputQuit w g).map fun w => (w, status)

/-- what a search does with its streams: print to `out`, log to `verbose`, report to `err`, read from `in`, end with a status -/
inductive Prog where
  | done (status : Nat)
  | print (t : Text) (k : Prog)
  | log (t : Text) (k : Prog)
  | report (t : Text) (k : Prog)
  | read (n : Nat) (k : Text → Prog)

/-- the search -/
def exec (g : Globals) : World → Prog → Option (World × Nat)
  | w, .done status => some (w, status)
  | w, .print t k => (fwrite w g.out t).bind fun w => exec g w k
  | w, .log t k => (fwrite w g.verbose t).bind fun w => exec g w k
  | w, .report t k => (fwrite w g.err t).bind fun w => exec g w k
  | w, .read n k => (fread w g.inp n).bind fun r => exec g r.1 (k r.2)

def EXIT_FAILURE : Nat := 1

/-- `main`, ecgen.c:110-134, after the command line is read (`c`). `cliOk` is the result of `cli_init`, cli.c:99-114, that is of `regcomp`.
`random_init` and `timeout_init` always succeed (random.c:38-42, timeout.c:33-43). -/
def main (cliOk : Bool) (env : Env) (c : Cli.Config) (search : Prog) (w : World) : Option (World × Nat) :=
  if cliOk then
    let o := outputInit env c w {}
    let i := inputInit env c o.1 o.2
    if i.1 then (exec i.2.2 i.2.1 search).bind fun r => quit r.1 i.2.2 r.2
    else quit i.2.1 i.2.2 EXIT_FAILURE
  else quit w {} EXIT_FAILURE

end Ecgen.Files
