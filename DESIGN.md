# Verification design for ecgen

Subject: the C sources of ecgen in `/repo` (read as text; never built or run here).
Prover: Lean 4.33.0 with single Mathlib modules. Project: `/verif/lean`, modules under `lean/Verif/`.

## 1. Layout and conventions

* `Verif/<Area>/Model.lean`: transliteration of the C functions, each definition citing file and lines.
* `Verif/<Area>/Spec.lean`: independent specification (lists, integers, grammars, standards) that does not mention the model's helpers.
* `Verif/<Area>/Lemmas.lean` and files with other names: helper lemmas.
* `Verif/<Area>/Props.lean` (or `<Topic>Props.lean`): the property theorems, with a case that meets the hypotheses beside each.
* A theorem ending in `_partial` proves less than the property; one ending in `_false` proves the negation of (a part of) the property on a
  concrete witness; `_met` shows that hypotheses can be met. The note in `MANIFEST.json` says what is missing.
* Undefined behaviour (access outside a buffer, null pointer, division by zero in PARI) is a distinct outcome, `none`.
* Unbounded loops carry a budget that is universally quantified, or are transition systems; statements are about every budget/execution.

## 2. Per property: what is modelled, how it is proved

| Id | Modelled code | How it is proved | Refuted part |
|----|---------------|------------------|--------------|
| C01 | `exhaustive_gen_retry` as a step function over (state, tries, world), arbitrary generators and checks | invariant by induction on the run; freshness by a trace invariant | |
| C02 | same; Verif.Engine.Ints computes with a 32-bit int | lexicographic measure in base r+1, explicit bound (r+1)^n; refinement of the loop with checked int operations | |
| C03 | same, with a ghost log of executed and cleaned-up stages | invariant over the log | |
| C04 | `exhaustive_generate` as an emitter of tokens | token grammar of JSON arrays; exact characterisation (`generate_array_iff`) | a failure after the first curve leaves `,]` |
| C05 | `sha1.c` (H, W, lenW, sizeHi/Lo) | refinement to FIPS 180-4 by induction on the byte stream | |
| C06–C09, C11, C12 | `bits.c`, every access checked | refinement to `List Bool` and integers, per-loop lemmas (`forN_inv`) | |
| C10 | rotations | same | negative amounts wrap in `size_t` |
| C13 | `bits_new_rand` | surjectivity when 8 does not divide the length | last byte always zero when it does |
| C14, C15, C54 | `str.c` | induction on strings | 11th string of `str_joinv` overflows; joining no strings underflows |
| C16, C17 | `ansi.c` | algebra in `ZMod p`; bit lemmas; SHA-1 spec | |
| C18, C19 | `brainpool.c`, `brainpool_rfc.c` (seed, field, equation) | loop invariants over flattened loops; SHA-1 evaluated in the kernel for the witness | a prime at the start of the search is skipped |
| C20 | checks of `gens.c` | order of q modulo n | |
| C21, C22 | `nums.c` on the staged engine | descent over candidates | history dependence through pointer reuse |
| C23, C24, C55 | `family.c` | polynomial identities checked by the kernel on coefficient lists and lifted; Hasse interval | BN trace polynomial; sentinels -1, -2 are accepted as seeds |
| C25 | `koblitz.c`, `order_gen_koblitz` | Weil's formula over every GF(2^m) (L-function over GF(2)[X], Newton identity), whole-table kernel check | orders over prime fields; sizes from 2^32 alias |
| C26 | `poly.c`, `bsearch` | whole-table kernel check and correctness of binary search | m = 1060 is missing |
| C27 | tables of `poly.c` | Rabin's test evaluated in the kernel for every row up to degree 2000, proved sound | (rows above 2000 not evaluated) |
| C28 | `subgroup.c` | set equality through factorisations | 63 prime factors overflow the counter |
| C29–C31, C33 | `point.c`, `gens.c` over abstract finite abelian groups | `addOrderOf` lemmas | trial points stop at the first prime; cofactor generator on Z/4 × Z/2; zero multiples |
| C32 | `order.c` filters | decision logic against number theoretic definitions | |
| C34, C36–C38, C59 | `twists.c`, `supersingular.c`, `anomalous.c` | counting with quadratic characters, field identities | 11 bits can give a 10 bit prime; table row D = 43 |
| C35, C62 | `curve_gen_any(_twist)` and the order generators on the engine | invariant over runs | stale twist order after a step back |
| C39, C61 | `p1363.c` forms and indices | loop bounds | buffer overflow for D = 1, 2, 26; K for D = 5 (mod 8) |
| C40 | `metadata.c`, `gens_get_embedding` | arithmetic | GF(5) with 10 points |
| C41 | `invalid_primes` | loop invariants | lower end 0, range 1-0, minimality |
| C42–C44 | `invalid.c`, `invalid_thread.c` as a transition system | invariants over all interleavings | array malformed with no primes, or when the last scan prints other than one curve |
| C45 | textbook affine formulas | algebra over an arbitrary field; group law of Mathlib | |
| C46, C47, C60 | `cli_parse` as a fold over options | case analysis | seed of an earlier method kept; `--points` type ignored with a prime `--order` |
| C48, C56–C58 | `input.c` and the generators that read | induction on the input | sentinels, end of file, unterminated last line |
| C49–C51 | `output.c`, `field.c`, `hex.c` | positional notation; a separate reader | `0x` prefix, concatenated points, values not searched |
| C52 | `random.c` | interval arithmetic over an arbitrary source | an n bit integer can be 2^n |
| C53, C63, C64 | `exhaustive_init`, `cm_init`, `config_report_unused` | decision logic over all configurations | order constraints ignored without a report by Brainpool and NUMS |
| C65 | `output_init/quit`, `input_init/quit`, `main` over a file-system model | invariant over any program between init and quit | same file named twice; failing run empties the output |
| C66, C67 | `cm_prime.c`, `cm_any.c`, order argument of `cm.c` | group law, Hasse bound through the CM theorem, loop invariants | D = -3; composite orders; order of one bit too many |
| C68 | allocation and release in `obj/*.c`, `seed.c`, `gens.c`, `point.c`, `curve.c`, `twists.c`, the seed generators, `exhaustive_generate` | blocks as numbers, ownership invariant (counts of blocks in the tree of the curve), Hoare triples with a crash condition for every prefix of a generator, engine invariant | seeds are lost when a search goes back to them |
| C69 | `cli_end`, `exhaustive_ginit`, `order_gen_prime`, `order_gen_cofactor` | counting points over a binary field by fibres (additive polynomial `x² + x`), engine rule for searches that never end | `--f2m --prime` is accepted and searches for ever |
| C70 | `output_jjson` through the calls of parson it makes, the serialisation of parson in its two passes, `is_valid_utf8`, the pieces printed by `output_o_begin` etc. | grammar of RFC 8259 on bytes with the value denoted, proved unambiguous by a reader; each function writes a text and a zero into a block (compositional triples over both passes); refinement of the tree of C49 | a failure after the first curve leaves a comma before `]`; texts of 2^31 bytes overflow `int` |
| C71 | PARI's stack (`avma`, `gerepile*`), clones and the cache of the curve object in every generator, check and cleanup function, `exhaustive_gen_retry`, `exhaustive_generate`, `curve_free`, `output_o` | one program per C function over an abstract memory; an abstract interpreter proved sound (`chk_sound`) and run by the kernel on every stage of every class of searches; invariant of the engine over all executions | stale order in twists; `gunclone`/`gclone` cut by the timer; `p` given back in `brainpool_gen_field`; smooth orders and `obj_insert_shallow`; `curve_free` after a failure |
| C72 | `timeout_start`, `timeout_stop`, `timeout_handle` step by step, within the loop of `exhaustive_gen_retry`; a clock and a signal that may arrive at any step | invariant over all interleavings of program steps, time and signal | the timer is set and `timeout_in` is true before `sigsetjmp`: a process held up there jumps to a stale place, or loses the signal |
| C73 | `invalid_do`, `invalid_original_curve`, `invalid_curves_single`, `invalid_thread` over PARI's stack, `curve_copy`, with the stages of C71 | the abstract interpreter of C71 with plans for the four partial searches; a frame theorem: a search that begins above a part of the stack never gives that part back nor releases foreign clones; induction over the rounds | `curve_free` after the original search failed; `curve_free(&invalid)` at the end of a thread after a round without use |
| C74 | `order_gen_cofactor`, `order_gen_smooth` as stages of the search with the Koblitz coefficients of `exhaustive_ginit` | Weil's formula of C25 makes the number of points independent of the field polynomial; the order over a subfield divides it (determinant of `1 - φ^m`); engine rule for searches that never end | impossible requests are accepted and never end |
| C75 | the whole run: `main`'s command line, `exhaustive_init`, `exhaustive_gen_retry` with the stages of the default method and `--ansi`, `exhaustive_generate`, `output_o` and parson; curves and points are Mathlib's over `ZMod p` and `GF(2)[X]/(f)`. PARI is a structure of functions with contracts; random numbers, typed input, failures and the timer are an arbitrary tape | an invariant per stage carried through the engine's loop rule (C01), composed with C46, C64, C25, C28-C33, C04, C70; the specification `Asked` speaks of the numbers read back and of Mathlib alone | Koblitz curves over prime fields of a tabled size; the first coefficient of --ansi may be larger than the prime |
| C76 | the same run, with undefined behaviour as a flag of the world | the invariant of C75 says what is set at each stage; the flag is part of an invariant over every call | the null pointer for the inverse of a multiple of the prime (--ansi); random points where there is no generator; the random multiple zero; all subgroups of an order with 65 prime factors: y² = x³ + 1 over the field of 3·2^64 − 1 elements, a prime shown by a certificate, whose group is shown to be cyclic |
| C77 | the run of C75 with the generators and checks of brainpool.c and brainpool_rfc.c (`Seeded`): seeds with the flag `update_seed`, field, equation, generator from the least point, `brainpool_check_order`, `gens_check_anomalous`, `brainpool_check_gens` | an invariant per stage that ties the seed to what was derived from it, carried through the engine's loop rule; the derivations by C18, C19, C20; specification `BrainpoolAsked` in Mathlib's terms and the standard's SHA-1 numbers; a run with the seed 48671 is evaluated by the kernel | none |
| C78 | the same with nums.c: the static variables `b`, `curve_b`, addresses of curves, the twist order, the base point | the same; C21, C22 | none |
| C79 | the runs of C77 | the seed determines the derived numbers; points of the least first coordinate are equal up to the sign | rerunning with the printed seed finds another curve; the sign of the base point is random |
| C80 | the runs of C77, C78 | every stage finds the members it reads (invariant of C77); nums_gen_gens reads a second ordinate, which exists as a point of order two would give the twist the order 2p, not a prime | the base point is infinity if the hash of the seed is zero or a multiple of the order: `--brainpool 3` with the seed 48049, evaluated by the kernel |
| C81 | anomalous_gen_field, anomalous_gen_equation, anomalous_gen_order in a run of the state machine with the tables of cm_do; command line, generators, points, metadata, JSON writer as in C75 | invariant over all runs; the curve constructed is the twist of y^2 = x^3 - 34790720 x + 78984748304 by a nonsquare, which has p points if that one has p + 2 | |
| C82 | supersingular_gen_equation, supersingular_gen_order in a run with the tables of cm_do | invariant over all runs; p = 3 mod 4 and p = 2 mod 3 by character sums, the others from Deuring's theorem | |
| C83 | the five generators of family.c with their static variables in a run with the tables of exhaustive_do | invariant over all runs; the seed printed is the parameter of the field at hand since every way back to the seed passes the field; embedding degrees from the polynomials (C23, C55) | |
| C84 | the runs of C81 to C83 with every reading of an unset member, division by zero and missing root as a distinct outcome | invariant over every step of every search; 1728 would make 4 divide p + 1 for p = 1 mod 4 | |
| C85 | supersingular_gen_equation and gens_gen_one in the runs of C82 | shapes of the coefficients carried through the invariant; two points of order two exclude a single generator | that --unique can be met over every prime field |
| C86 | curve_gen_any_twist, twist_rand, twist_rand_to with the order left behind and the cardinality stored in the curve object, in whole runs | invariant over the search; a tape with two coefficients stands for the twist in the later stages; orders by the sum over a nonsquare | the order of the last refused candidate is subtracted from 2q + 2 and printed |
| C87 | the same runs with every reading of an unset member or of a coefficient of the wrong type as a distinct outcome | invariant over every step of every search | --twist --koblitz without a filter never gets past the order stage |
| C88 | cm_init, cm_do, cm_gen_curve_prime, cm_gen_curve_any, cm_gen_order in whole runs from the command line to the bytes | invariant over the search; the number of points of the constructed curve by the Frobenius trace (Cm.ConstructProps) | discriminant -3: two of six twists are tried, all curves with a = 0 and an odd order are wrong |
| C89 | the same runs with every reading of an unset member as a distinct outcome | invariant over every step of every search; a chain of nine calls for termination | as in C28, C29 |
| C90 | the same runs | the discriminant, the field and the j-invariant are the same in every call; nonsingular curves with the same j-invariant and order are isomorphic | as in C88 |
| C91 | invalid_do, invalid_original_curve, invalid_primes, invalid_curves_single, points_gen_trial in whole runs from the configuration to the bytes | invariants of the three calls of exhaustive_gen_retry in each round and of the loop over the rounds | a point of the order of the prime need not be listed |
| C92 | the same runs with every reading of an unset member and an array of length zero as a distinct outcome | the same invariants; a curve whose order has a prime divisor has a generator | |
| C93 | the same runs | a text that ends with a comma is no JSON; at most two points share a coordinate; cubing is a bijection for p = 2 mod 3, so that all curves with a = 0 have p + 1 points | |
| C94 | random_reseed with the system (device, reads, clocks) as a parameter | invariant of the loop: the bytes read are the first ones of the device, in their places; induction on the rounds | a device that delivers nothing makes it hang; the clock may give 0 |
| C95 | the transition system of C44-C47 with the searches of InvalidRun as the steps of the workers; every search may get any answers | invariant of the world of every worker, of the curve it carries and of every stored curve; a reader of JSON texts for the bytes | two curves without a comma between them; the order of the point |
| C96 | the same system, with every undefined step of a worker or of the main thread as a predicate on states | the same invariant | |
| C97 | a heap of blocks that point to each other, with any allocator; copying and releasing for points, subgroups, bits, seeds and curves | a separate description of which blocks an object occupies and what it stands for; every copy grows the heap by the blocks of the new object only, every release takes away exactly the blocks of the object | metadata and the type of the seed are not copied |
| C98 | the texts written by the loop of C01, beside it | the text is related to the list of events of the same run by a separate grammar; counting by induction over the run | |
| C99 | the same runs as C75 and C76, with random numbers chosen for the curve wanted | the course of the search on these choices is followed stage by stage: each stage accepts, so the run ends; then C75 for the bytes; the converse from the invariants of C75 and from which groups the search for a point of the cofactor accepts; hex check and other methods are left out | with --cofactor=k and without --unique, groups that are not cyclic are never found |
| C100 | the same runs as C75, from any state reached | the calls still to be made are replaced: first by ones without failures, with which every stage succeeds or goes back to the field, so within nine calls the search is over or back at the field; then by ones for the curve wanted (C99); that what came before does not change is a lemma on the loop: an iteration reads one call | |
| C101 | the objects of checks and arguments on a heap with any allocator, as they are set up and released by the three methods | every step of the setup keeps an invariant: each block belongs to one entry of one table, and what the search reads through the tables in the heap of these blocks alone is what the setup of C63 says; the release is followed block by block | |
| C102 | the same runs as C75, with the coefficients that the model of `ansi_gen_equation` (C17) finds for the seed at hand | the invariant of C75 keeps, from the stage of the coefficients on, the seed, the field and the call they came from; C17 for this call; C75 for the bytes | |
| C103 | the same runs as C75, over prime fields | an invariant of all reachable states: the seed is that of the first call; every failure goes back to the field, where the clean-up leaves the seed alone; the discriminant of the equations of a seed is a multiple of `(4r + 27) b²` | that a search can always still succeed (C100) is false for `--ansi` (`ansi_stuck_false`) |
| C104 | the same runs as C75, over prime fields | as C100: from any reachable state the search ends or is back at the field with the same seed, and from there calls that bring up the curve lead to the end; arithmetic modulo `p` with a chosen root shows that every pair accepted by the relation comes up | |
| C105 | the same runs as C78 | C78 for every curve found; all 127 second coefficients counted with a table of square roots modulo 127 (`card_table`), a small divisor of one of the two orders each | |
| C106 | `add_primes`, `qdisc_next` and the runs of C88 | the list is empty iff no prime of the interval is taken (quadratic symbols read as squares in `ZMod q`); invariant: later lists are not empty; C88 for what a run can print | that a curve of the order asked for is found if there is one: `order_53_dead` |
| C107 | the searches of C75, `points_gen_prime`, `points_gen_nonprime`, `invalid_primes` | invariant of the search for any reachable state; no generators generate only the trivial group; over fields of characteristic two `(0, √b)` is a point (Frobenius is onto); specifications of C28 and C41 for the lists of orders and primes | |
| C108 | the searches of C75 with the verdict of `hex_check_param` as C51 models it | invariant: from the metadata on, the current curve has passed the check; metadata change nothing else; induction over the curves of a run; one step of the engine for the rejected curve | |
| C109 | the searches of C75 with the texts of `metadata_gen` (model of C40, invariants from Mathlib's `Δ` and `c₄`) | the last step of a search that ends well computes the metadata of the curve it leaves; twists bound the number of points by `2p + 1`, so that `p` and the order are coprime or equal; induction over the curves of a run | |
| C110 | the searches of C88 and C90, two of them with different options and different calls | the substitution respects slopes, hence sums: a homomorphism, injective and onto; the two runs are put into one sequence of calls to use C90; a generator of the whole group for `--unique`. For 125 the group of `y² = x³ + 90x + 6` over the field of 131 elements is computed from two points of the orders 25 and 5 | orders divisible by 2, or that leave the remainder 0 or 1 modulo 3, are left out (C88, C90) |
| C111 | the searches of C81 to C83 with the texts of `metadata_gen` as in C109 | as C109, with the invariants of C81 to C83; a fundamental discriminant that is a negative prime up to squares is determined by the prime; `p + 1` divides `p² - 1` and not `p - 1`, and `p` divides no `p^k - 1`. Both runs of C81 and C82 are repeated with `--metadata` | |
| C112 | the searches of C88 with the texts of `metadata_gen` as in C109, for the order that was typed | as C109, with the invariant of C88; `4p` is a square plus a positive multiple of a square, which bounds the order and makes the discriminant negative; isomorphic curves (C110) have the same j-invariant | with `--order=61` the printed trace is 1, that of the printed curve -14 (`wrong_meta_printed`) |
| C113 | the searches of C83 with the texts of `metadata_gen` as in C109 | as C111 with the identities of C23 and the order of C55; a fundamental discriminant that is the family's up to squares is the family's; the embedding degree of the whole group is a multiple of the one of the prime subgroup; a BLS curve with the seed `z = 3w + 1` has `3w²r` points over a field of `3w²r + 3w + 1` elements, so `w` divides it. Cited: Hasse's bound for the printed curve. A search of the run of C83 is repeated with `--metadata` | |

Defects of the code found while proving are exactly the "refuted part" column; each is a theorem with a concrete witness.

## 3. Trusted base

* Lean's kernel. No axioms besides `propext`, `Classical.choice`, `Quot.sound`; section 5 lists them per theorem. No `native_decide`.
* The transliteration from C to Lean, by reading. `size_t` and `unsigned long` have 64 bits, `int` 32 bits; little endian is not assumed.
* PARI functions are parameters with a contract stated at the place of use:
  * `isprime`, `nextprime`, `unextprime`, `precprime`, `Z_factor`, `core`, `coredisc2`, `znorder`, `kronecker`: their number theoretic meaning;
  * `Fp_sqrt`, `Fp_sqrtn`, `Fp_invsafe`, `Fp_issquare` (`Verif/Pari.lean`);
  * `ellff_get_card`, `ellsea`: the number of points (`ellsea(E, 1)` zero if it has a small factor);
  * `ellff_get_gens`, `ellorder`, `ellmul`: structure of the group; in the CM construction `ellmul` is defined on coordinates and proved against Mathlib's group;
  * `elltwist`, `ellfromj`: documented equations;
  * `genrand`, `randomprime`, `randomi`: any value of the documented range, arbitrary otherwise;
  * `pari_sprintf` with `%P#x`, `%P0#*x`: `0x` and digits filled up to the width not counting the prefix;
  * `strtoi`: decimal, `0x`, `0b`, stopping at the first other character.
* `RootsSpec` (`Verif/Cm/ConstructProps.lean`): the main theorem of complex multiplication (roots of the class polynomial modulo a prime
  are j-invariants of curves with p+1±t points). It is not in Mathlib and is a hypothesis of the theorems of C66.
* Other theorems on elliptic curves that Mathlib lacks are hypotheses of the theorems that use them, restricted to the curves of the run: `Gross` and `Deuring`
  (`Verif/Special/Model.lean`: the number of points of the curve with complex multiplication by the integers of Q(√-163), and of the curves of C82), and Hasse's bound
  (C40, C55, C113).
* glibc: `argp` splits `argv` into keys and arguments; `bsearch` as transliterated in `Verif/BSearch.lean`; `fopen` modes; unbuffered streams
  after `setvbuf`; `strtol`/`strtoul`.
* pthreads: mutual exclusion and condition variables as documented; the body of a critical section is one step.

## 4. Not modelled

* Requests for 0 bytes are taken to succeed, as with `calloc` of the GNU C library, except for the `realloc` of C106. PARI's allocator, which the program is
  compiled with, gives a null pointer for them (by its documentation and sources, which are not in the sandbox), and the program ends with "Couldn't alloc.". C107 proves that this
  concerns curves whose only point is the point at infinity, generators that are the point at infinity, and `--invalid` ranges without primes. Runs of
  the model that go on from there (in `search_undefined_false` and `cofactor_not_printed_false`, C76) would end at that request instead.
* Allocation failure. PARI's stack (`avma`, `gerepile`) is modelled only for C71 and C73, without the values of the numbers: tests and loop lengths are read from
  an arbitrary tape, so the model has more executions than the code. A PARI function is taken to return a number that may share blocks with its arguments, to
  look at nothing but its arguments, and not to lower the stack; `obj_insert_shallow` is modelled in both variants. The timer goes off between PARI calls, not
  within one.
* The timer is modelled step by step for C72 (one thread; `timer_create` and `timer_settime` succeed, the signal is delivered at once); elsewhere only its two
  outcomes (finished / not finished) are. That `siglongjmp` may leave PARI or `malloc` in the middle of something is not modelled.
* `lib/parson`: parsing, numbers, parent pointers, capacities beyond `grow`, failing allocations; the text of the metadata, made by PARI's `%Pi`.
* `verbose`/`debug` output, the installation of the signal handler.
* Class polynomial computation (`polclass`, `p1363_poly` beyond forms and indices), which is floating point.

## 5. Axioms per theorem

Output of `#print axioms` for every theorem of `MANIFEST.json` (generated).

### none (3 theorems)

* `Ecgen.P1363`: `group_26_false`
* `Ecgen.Reseed`: `reseed_nonzero_false`
* `Ecgen.Str`: `strJoin_empty_false`

### propext (12 theorems)

* `Ecgen.Cm`: `row_used`
* `Ecgen.Copy`: `clone_survives`, `copy_perishes`, `holds_unique`
* `Ecgen.Group`: `point_random_zero_false`
* `Ecgen.Invalid`: `single_empty_false`
* `Ecgen.Json`: `generate_false`
* `Ecgen.Meta`: `metadata_binary`
* `Ecgen.Order`: `brainpool_order`, `embedding_spec`
* `Ecgen.Own`: `seeds_leak`
* `Ecgen.Unsat`: `prime_selected`

### propext, Classical.choice, Quot.sound (472 theorems)

* `Ecgen.Ansi`: `relation`, `crash_iff`, `expansion_f2m`, `expansion_fp`, `expansion_size`, `derivedR_spec`, `equation_f2m`, `seeds_good`, `random_seed_length`, `crash_iff_dvd`
* `Ecgen.Bits`: `fromI_value`, `fromI_toI`, `fromILen_fits`, `fromILen_truncates`, `toI_fromILen`, `fromHex_bits`, `fromHex_value`, `toHex_value`, `toHex_fromHex`, `concat_val`, `concatz_val`, `shift_left`, `shift_right`, `lengthen_val`, `shorten_val`, `shifti_value`, `not_val`, `not_not`, `rot_val`, `rot_rot`, `copying_variants_agree`, `rotation_partial`, `eq_iff`, `cmd_safe`, `program_safe`, `shorten_out_of_range`
* `Ecgen.Brainpool`: `field_spec`, `field_at_false`, `seeds_pending`, `equation_spec`, `equation_rfc_spec`
* `Ecgen.Cli`: `consistent`, `seed_form_partial`, `seed_form_false`, `memory_value`, `time_value`, `memory_overflow`, `memory_lenient`, `memory_case`, `report_true`, `report_complete_partial`, `report_complete_false`, `family_named`, `family_accepted`, `points_named_partial`, `points_named_false`, `points_negative`, `threads_named`, `threads_negative`, `invalid_named`, `order_digit`, `order_lenient`, `files_named`, `random_named`, `random_in_force`, `count_named`, `values_met`, `setup_complete`, `constraint_in_force`, `constraint_in_force_met`
* `Ecgen.Cm`: `twist_order`, `twist_order_binary`, `supersingular_order`, `supersingular_root_branch`, `anomalous_j`, `supersingular_j`, `twist_j`, `equation_never_null`, `row43_false`, `anomalous_size_partial`, `anomalous_size_false`
* `Ecgen.Cm.Construct`: `prime_order_partial`, `disc3_wrong`, `disc3_wrong_any`, `prime_order_false`, `prime_met`, `any_order_partial`, `any_order_false`, `any_order_false_twist`, `any_met`, `qdiscNext_spec`, `qdiscMinimal_spec`, `subgroup_order`, `order_product`, `order_accepted`, `order_fits_false`
* `Ecgen.Copy`: `release`, `release_twice`, `copy_release`, `copy_outlives`, `copy_met`
* `Ecgen.Engine`: `search_success_current`, `search_success_invariant`, `search_no_overflow`, `search_no_overflow_met`, `search_failure_reason`, `search_no_limit_failure`, `search_success_history`, `search_stays_in_range`, `search_result_values`, `verbose_found`, `verbose_failed`, `verbose_running`, `verbose_count`, `verbose_nothing`, `verbose_met`
* `Ecgen.Family`: `family_identities`, `family_embedding`, `family_integral`, `stored_trace_partial`, `stored_trace_bn_false`, `family_order`, `family_order_exceptions`
* `Ecgen.Files`: `files_partial`, `files_false_same`, `files_false_log`, `failed_run_empties`, `quit_null`, `files_met`
* `Ecgen.Group`: `from_orders`, `points_of_orders`, `points_prime`, `points_all_partial`, `points_nonprime_partial`, `points_trial_partial`, `points_trial_false`, `gens_any`, `gens_generate`, `gens_one`, `gens_cofactor_partial`, `gens_cofactor_false`, `points_random`
* `Ecgen.Input`: `family_seed_false`, `family_seed_partial`, `inputI_decimal_partial`, `inputI_errors`, `inputI_sentinel_false`, `inputI_negative_unbounded`, `coeff_ask_terminates`, `prime_field_input`, `binary_field_sound`, `binary_field_complete`, `binary_field_eof_false`, `inputString_line`, `inputString_eof_false`, `order_input`, `order_input_false`
* `Ecgen.Invalid`: `range_partial`, `single_partial`, `no_range_partial`, `range_zero_false`, `range_one_zero_false`, `no_range_minimal_false`, `threaded_printed_once`, `threaded_stored_once`, `threaded_complete`, `threaded_no_lost_wakeup`, `threaded_mutex`, `threaded_progress`, `threaded_array_iff`, `attack_prime`, `attack_binary`, `small_point_exists`, `secret_determined`, `selected_determine`
* `Ecgen.InvalidRun`: `invalid_run_prints_partial`, `modest_invalid_run_prints_partial`, `invalid_run_point_false`, `undefined_sticks`, `finished_defined`, `undefined_run`, `undefined_met`, `invalid_run_defined`, `invalid_run_met`, `invalid_run_empty`, `invalid_run_large`, `invalid_run_zero`, `invalid_run_empty_met`, `invalid_run_large_met`, `invalid_run_zero_met`, `threaded_run_prints`, `threaded_run_document`, `threaded_run_met`, `threaded_run_json_false`, `threaded_run_point_false`, `threaded_run_defined`
* `Ecgen.Irred`: `irreducible_partial`, `field_partial`, `irreducible_met`
* `Ecgen.Json`: `generate_array_partial`, `generate_array_iff`, `generate_objects`
* `Ecgen.Koblitz`: `getOrder_weil`, `koblitz_points`, `getOrder_points`, `genOrder_points`, `getOrder_points_met`, `getOrder_none`, `prime_field_false`, `prime_103`, `prime_field_witness`
* `Ecgen.Meta`: `metadata_partial`, `metadata_false`, `hasse_coprime`
* `Ecgen.Nums`: `field_spec`, `nums_first_partial`, `nums_next`, `small_spec`
* `Ecgen.Order`: `gens_checks_prime`, `prime_filter`, `cofactor_filter`, `smooth_filter`, `pohlig_hellman`
* `Ecgen.Ordered`: `empty_array`, `later_array`, `order_dead`, `order_53_dead`, `order_dead_met`, `order_runs_agree_partial`, `order_unique_partial`, `isomorphic_groups`, `order_125_met`, `order_125_unique`, `order_125_unique_met`, `order_meta_run`, `order_meta_agree_partial`, `metaText_prime`, `order_meta_met`, `wrong_meta_printed`, `order_run_prints_partial`, `prime_order_run_prints_partial`, `order_run_wrong`, `order_run_met`, `order_run_applies`, `wrong_order_printed`, `order_search_defined_partial`, `order_found_is_printed_partial`, `order_search_ends`, `order_run_same_partial`
* `Ecgen.Output`: `printed_form`, `printed_injective`, `printed_width`, `seed_reads`, `field_reads`, `printed_curve_reads`, `printed_curve_injective`, `printed_elements_injective`, `printed_defined`, `modulus_determined`, `ielement_elementi`, `elementi_ielement`, `eltV_injective`, `hexCheck_partial`, `hexCheck_met`, `hex_zero_false`
* `Ecgen.Own`: `search_defined`, `run_defined`, `printed_allocated`, `all_released_partial`, `none_lost_partial`, `seeds_lost`
* `Ecgen.P1363`: `mem_written`, `written_nodup`, `group_partial`, `indices_partial`
* `Ecgen.Parson`: `printed_text_reads`, `printed_text_injective`, `output_reads`, `output_document`, `serialise_document`, `utf8_accepted`, `serialise_overflow`, `text_met`
* `Ecgen.Poly`: `findGen_partial`, `find_outside`, `announced_iff`
* `Ecgen.Random`: `randomInt_range`, `randomPrime_correct`, `randomPrime_ends`, `randomPrime_onto`, `randomRange_correct`, `randomFieldElement_correct`, `someDraws_met`, `randomInt_size_false`, `randomPrime_one_false`
* `Ecgen.Reseed`: `reseed_ends`
* `Ecgen.Seeded`: `nums_none`, `nums_size_nothing`, `nums_size_met`, `brainpool_run_prints_partial`, `modest_brainpool_run_prints_partial`, `brainpool_met`, `nums_run_prints`, `modest_nums_run_prints`, `nums_met`, `seed_determines_partial`, `seed_met`, `printed_seed_false`, `base_point_false`, `nums_search_defined`, `brainpool_search_defined_partial`, `nums_found_is_printed_partial`, `brainpool_found_is_printed_partial`, `infinity_false`, `searches_met`
* `Ecgen.Sha1`: `sha1_correct`, `sha1_index`, `bitsSha1_correct`
* `Ecgen.Special`: `meta_one`, `meta_run`, `anomalous_meta_run`, `supersingular_meta_run`, `fundamental_prime`, `anomalous_meta_met`, `supersingular_meta_met`, `family_points`, `family_meta_one`, `family_meta_run`, `small_order`, `fundamental_family`, `fundamental_one`, `bls_degree`, `bls_degree_not_twelve`, `family_meta_met`, `anomalous_run_prints`, `modest_anomalous_run_prints`, `anomalous_order`, `anomalous_met`, `supersingular_run_prints`, `modest_supersingular_run_prints`, `supersingular_met`, `family_run_prints`, `family_met`, `anomalous_search_defined`, `supersingular_search_defined_partial`, `family_search_defined_partial`, `found_is_printed_partial`, `supersingular_defined_met`, `family_defined_met`, `supersingular_unique`, `supersingular_unique_none`, `supersingular_unique_met`, `supersingular_unique_none_met`
* `Ecgen.Stack`: `no_stale_memory_partial`, `twist_refused_false`, `twist_timer_false`, `nums_timer_false`, `brainpool_field_false`, `smooth_release_false`, `failure_false`, `search_met`, `invalid_no_stale_memory_partial`, `thread_no_stale_memory_partial`, `original_failure_false`, `thread_last_curve_false`, `invalid_met`, `thread_met`
* `Ecgen.Str`: `strJoinv_partial`, `strJoinv_overflow`
* `Ecgen.Subgroup`: `primes_spec`, `all_spec_partial`, `nonprime_spec_partial`, `many_factors_false`, `trivial_group`
* `Ecgen.Tables`: `tables_mean`, `tables_nothing_left`, `allocator_exists`, `tables_met`
* `Ecgen.Timer`: `timers_deleted`, `time_passes`
* `Ecgen.Twist`: `twist_partial`, `twist_recount`, `twist_stale`, `twist_stale_false`, `plain_order`
* `Ecgen.Twisted`: `run_prints_twists_partial`, `modest_run_prints_twists_partial`, `twist_sum`, `run_met`, `stale_order_printed`, `search_defined_partial`, `points_fine`, `found_is_printed_partial`, `order_undefined`, `koblitz_never_found`, `koblitz_run_undefined`, `koblitz_met`
* `Ecgen.Unsat`: `binary_not_prime`, `prime_binary_never`, `prime_binary_forever`, `cofactor_binary`, `prime_binary_accepted`, `methods_refused_partial`, `never_met`, `koblitz_one`, `koblitz_accepts_partial`, `koblitz_forever`, `cofactor_zero`, `cofactor_one`, `cofactor_subfield`, `cofactor_163`, `cofactor_128`, `koblitz_accepted`, `koblitz_met`
* `Ecgen.Whole`: `no_search_stuck`, `no_search_stuck_met`, `ansi_run_verifiable`, `ansi_one_bit_nothing`, `ansi_unreduced_false`, `ansi_seed_kept`, `ansi_never_returns`, `ansi_never_ends`, `ansi_singular_seed`, `ansi_never_ends_met`, `ansi_seed_kept_met`, `ansi_stuck_false`, `ansi_not_stuck`, `ansi_all_found`, `related_call`, `ansi_not_stuck_met`, `ansi_all_found_met`, `generators_array`, `prime_array`, `nonprime_array`, `primes_array`, `generators_array_met`, `prime_array_met`, `primes_array_met`, `hex_one`, `hex_run`, `hex_step`, `hex_run_met`, `meta_one`, `meta_run`, `meta_quiet`, `own_meta`, `few_points`, `coredisc_inhabited`, `meta_run_met`, `koblitz_ends`, `koblitz_never`, `koblitz_ends_met`, `run_prints_what_was_asked_partial`, `default_run_prints_what_was_asked_partial`, `modest_met`, `run_met`, `run_koblitz_prime_false`, `search_defined_partial`, `points_fine`, `found_is_printed_partial`, `search_undefined_false`, `found_not_printed_false`, `cofactor_not_printed_false`, `subgroups_undefined_false`, `ansi_crash_iff`, `ansi_crash_false`, `subgroups_met`, `every_curve_found_partial`, `every_curve_printed_partial`, `which_curves`, `every_curve_met`, `cofactor_never_found_false`

### propext, Quot.sound (74 theorems)

* `Ecgen.Bits`: `toI_value`, `toBin_text`, `fromBin_text`, `toBin_fromBin`, `fromRaw_bits`, `toRaw_fromRaw`, `toBitvec_value`, `fromBitvec_value`, `or_value`, `and_value`, `or_and_comm`, `rotation_false`, `rotation_inverse_false`, `newRand_surjective_partial`, `newRand_last_byte_zero`, `newRand_seed160_false`
* `Ecgen.Cli`: `memory_refused`
* `Ecgen.Cm`: `twist_order_wrong`, `hasJ_unique`, `j_zero_singular`, `norm_equation`, `table_rows`
* `Ecgen.Copy`: `copy_partial`, `copy_unfaithful`, `copy_faithful_false`
* `Ecgen.Engine`: `search_terminates`
* `Ecgen.Group`: `points_random_trivial_false`
* `Ecgen.Input`: `field_ask_diverges`
* `Ecgen.Invalid`: `single_curves`, `threaded_array_false`
* `Ecgen.Koblitz`: `getOrder_complete`, `getOrder_alias_false`
* `Ecgen.Nums`: `field_diverges`, `nums_history_false`, `two_bad`
* `Ecgen.Order`: `gens_checks`, `embedding_bound`, `embedding_check`, `discriminant_check`
* `Ecgen.Output`: `sample_printable`, `hex_zero_witness`, `hex_across_false`, `hex_missed_false`
* `Ecgen.P1363`: `group_small_false`, `indices_five_false`, `indices_error`
* `Ecgen.Parson`: `set_then_get`, `grow_fits`
* `Ecgen.Poly`: `find_1060_false`
* `Ecgen.Reseed`: `reseed_defined`, `reseed_device`, `reseed_injective`, `reseed_clock`, `reseed_fits`, `reseed_met`, `reseed_stuck`, `reseed_ends_false`
* `Ecgen.Sha1`: `sha1_chunking`
* `Ecgen.Special`: `degree_anomalous`, `degree_super`
* `Ecgen.Str`: `strIsHex_iff`, `strJoin_partial`, `strConcat_correct`, `strCnt_correct`
* `Ecgen.Tables`: `tables_released`
* `Ecgen.Timer`: `no_stale_jump_partial`, `generator_limited_partial`, `not_cut_early_partial`, `signal_effect_partial`, `no_limit_no_cut`, `stale_jump_false`, `returned_jump_false`, `generator_unlimited_false`, `cut_met`
