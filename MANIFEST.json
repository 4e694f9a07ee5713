{
 "claims": [
  {
   "property": "C01",
   "status": "proved",
   "theorems": [
    "Ecgen.Engine.search_success_current",
    "Ecgen.Engine.search_success_invariant"
   ],
   "note": ""
  },
  {
   "property": "C02",
   "status": "proved",
   "theorems": [
    "Ecgen.Engine.search_terminates",
    "Ecgen.Engine.search_no_overflow",
    "Ecgen.Engine.search_no_overflow_met"
   ],
   "note": "also with the 32-bit int of the machine: no counter overflows, whatever the limit"
  },
  {
   "property": "C03",
   "status": "proved",
   "theorems": [
    "Ecgen.Engine.search_failure_reason",
    "Ecgen.Engine.search_no_limit_failure",
    "Ecgen.Engine.search_success_history",
    "Ecgen.Engine.search_stays_in_range",
    "Ecgen.Engine.search_result_values"
   ],
   "note": ""
  },
  {
   "property": "C04",
   "status": "partial",
   "theorems": [
    "Ecgen.Json.generate_array_partial",
    "Ecgen.Json.generate_array_iff",
    "Ecgen.Json.generate_objects",
    "Ecgen.Json.generate_false"
   ],
   "note": "False: a failure after the first curve leaves a comma before the closing bracket. generate_array_iff says exactly when the output is an array."
  },
  {
   "property": "C05",
   "status": "proved",
   "theorems": [
    "Ecgen.Sha1.sha1_correct",
    "Ecgen.Sha1.sha1_chunking",
    "Ecgen.Sha1.sha1_index",
    "Ecgen.Sha1.bitsSha1_correct"
   ],
   "note": ""
  },
  {
   "property": "C06",
   "status": "proved",
   "theorems": [
    "Ecgen.Bits.fromI_value",
    "Ecgen.Bits.toI_value",
    "Ecgen.Bits.fromI_toI",
    "Ecgen.Bits.fromILen_fits",
    "Ecgen.Bits.fromILen_truncates",
    "Ecgen.Bits.toI_fromILen"
   ],
   "note": ""
  },
  {
   "property": "C07",
   "status": "proved",
   "theorems": [
    "Ecgen.Bits.fromHex_bits",
    "Ecgen.Bits.fromHex_value",
    "Ecgen.Bits.toHex_value",
    "Ecgen.Bits.toHex_fromHex",
    "Ecgen.Bits.toBin_text",
    "Ecgen.Bits.fromBin_text",
    "Ecgen.Bits.toBin_fromBin",
    "Ecgen.Bits.fromRaw_bits",
    "Ecgen.Bits.toRaw_fromRaw",
    "Ecgen.Bits.toBitvec_value",
    "Ecgen.Bits.fromBitvec_value"
   ],
   "note": ""
  },
  {
   "property": "C08",
   "status": "proved",
   "theorems": [
    "Ecgen.Bits.concat_val",
    "Ecgen.Bits.concatz_val",
    "Ecgen.Bits.shift_left",
    "Ecgen.Bits.shift_right",
    "Ecgen.Bits.lengthen_val",
    "Ecgen.Bits.shorten_val",
    "Ecgen.Bits.shifti_value",
    "Ecgen.Bits.not_val",
    "Ecgen.Bits.not_not",
    "Ecgen.Bits.rot_val",
    "Ecgen.Bits.rot_rot",
    "Ecgen.Bits.copying_variants_agree"
   ],
   "note": ""
  },
  {
   "property": "C09",
   "status": "proved",
   "theorems": [
    "Ecgen.Bits.or_value",
    "Ecgen.Bits.and_value",
    "Ecgen.Bits.or_and_comm"
   ],
   "note": ""
  },
  {
   "property": "C10",
   "status": "partial",
   "theorems": [
    "Ecgen.Bits.rotation_partial",
    "Ecgen.Bits.rotation_false",
    "Ecgen.Bits.rotation_inverse_false"
   ],
   "note": "False as stated: negative rotation wraps on size_t and is wrong unless the length divides 2^64. The partial theorem covers the amounts for which it holds; the refutations give concrete witnesses."
  },
  {
   "property": "C100",
   "status": "proved",
   "theorems": [
    "Ecgen.Whole.no_search_stuck",
    "Ecgen.Whole.no_search_stuck_met"
   ],
   "note": "Stated for the search of one curve (C75), with hypotheses: PARI right about the curves that may come up, no hex check, points none or prime, or other than random for up to 61 bits, and a cofactor with --unique, 1 or prime. Without them a search may end in something undefined (C76)."
  },
  {
   "property": "C101",
   "status": "proved",
   "theorems": [
    "Ecgen.Tables.tables_mean",
    "Ecgen.Tables.tables_released",
    "Ecgen.Tables.tables_nothing_left",
    "Ecgen.Tables.allocator_exists",
    "Ecgen.Tables.tables_met"
   ],
   "note": "for command lines that are accepted: with a cofactor and a bound for smoothness together, which are refused, one block would be left behind. Left out: the text that PARI builds for an order given by its factors, which is never released, and runs that end in the middle by exit"
  },
  {
   "property": "C102",
   "status": "proved",
   "theorems": [
    "Ecgen.Whole.ansi_run_verifiable",
    "Ecgen.Whole.ansi_one_bit_nothing",
    "Ecgen.Whole.ansi_unreduced_false"
   ],
   "note": "from the command line to the bytes; the text of a curve must be shorter than 2^31 bytes. ansi_unreduced_false is also the concrete run that meets the hypotheses: a seed of forty zeros, three bits, y^2 = x^3 + 7x + 1 over the field of five elements. The printed first coefficient may be larger than the prime, it has at most the number of bits asked for, or is the power of two above them"
  },
  {
   "property": "C103",
   "status": "proved",
   "theorems": [
    "Ecgen.Whole.ansi_seed_kept",
    "Ecgen.Whole.ansi_never_returns",
    "Ecgen.Whole.ansi_never_ends",
    "Ecgen.Whole.ansi_singular_seed",
    "Ecgen.Whole.ansi_never_ends_met",
    "Ecgen.Whole.ansi_seed_kept_met",
    "Ecgen.Whole.ansi_stuck_false"
   ],
   "note": "runs in which the timer does not expire and the first four stages do not fail; failures of the order, the generators, the points and the metadata are covered. ansi_never_ends also asks for inverses of the derived numbers, without which the run ends in a null pointer (C102). ansi_never_ends_met and ansi_stuck_false are concrete runs of three bits; the latter also shows that C100 does not hold for --ansi: a random seed without curves is never replaced"
  },
  {
   "property": "C104",
   "status": "proved",
   "theorems": [
    "Ecgen.Whole.ansi_not_stuck",
    "Ecgen.Whole.ansi_all_found",
    "Ecgen.Whole.related_call",
    "Ecgen.Whole.ansi_not_stuck_met",
    "Ecgen.Whole.ansi_all_found_met"
   ],
   "note": "the numbers derived from the seeds must have inverses (otherwise the run ends in a null pointer, C102); points as in C100. related_call: that the coefficients belong to the seed is the relation of X9.62, without the model; which of the two roots b comes up is left to PARI, whose contract allows both. A seed without such a curve is the subject of C103"
  },
  {
   "property": "C105",
   "status": "proved",
   "theorems": [
    "Ecgen.Seeded.nums_none",
    "Ecgen.Seeded.nums_size_nothing",
    "Ecgen.Seeded.nums_size_met"
   ],
   "note": "nums_none is about curves alone, without the model. The points of all curves over the field of 127 elements are counted by the kernel from a table of square roots, which is proved right for all elements"
  },
  {
   "property": "C106",
   "status": "proved",
   "theorems": [
    "Ecgen.Ordered.empty_array",
    "Ecgen.Ordered.later_array",
    "Ecgen.Ordered.order_dead",
    "Ecgen.Ordered.order_53_dead",
    "Ecgen.Ordered.order_dead_met"
   ],
   "note": "what realloc does with the size 0 is implementation-defined; the model takes the null pointer of the GNU C library, with which pari_realloc raises an error that nothing catches. With another library the search would go on as C66 and C88 describe. log53 computes the rounded logarithm of 53 from bounds for e"
  },
  {
   "property": "C107",
   "status": "proved",
   "theorems": [
    "Ecgen.Whole.generators_array",
    "Ecgen.Whole.prime_array",
    "Ecgen.Whole.nonprime_array",
    "Ecgen.Whole.primes_array",
    "Ecgen.Whole.generators_array_met",
    "Ecgen.Whole.prime_array_met",
    "Ecgen.Whole.primes_array_met"
   ],
   "note": "the sizes of the arrays, not what the allocator does with a request for 0 bytes (see section 4 of DESIGN.md). nonprime_array: for orders with fewer than 63 prime factors, as C28; for a prime order no array is asked for. generators_array covers the searches of C75; that only fields of at most four elements have such curves (the theorem of Hasse) is not proved"
  },
  {
   "property": "C108",
   "status": "proved",
   "theorems": [
    "Ecgen.Whole.hex_one",
    "Ecgen.Whole.hex_run",
    "Ecgen.Whole.hex_step",
    "Ecgen.Whole.hex_run_met"
   ],
   "note": "patterns of hex digits that do not end in 0, as in C51; the verdicts of the check are those of hex_check_param (HexRight), and nothing is said of curves for which joining the texts of the points is undefined (no generators, C15). --hex-check is ignored with --invalid (C53)"
  },
  {
   "property": "C109",
   "status": "proved",
   "theorems": [
    "Ecgen.Whole.meta_one",
    "Ecgen.Whole.meta_run",
    "Ecgen.Whole.meta_quiet",
    "Ecgen.Whole.own_meta",
    "Ecgen.Whole.few_points",
    "Ecgen.Whole.coredisc_inhabited",
    "Ecgen.Whole.meta_run_met"
   ],
   "note": "the texts of the metadata are those that metadata_gen gives for the curve object and the order at hand (MetaRight, metaText); that they belong to the curve that is printed is what is proved. A curve over GF(p) has at most 2p + 1 points (few_points), so znorder fails only for 2p points; that this cannot happen for p > 5 is the theorem of Hasse, which is not used (C40)"
  },
  {
   "property": "C11",
   "status": "proved",
   "theorems": [
    "Ecgen.Bits.eq_iff"
   ],
   "note": ""
  },
  {
   "property": "C110",
   "status": "partial",
   "theorems": [
    "Ecgen.Ordered.order_runs_agree_partial",
    "Ecgen.Ordered.order_unique_partial",
    "Ecgen.Ordered.isomorphic_groups",
    "Ecgen.Ordered.order_125_met",
    "Ecgen.Ordered.order_125_unique",
    "Ecgen.Ordered.order_125_unique_met"
   ],
   "note": "for odd orders of at least 50 that leave the remainder 2 modulo 3, as C90. PARI is the same for the two runs, the user, the random points and the twists are not"
  },
  {
   "property": "C111",
   "status": "proved",
   "theorems": [
    "Ecgen.Special.meta_one",
    "Ecgen.Special.meta_run",
    "Ecgen.Special.anomalous_meta_run",
    "Ecgen.Special.supersingular_meta_run",
    "Ecgen.Special.fundamental_prime",
    "Ecgen.Special.degree_anomalous",
    "Ecgen.Special.degree_super",
    "Ecgen.Special.anomalous_meta_met",
    "Ecgen.Special.supersingular_meta_met"
   ],
   "note": "as C109, the texts of the metadata are those that metadata_gen gives for the curve object and the order at hand (MetaRight). The theorems on the numbers of points of C81 and C82 (Gross, Deuring) are hypotheses"
  },
  {
   "property": "C112",
   "status": "partial",
   "theorems": [
    "Ecgen.Ordered.order_meta_run",
    "Ecgen.Ordered.order_meta_agree_partial",
    "Ecgen.Ordered.metaText_prime",
    "Ecgen.Ordered.order_meta_met",
    "Ecgen.Ordered.wrong_meta_printed"
   ],
   "note": "order_meta_run is complete for orders of at least 50; the agreement of two runs is restricted as C110. wrong_meta_printed is the case in which the values do not belong to the curve"
  },
  {
   "property": "C113",
   "status": "proved",
   "theorems": [
    "Ecgen.Special.family_points",
    "Ecgen.Special.family_meta_one",
    "Ecgen.Special.family_meta_run",
    "Ecgen.Special.small_order",
    "Ecgen.Special.fundamental_family",
    "Ecgen.Special.fundamental_one",
    "Ecgen.Special.bls_degree",
    "Ecgen.Special.bls_degree_not_twelve",
    "Ecgen.Special.family_meta_met"
   ],
   "note": "as C111 for the texts of the metadata; Hasse's bound for the number of points of the printed curve is a hypothesis. The two seeds for which it leaves a choice (C55) are settled by counting the points of all curves y^2 = x^3 + b over the fields of 19 and 37 elements. family_meta_met is a single search"
  },
  {
   "property": "C12",
   "status": "proved",
   "theorems": [
    "Ecgen.Bits.cmd_safe",
    "Ecgen.Bits.program_safe",
    "Ecgen.Bits.shorten_out_of_range"
   ],
   "note": ""
  },
  {
   "property": "C13",
   "status": "partial",
   "theorems": [
    "Ecgen.Bits.newRand_surjective_partial",
    "Ecgen.Bits.newRand_last_byte_zero",
    "Ecgen.Bits.newRand_seed160_false"
   ],
   "note": "False as stated when 8 divides the length: the last byte is always zero. Surjectivity proved for the other lengths."
  },
  {
   "property": "C14",
   "status": "proved",
   "theorems": [
    "Ecgen.Str.strIsHex_iff"
   ],
   "note": ""
  },
  {
   "property": "C15",
   "status": "partial",
   "theorems": [
    "Ecgen.Str.strJoin_partial",
    "Ecgen.Str.strConcat_correct",
    "Ecgen.Str.strJoinv_partial",
    "Ecgen.Str.strJoinv_overflow",
    "Ecgen.Str.strJoin_empty_false"
   ],
   "note": "False as stated: the variadic form overflows its pointer array from the eleventh string on, and joining no strings with a separator returns an unterminated block. Proved for all other inputs."
  },
  {
   "property": "C16",
   "status": "proved",
   "theorems": [
    "Ecgen.Ansi.relation",
    "Ecgen.Ansi.crash_iff"
   ],
   "note": "crash_iff: generation crashes exactly when the derived r is divisible by p (r = 0 included)."
  },
  {
   "property": "C17",
   "status": "proved",
   "theorems": [
    "Ecgen.Ansi.expansion_f2m",
    "Ecgen.Ansi.expansion_fp",
    "Ecgen.Ansi.expansion_size",
    "Ecgen.Ansi.derivedR_spec",
    "Ecgen.Ansi.equation_f2m",
    "Ecgen.Ansi.seeds_good",
    "Ecgen.Ansi.random_seed_length",
    "Ecgen.Ansi.crash_iff_dvd"
   ],
   "note": ""
  },
  {
   "property": "C18",
   "status": "partial",
   "theorems": [
    "Ecgen.Brainpool.field_spec",
    "Ecgen.Brainpool.field_at_false",
    "Ecgen.Brainpool.seeds_pending"
   ],
   "note": "Proved with 'strictly after' instead of 'at or after'; the latter is refuted with a concrete seed, for which the program skips the prime 131 and takes 139. Total correctness is relative to the loop ending. The seed stored afterwards is still the one that was used; it is advanced by the next step (the theorem states the exact value)."
  },
  {
   "property": "C19",
   "status": "proved",
   "theorems": [
    "Ecgen.Brainpool.equation_spec",
    "Ecgen.Brainpool.equation_rfc_spec"
   ],
   "note": "Relative to the contracts of Fp_sqrtn, Fp_invsafe, Fp_issquare."
  },
  {
   "property": "C20",
   "status": "proved",
   "theorems": [
    "Ecgen.Order.gens_checks",
    "Ecgen.Order.gens_checks_prime",
    "Ecgen.Order.embedding_bound",
    "Ecgen.Order.embedding_check",
    "Ecgen.Order.brainpool_order"
   ],
   "note": "Relative to the contract of znorder."
  },
  {
   "property": "C21",
   "status": "proved",
   "theorems": [
    "Ecgen.Nums.field_spec",
    "Ecgen.Nums.field_diverges"
   ],
   "note": "For fewer than two bits no such prime exists and the search does not end."
  },
  {
   "property": "C22",
   "status": "partial",
   "theorems": [
    "Ecgen.Nums.nums_first_partial",
    "Ecgen.Nums.nums_next",
    "Ecgen.Nums.nums_history_false",
    "Ecgen.Nums.two_bad",
    "Ecgen.Nums.small_spec"
   ],
   "note": "Proved for a curve object at an address not used by the previous NUMS curve (with the security conditions of C20 included in 'suitable'). Independence of earlier curves is refuted: at a reused address the search continues after the previous b."
  },
  {
   "property": "C23",
   "status": "partial",
   "theorems": [
    "Ecgen.Family.family_identities",
    "Ecgen.Family.family_embedding",
    "Ecgen.Family.family_integral",
    "Ecgen.Family.stored_trace_partial",
    "Ecgen.Family.stored_trace_bn_false"
   ],
   "note": "All identities hold with the family's trace; the trace polynomial stored for BN (6z+1) is wrong (should be 6z^2+1), refuted for every seed other than 0 and 1. It is not used elsewhere in the code."
  },
  {
   "property": "C24",
   "status": "partial",
   "theorems": [
    "Ecgen.Input.family_seed_false",
    "Ecgen.Input.family_seed_partial"
   ],
   "note": "False as stated: end of file, empty line and too large numbers silently become the seeds -2 and -1, which BN accepts."
  },
  {
   "property": "C25",
   "status": "partial",
   "theorems": [
    "Ecgen.Koblitz.getOrder_weil",
    "Ecgen.Koblitz.koblitz_points",
    "Ecgen.Koblitz.getOrder_points",
    "Ecgen.Koblitz.genOrder_points",
    "Ecgen.Koblitz.getOrder_points_met",
    "Ecgen.Koblitz.getOrder_complete",
    "Ecgen.Koblitz.getOrder_none",
    "Ecgen.Koblitz.getOrder_alias_false",
    "Ecgen.Koblitz.prime_field_false",
    "Ecgen.Koblitz.prime_103",
    "Ecgen.Koblitz.prime_field_witness"
   ],
   "note": "Over binary fields everything is proved, including Weil's formula for the number of points (through the L-function of the curve over GF(2)[X]), for sizes below 2^32; larger sizes alias. Over prime fields the reported order is refuted: it is wrong for every table size with a = 0 and every p = 2 (mod 3)."
  },
  {
   "property": "C26",
   "status": "partial",
   "theorems": [
    "Ecgen.Poly.findGen_partial",
    "Ecgen.Poly.find_outside",
    "Ecgen.Poly.find_1060_false",
    "Ecgen.Poly.announced_iff"
   ],
   "note": "False at m = 1060 (announced, but missing from the tables); proved for every other degree."
  },
  {
   "property": "C27",
   "status": "partial",
   "theorems": [
    "Ecgen.Irred.irreducible_partial",
    "Ecgen.Irred.field_partial",
    "Ecgen.Irred.irreducible_met"
   ],
   "note": "every polynomial returned for a degree up to 2000 (all rows of the tables that serve these degrees, evaluated in the kernel by a test proved sound with Rabin's criterion) is irreducible over GF(2) and its quotient is a field with 2^m elements; missing: the rows of degree 2001 to 10000, whose kernel evaluation is too slow"
  },
  {
   "property": "C28",
   "status": "partial",
   "theorems": [
    "Ecgen.Subgroup.primes_spec",
    "Ecgen.Subgroup.all_spec_partial",
    "Ecgen.Subgroup.nonprime_spec_partial",
    "Ecgen.Subgroup.many_factors_false",
    "Ecgen.Subgroup.trivial_group"
   ],
   "note": "The prime list is proved without restriction. The other two lists are proved for fewer than 63 prime factors counted with multiplicity; with 63 the subset counter overflows (many_factors_false). For order 1 NULL is returned."
  },
  {
   "property": "C29",
   "status": "proved",
   "theorems": [
    "Ecgen.Group.from_orders",
    "Ecgen.Group.points_of_orders",
    "Ecgen.Group.points_prime",
    "Ecgen.Group.points_all_partial",
    "Ecgen.Group.points_nonprime_partial"
   ],
   "note": "The two _partial theorems inherit the bound of C28 on the number of prime factors; from_orders itself holds for every list of divisors."
  },
  {
   "property": "C30",
   "status": "partial",
   "theorems": [
    "Ecgen.Group.points_trial_partial",
    "Ecgen.Group.points_trial_false"
   ],
   "note": "Refuted: the search stops at the first prime of the list dividing the generator order. points_trial_partial gives the exact result: one point, for that first prime."
  },
  {
   "property": "C31",
   "status": "partial",
   "theorems": [
    "Ecgen.Group.gens_any",
    "Ecgen.Group.gens_generate",
    "Ecgen.Group.gens_one",
    "Ecgen.Group.gens_cofactor_partial",
    "Ecgen.Group.gens_cofactor_false"
   ],
   "note": "The cofactor claim is proved when the prime does not divide the cofactor, and refuted on Z/4 x Z/2 with cofactor 4."
  },
  {
   "property": "C32",
   "status": "proved",
   "theorems": [
    "Ecgen.Order.prime_filter",
    "Ecgen.Order.cofactor_filter",
    "Ecgen.Order.smooth_filter",
    "Ecgen.Order.pohlig_hellman",
    "Ecgen.Order.discriminant_check"
   ],
   "note": ""
  },
  {
   "property": "C33",
   "status": "partial",
   "theorems": [
    "Ecgen.Group.points_random",
    "Ecgen.Group.points_random_trivial_false",
    "Ecgen.Group.point_random_zero_false"
   ],
   "note": "The count is proved; the points are multiples, but zero multiples occur (refuted)."
  },
  {
   "property": "C34",
   "status": "proved",
   "theorems": [
    "Ecgen.Cm.twist_order",
    "Ecgen.Cm.twist_order_binary",
    "Ecgen.Cm.twist_order_wrong"
   ],
   "note": "Over every finite field of odd characteristic and every one of characteristic two; twist_order_wrong shows the hypothesis on the multiplier is needed."
  },
  {
   "property": "C35",
   "status": "partial",
   "theorems": [
    "Ecgen.Twist.twist_partial",
    "Ecgen.Twist.twist_recount",
    "Ecgen.Twist.twist_stale",
    "Ecgen.Twist.twist_stale_false"
   ],
   "note": "False with the default order generator: after a step back from a later stage the twist takes over 2q+2 minus the order of the refused curve. Proved for the generators that count afresh, and for runs in which nothing fails after the order stage."
  },
  {
   "property": "C36",
   "status": "proved",
   "theorems": [
    "Ecgen.Cm.supersingular_order",
    "Ecgen.Cm.supersingular_root_branch"
   ],
   "note": "The p = 3 (mod 4) and p = 2 (mod 3) branches are counted directly; for p = 1 (mod 12) only the choice of the auxiliary prime is modelled, the class polynomial root is PARI's."
  },
  {
   "property": "C37",
   "status": "proved",
   "theorems": [
    "Ecgen.Cm.anomalous_j",
    "Ecgen.Cm.supersingular_j",
    "Ecgen.Cm.twist_j",
    "Ecgen.Cm.hasJ_unique",
    "Ecgen.Cm.j_zero_singular"
   ],
   "note": "The general CM path calls PARI's ellfromj, which is a parameter."
  },
  {
   "property": "C38",
   "status": "proved",
   "theorems": [
    "Ecgen.Cm.norm_equation",
    "Ecgen.Cm.row_used",
    "Ecgen.Cm.equation_never_null",
    "Ecgen.Cm.table_rows",
    "Ecgen.Cm.row43_false"
   ],
   "note": "The row D = 43 of the table holds a wrong j-invariant (row43_false); no bit size selects it."
  },
  {
   "property": "C39",
   "status": "partial",
   "theorems": [
    "Ecgen.P1363.mem_written",
    "Ecgen.P1363.written_nodup",
    "Ecgen.P1363.group_partial",
    "Ecgen.P1363.group_small_false",
    "Ecgen.P1363.group_26_false"
   ],
   "note": "The enumeration is complete, sound and duplicate free for every D; the buffer is too small for D = 1, 2, 26 (and others), where the code writes past its end."
  },
  {
   "property": "C40",
   "status": "partial",
   "theorems": [
    "Ecgen.Meta.metadata_partial",
    "Ecgen.Meta.metadata_binary",
    "Ecgen.Meta.metadata_false",
    "Ecgen.Meta.hasse_coprime",
    "Ecgen.Order.embedding_spec"
   ],
   "note": "Every prime field with p > 5; over GF(5) a curve with 10 points makes znorder raise an error, so the curve is lost."
  },
  {
   "property": "C41",
   "status": "partial",
   "theorems": [
    "Ecgen.Invalid.range_partial",
    "Ecgen.Invalid.single_partial",
    "Ecgen.Invalid.no_range_partial",
    "Ecgen.Invalid.range_zero_false",
    "Ecgen.Invalid.range_one_zero_false",
    "Ecgen.Invalid.no_range_minimal_false"
   ],
   "note": "Ranges a-b and single numbers with ends from 1 to 2^63-1 select exactly the requested primes, and the selection without a range ends with a product above order^2 (order^2 below the product of all primes up to 2^62). False for a lower end 0 (nothing selected), for an empty range such as 1-0 (the loop never ends) and as regards minimality (one prime too many); proved with witnesses."
  },
  {
   "property": "C42",
   "status": "proved",
   "theorems": [
    "Ecgen.Invalid.single_curves"
   ],
   "note": ""
  },
  {
   "property": "C43",
   "status": "proved",
   "theorems": [
    "Ecgen.Invalid.threaded_printed_once",
    "Ecgen.Invalid.threaded_stored_once",
    "Ecgen.Invalid.threaded_complete",
    "Ecgen.Invalid.threaded_no_lost_wakeup",
    "Ecgen.Invalid.threaded_mutex",
    "Ecgen.Invalid.threaded_progress"
   ],
   "note": "Transition system of workers, printing thread, mutex and condition variable; all interleavings, any number of threads. Bodies of critical sections are single steps."
  },
  {
   "property": "C44",
   "status": "partial",
   "theorems": [
    "Ecgen.Invalid.single_curves",
    "Ecgen.Invalid.single_empty_false",
    "Ecgen.Invalid.threaded_array_iff",
    "Ecgen.Invalid.threaded_array_false"
   ],
   "note": "One thread: well-formed whenever at least one prime is selected; false without primes (witness). Several threads: well-formed exactly when the last scan prints exactly one curve; false in general (witness schedule)."
  },
  {
   "property": "C45",
   "status": "proved",
   "theorems": [
    "Ecgen.Invalid.attack_prime",
    "Ecgen.Invalid.attack_binary",
    "Ecgen.Invalid.small_point_exists",
    "Ecgen.Invalid.secret_determined",
    "Ecgen.Invalid.selected_determine"
   ],
   "note": ""
  },
  {
   "property": "C46",
   "status": "partial",
   "theorems": [
    "Ecgen.Cli.consistent",
    "Ecgen.Cli.seed_form_partial",
    "Ecgen.Cli.seed_form_false"
   ],
   "note": "Everything but the form of the seed holds for every accepted command line; the seed has an allowed form when the seed option is the only one of its kind. False in general: a seed given to an earlier --ansi is kept for a later --brainpool (witness)."
  },
  {
   "property": "C47",
   "status": "proved",
   "theorems": [
    "Ecgen.Cli.memory_value",
    "Ecgen.Cli.time_value",
    "Ecgen.Cli.memory_refused",
    "Ecgen.Cli.memory_overflow",
    "Ecgen.Cli.memory_lenient",
    "Ecgen.Cli.memory_case"
   ],
   "note": "memory_overflow and memory_lenient show where the accepted texts are wider than one would expect."
  },
  {
   "property": "C48",
   "status": "partial",
   "theorems": [
    "Ecgen.Input.inputI_decimal_partial",
    "Ecgen.Input.inputI_errors",
    "Ecgen.Input.inputI_sentinel_false",
    "Ecgen.Input.inputI_negative_unbounded"
   ],
   "note": "Non-negative numerals are read faithfully; false for negative ones: -1 and -2 collide with the error sentinels and there is no lower bound."
  },
  {
   "property": "C49",
   "status": "proved",
   "theorems": [
    "Ecgen.Output.printed_form",
    "Ecgen.Output.printed_injective",
    "Ecgen.Output.printed_width",
    "Ecgen.Output.seed_reads",
    "Ecgen.Output.field_reads",
    "Ecgen.Output.printed_curve_reads",
    "Ecgen.Output.printed_curve_injective",
    "Ecgen.Output.printed_elements_injective",
    "Ecgen.Output.printed_defined",
    "Ecgen.Output.modulus_determined",
    "Ecgen.Output.sample_printable"
   ],
   "note": "Whole JSON object of a curve, read back by a separate reader. printed_many_terms_false: a binary modulus with more than four terms besides the constant could not be printed; no way to enter one exists."
  },
  {
   "property": "C50",
   "status": "proved",
   "theorems": [
    "Ecgen.Output.ielement_elementi",
    "Ecgen.Output.elementi_ielement",
    "Ecgen.Output.eltV_injective"
   ],
   "note": ""
  },
  {
   "property": "C51",
   "status": "partial",
   "theorems": [
    "Ecgen.Output.hexCheck_partial",
    "Ecgen.Output.hexCheck_met",
    "Ecgen.Output.hex_zero_false",
    "Ecgen.Output.hex_zero_witness",
    "Ecgen.Output.hex_across_false",
    "Ecgen.Output.hex_missed_false"
   ],
   "note": "Exact for patterns of hex digits not ending in 0, as regards the parameters looked at. False in general: the prefix 0x matches 0, points are concatenated without separator, orders of points and moduli of binary fields are not searched (witnesses)."
  },
  {
   "property": "C52",
   "status": "partial",
   "theorems": [
    "Ecgen.Random.randomInt_range",
    "Ecgen.Random.randomPrime_correct",
    "Ecgen.Random.randomPrime_ends",
    "Ecgen.Random.randomPrime_onto",
    "Ecgen.Random.randomRange_correct",
    "Ecgen.Random.randomFieldElement_correct",
    "Ecgen.Random.someDraws_met",
    "Ecgen.Random.randomInt_size_false",
    "Ecgen.Random.randomPrime_one_false"
   ],
   "note": "The documented ranges hold, exactly. False as regards the number of bits: a random integer of n bits can be 2^n, and the random prime of 1 bit is 2."
  },
  {
   "property": "C53",
   "status": "partial",
   "theorems": [
    "Ecgen.Cli.report_true",
    "Ecgen.Cli.report_complete_partial",
    "Ecgen.Cli.report_complete_false"
   ],
   "note": "Options reported as unused have no effect on the run. For the order constraints, --unique, --koblitz, --metadata and --hex-check an option given is reported or has an effect, except with Brainpool and NUMS, which silently ignore order constraints and --unique (witness: false in general)."
  },
  {
   "property": "C54",
   "status": "proved",
   "theorems": [
    "Ecgen.Str.strCnt_correct"
   ],
   "note": ""
  },
  {
   "property": "C55",
   "status": "proved",
   "theorems": [
    "Ecgen.Family.family_order",
    "Ecgen.Family.family_order_exceptions"
   ],
   "note": ""
  },
  {
   "property": "C56",
   "status": "partial",
   "theorems": [
    "Ecgen.Input.coeff_ask_terminates",
    "Ecgen.Input.field_ask_diverges"
   ],
   "note": "Holds for the coefficients, false for the field: end of file is asked for again forever."
  },
  {
   "property": "C57",
   "status": "partial",
   "theorems": [
    "Ecgen.Input.prime_field_input",
    "Ecgen.Input.binary_field_sound",
    "Ecgen.Input.binary_field_complete",
    "Ecgen.Input.binary_field_eof_false"
   ],
   "note": "Everything except the rejection of incomplete input, which is refuted: at the end of the input missing exponents count as absent."
  },
  {
   "property": "C58",
   "status": "partial",
   "theorems": [
    "Ecgen.Input.inputString_line",
    "Ecgen.Input.inputString_eof_false",
    "Ecgen.Input.order_input",
    "Ecgen.Input.order_input_false"
   ],
   "note": "Refuted for an unterminated last line (last character lost), for the order at the end of the input (-2 is used) and for orders above 2^bits (refused)."
  },
  {
   "property": "C59",
   "status": "partial",
   "theorems": [
    "Ecgen.Cm.anomalous_size_partial",
    "Ecgen.Cm.anomalous_size_false"
   ],
   "note": "False as stated: a request for 11 bits can give 1019, which has 10 bits."
  },
  {
   "property": "C60",
   "status": "partial",
   "theorems": [
    "Ecgen.Cli.family_named",
    "Ecgen.Cli.family_accepted",
    "Ecgen.Cli.points_named_partial",
    "Ecgen.Cli.points_named_false",
    "Ecgen.Cli.points_negative",
    "Ecgen.Cli.threads_named",
    "Ecgen.Cli.threads_negative",
    "Ecgen.Cli.invalid_named",
    "Ecgen.Cli.order_digit",
    "Ecgen.Cli.order_lenient",
    "Ecgen.Cli.files_named",
    "Ecgen.Cli.random_named",
    "Ecgen.Cli.random_in_force",
    "Ecgen.Cli.count_named",
    "Ecgen.Cli.values_met"
   ],
   "note": "false for --points with a prime --order (the type is ignored), and negative numbers are taken for huge ones; proved for everything else"
  },
  {
   "property": "C61",
   "status": "partial",
   "theorems": [
    "Ecgen.P1363.indices_partial",
    "Ecgen.P1363.indices_five_false",
    "Ecgen.P1363.indices_error"
   ],
   "note": "Holds for D = 1, 2, 3, 6, 7 (mod 8); for every D = 5 (mod 8) K is 5 where the standard has 4."
  },
  {
   "property": "C62",
   "status": "proved",
   "theorems": [
    "Ecgen.Twist.plain_order"
   ],
   "note": "Relative to PARI's count. The other stages are arbitrary functions that do not write curve->order."
  },
  {
   "property": "C63",
   "status": "proved",
   "theorems": [
    "Ecgen.Cli.setup_complete"
   ],
   "note": ""
  },
  {
   "property": "C64",
   "status": "proved",
   "theorems": [
    "Ecgen.Cli.constraint_in_force",
    "Ecgen.Cli.constraint_in_force_met"
   ],
   "note": ""
  },
  {
   "property": "C65",
   "status": "partial",
   "theorems": [
    "Ecgen.Files.files_partial",
    "Ecgen.Files.files_false_same",
    "Ecgen.Files.files_false_log",
    "Ecgen.Files.failed_run_empties",
    "Ecgen.Files.quit_null",
    "Ecgen.Files.files_met"
   ],
   "note": "false when the same file is named twice, and a run that fails for want of input has emptied the output file; proved when output, log and input are different files"
  },
  {
   "property": "C66",
   "status": "partial",
   "theorems": [
    "Ecgen.Cm.Construct.prime_order_partial",
    "Ecgen.Cm.Construct.disc3_wrong",
    "Ecgen.Cm.Construct.disc3_wrong_any",
    "Ecgen.Cm.Construct.prime_order_false",
    "Ecgen.Cm.Construct.prime_met",
    "Ecgen.Cm.Construct.any_order_partial",
    "Ecgen.Cm.Construct.any_order_false",
    "Ecgen.Cm.Construct.any_order_false_twist",
    "Ecgen.Cm.Construct.any_met",
    "Ecgen.Cm.Construct.qdiscNext_spec",
    "Ecgen.Cm.Construct.qdiscMinimal_spec",
    "Ecgen.Cm.Construct.subgroup_order"
   ],
   "note": "false for discriminant -3 (always wrong for odd orders) and for composite orders (unsound decision between curve and twist, two witnesses); proved for prime orders of at least 50 with other discriminants, and for composite orders where neither defect shows; relies on the theorem on complex multiplication as a hypothesis"
  },
  {
   "property": "C67",
   "status": "partial",
   "theorems": [
    "Ecgen.Cm.Construct.order_product",
    "Ecgen.Cm.Construct.order_accepted",
    "Ecgen.Cm.Construct.order_fits_false"
   ],
   "note": "proved except that orders of one bit too many are accepted (order_fits_false); order_accepted gives the exact set"
  },
  {
   "property": "C68",
   "status": "partial",
   "theorems": [
    "Ecgen.Own.search_defined",
    "Ecgen.Own.run_defined",
    "Ecgen.Own.printed_allocated",
    "Ecgen.Own.all_released_partial",
    "Ecgen.Own.none_lost_partial",
    "Ecgen.Own.seeds_lost",
    "Ecgen.Own.seeds_leak"
   ],
   "note": "no double release, null entry or index error in any reached state, for all outcomes and timers; false for memory: a search that goes back to the seeds loses the old one (any number, seeds_lost; also in a run that ends, seeds_leak); proved that nothing is lost otherwise"
  },
  {
   "property": "C69",
   "status": "partial",
   "theorems": [
    "Ecgen.Unsat.binary_not_prime",
    "Ecgen.Unsat.prime_binary_never",
    "Ecgen.Unsat.prime_binary_forever",
    "Ecgen.Unsat.cofactor_binary",
    "Ecgen.Unsat.prime_selected",
    "Ecgen.Unsat.prime_binary_accepted",
    "Ecgen.Unsat.methods_refused_partial",
    "Ecgen.Unsat.never_met"
   ],
   "note": "false for order constraints: every curve y^2+xy=x^3+ax^2+b over a field of at least eight elements has an even number of at least four points, so --f2m --prime is accepted and its search never ends, and an odd cofactor k admits only orders 2k; proved that methods for prime fields are refused with --f2m"
  },
  {
   "property": "C70",
   "status": "partial",
   "theorems": [
    "Ecgen.Parson.printed_text_reads",
    "Ecgen.Parson.printed_text_injective",
    "Ecgen.Parson.output_reads",
    "Ecgen.Parson.output_document",
    "Ecgen.Parson.serialise_document",
    "Ecgen.Parson.utf8_accepted",
    "Ecgen.Parson.set_then_get",
    "Ecgen.Parson.grow_fits",
    "Ecgen.Parson.serialise_overflow",
    "Ecgen.Parson.text_met"
   ],
   "note": "proved for texts shorter than INT_MAX bytes; false for a run that fails after its first curve (output_document, exactly) and for texts of 2^31 bytes, whose length overflows (serialise_overflow)"
  },
  {
   "property": "C71",
   "status": "partial",
   "theorems": [
    "Ecgen.Stack.no_stale_memory_partial",
    "Ecgen.Stack.twist_refused_false",
    "Ecgen.Stack.twist_timer_false",
    "Ecgen.Stack.nums_timer_false",
    "Ecgen.Stack.brainpool_field_false",
    "Ecgen.Stack.smooth_release_false",
    "Ecgen.Stack.failure_false",
    "Ecgen.Stack.search_met"
   ],
   "note": "proved for all other methods and options and all executions; false (each with an execution) for twists that are refused or timed out after their order is stored, for the timer within NUMS and families (static b), for Brainpool fields whose first prime is 1 modulo 4, for smooth orders if obj_insert_shallow releases what it replaces, and for the release of the curve after a failed search"
  },
  {
   "property": "C72",
   "status": "partial",
   "theorems": [
    "Ecgen.Timer.no_stale_jump_partial",
    "Ecgen.Timer.generator_limited_partial",
    "Ecgen.Timer.not_cut_early_partial",
    "Ecgen.Timer.signal_effect_partial",
    "Ecgen.Timer.no_limit_no_cut",
    "Ecgen.Timer.timers_deleted",
    "Ecgen.Timer.time_passes",
    "Ecgen.Timer.stale_jump_false",
    "Ecgen.Timer.returned_jump_false",
    "Ecgen.Timer.generator_unlimited_false",
    "Ecgen.Timer.cut_met"
   ],
   "note": "proved for all executions in which the timer does not go off between timer_settime and sigsetjmp; false without this: the handler then jumps to a place that was never set or into a search that has returned, or the signal is lost and the generator runs without limit"
  },
  {
   "property": "C73",
   "status": "partial",
   "theorems": [
    "Ecgen.Stack.invalid_no_stale_memory_partial",
    "Ecgen.Stack.thread_no_stale_memory_partial",
    "Ecgen.Stack.original_failure_false",
    "Ecgen.Stack.thread_last_curve_false",
    "Ecgen.Stack.invalid_met",
    "Ecgen.Stack.thread_met"
   ],
   "note": "one thread: proved for all executions, with the timer, except the release of the original curve after its search failed, which reads numbers given back (original_failure_false); threads: proved without the timer except the release of the last curve of a thread, which reads numbers given back after a round without a use for its curve (thread_last_curve_false)"
  },
  {
   "property": "C74",
   "status": "partial",
   "theorems": [
    "Ecgen.Unsat.koblitz_one",
    "Ecgen.Unsat.koblitz_accepts_partial",
    "Ecgen.Unsat.koblitz_forever",
    "Ecgen.Unsat.cofactor_zero",
    "Ecgen.Unsat.cofactor_one",
    "Ecgen.Unsat.cofactor_subfield",
    "Ecgen.Unsat.cofactor_163",
    "Ecgen.Unsat.cofactor_128",
    "Ecgen.Unsat.koblitz_accepted",
    "Ecgen.Unsat.koblitz_met",
    "Ecgen.Whole.koblitz_ends",
    "Ecgen.Whole.koblitz_never",
    "Ecgen.Whole.koblitz_ends_met"
   ],
   "note": "all candidates have the same number of points, so the order stage accepts all (proved) or none, and then the search never ends (the refutation, koblitz_forever); e.g. --f2m --koblitz --cofactor=2 -r 163 is accepted and never ends; cofactor_zero, cofactor_one and cofactor_subfield say which cofactors are impossible. From the command line: if the number of points (Weil) meets the constraint and the group the generators asked for, every search in which no call fails or times out finds the curve at its first pass, after nine calls (koblitz_ends); if not, no search ever returns a curve (koblitz_never)"
  },
  {
   "property": "C75",
   "status": "partial",
   "theorems": [
    "Ecgen.Whole.run_prints_what_was_asked_partial",
    "Ecgen.Whole.default_run_prints_what_was_asked_partial",
    "Ecgen.Whole.modest_met",
    "Ecgen.Whole.run_met",
    "Ecgen.Whole.run_koblitz_prime_false",
    "Ecgen.Whole.ansi_unreduced_false"
   ],
   "note": "proved for the default method and --ansi with every other option, from the command line to the bytes, except Koblitz curves over prime fields whose bit size is in the table of binary orders, for which it is false (run_koblitz_prime_false), and except that the first coefficient of --ansi is below the size of the field, which is false too (ansi_unreduced_false: 7 is printed over the field of five elements); the text of a curve must be shorter than 2^31 bytes. Missing here: --brainpool, --brainpool-rfc and --nums (C77, C78), --twist, --family, --anomalous, --supersingular, --order, --invalid, whose stages have their own properties. default_run_prints_what_was_asked_partial needs no condition on the length of the texts: at most 2500 bits, no metadata, and points by default, none, at most 2500 random ones, or all for at most 14 bits"
  },
  {
   "property": "C76",
   "status": "partial",
   "theorems": [
    "Ecgen.Whole.search_defined_partial",
    "Ecgen.Whole.points_fine",
    "Ecgen.Whole.found_is_printed_partial",
    "Ecgen.Whole.search_undefined_false",
    "Ecgen.Whole.found_not_printed_false",
    "Ecgen.Whole.cofactor_not_printed_false",
    "Ecgen.Whole.subgroups_undefined_false",
    "Ecgen.Whole.ansi_crash_iff",
    "Ecgen.Whole.ansi_crash_false",
    "Ecgen.Whole.run_met",
    "Ecgen.Whole.subgroups_met"
   ],
   "note": "proved for the default points, for none, where every curve has a second point for random ones, and for all and nonprime subgroups of orders with fewer than 63 prime factors (always below 62 bits, points_fine); false for random points on a curve of one point (search_undefined_false), for a random multiple zero, whose point at infinity cannot be printed (found_not_printed_false; with a number of random points they are printed), and for all subgroups of 65 prime factors (subgroups_undefined_false, a curve of 66 bits). Runs of --ansi over prime fields need that the number derived from the seed is not a multiple of the prime (Invertible); otherwise a null pointer is used (ansi_crash_iff, ansi_crash_false). With --cofactor=k and without --unique, printing and all or nonprime subgroups are proved if the first generator cannot become infinity (Clear: k is 1 or a prime, or k squared is below the number of points, or in general the order is not k times a prime that divides k properly); otherwise a run whose first generator is infinity refutes it (cofactor_not_printed_false, --fp --random --koblitz --cofactor=6 3)"
  },
  {
   "property": "C77",
   "status": "partial",
   "theorems": [
    "Ecgen.Seeded.brainpool_run_prints_partial",
    "Ecgen.Seeded.modest_brainpool_run_prints_partial",
    "Ecgen.Seeded.brainpool_met"
   ],
   "note": "proved for all seeds of 160 bits and bit sizes from 1; the text of a curve must be shorter than 2^31 bytes. Missing: seeds of other lengths, which mixtures of seed options let through (C46), and the bit size 0. modest_brainpool_run_prints_partial needs no condition on the length of the texts: at most 2500 bits, no metadata, and points by default, none, at most 2500 random ones, or all for at most 14 bits"
  },
  {
   "property": "C78",
   "status": "proved",
   "theorems": [
    "Ecgen.Seeded.nums_run_prints",
    "Ecgen.Seeded.modest_nums_run_prints",
    "Ecgen.Seeded.nums_met"
   ],
   "note": "from the command line to the bytes; the text of a curve must be shorter than 2^31 bytes. modest_nums_run_prints needs no condition on the length of the texts: at most 2500 bits, no metadata, and points by default, none, at most 2500 random ones, or all for at most 14 bits"
  },
  {
   "property": "C79",
   "status": "partial",
   "theorems": [
    "Ecgen.Seeded.seed_determines_partial",
    "Ecgen.Seeded.seed_met",
    "Ecgen.Seeded.printed_seed_false",
    "Ecgen.Seeded.base_point_false"
   ],
   "note": "false: the printed seed is the last one of the sequence, from which another curve is found (printed_seed_false), and a random bit chooses the sign of the base point (base_point_false). Proved: for the original version and a given field, the printed seed determines coefficients, order and the base point up to its sign"
  },
  {
   "property": "C80",
   "status": "partial",
   "theorems": [
    "Ecgen.Seeded.nums_search_defined",
    "Ecgen.Seeded.brainpool_search_defined_partial",
    "Ecgen.Seeded.nums_found_is_printed_partial",
    "Ecgen.Seeded.brainpool_found_is_printed_partial",
    "Ecgen.Seeded.infinity_false",
    "Ecgen.Seeded.searches_met"
   ],
   "note": "proved for the searches of --nums (all points options) and of Brainpool (all but --points=all); the curve found can be printed for --nums, but for a random point without a number; false for Brainpool: the multiplier of the base point may be zero, then infinity is accepted as the base point and its coordinates are read (infinity_false); proved: this is the only way. Missing: a random point without a number (C76), bit size 0, seeds of other lengths"
  },
  {
   "property": "C81",
   "status": "partial",
   "theorems": [
    "Ecgen.Special.anomalous_run_prints",
    "Ecgen.Special.modest_anomalous_run_prints",
    "Ecgen.Special.anomalous_order",
    "Ecgen.Special.anomalous_met"
   ],
   "note": "from the command line to the bytes; cited as a hypothesis: the number of points of the curve with complex multiplication by the integers of Q(sqrt -163) (Gross, Stark), from which the order of the curve constructed is proved. The text of a curve must be shorter than 2^31 bytes. modest_anomalous_run_prints (from 7 bits) needs no condition on the length of the texts: at most 2500 bits, no metadata, and points by default, none, at most 2500 random ones, or all for at most 14 bits"
  },
  {
   "property": "C82",
   "status": "partial",
   "theorems": [
    "Ecgen.Special.supersingular_run_prints",
    "Ecgen.Special.modest_supersingular_run_prints",
    "Ecgen.Special.supersingular_met"
   ],
   "note": "from the command line to the bytes; cited as a hypothesis: Deuring's theorem for the roots of class polynomials (the cases p = 3 mod 4 and p = 2 mod 3 are proved without it). The text of a curve must be shorter than 2^31 bytes. modest_supersingular_run_prints needs no condition on the length of the texts: at most 2500 bits, no metadata, and points by default, none, at most 2500 random ones, or all for at most 14 bits"
  },
  {
   "property": "C83",
   "status": "proved",
   "theorems": [
    "Ecgen.Special.family_run_prints",
    "Ecgen.Special.family_met"
   ],
   "note": "from the command line to the bytes, all seven families; the curve that cm_construct_curve_subgroup returns is arbitrary (its order is checked by the program). The text of a curve must be shorter than 2^31 bytes"
  },
  {
   "property": "C84",
   "status": "partial",
   "theorems": [
    "Ecgen.Special.anomalous_search_defined",
    "Ecgen.Special.supersingular_search_defined_partial",
    "Ecgen.Special.family_search_defined_partial",
    "Ecgen.Special.found_is_printed_partial",
    "Ecgen.Special.supersingular_defined_met",
    "Ecgen.Special.family_defined_met"
   ],
   "note": "--anomalous with every option; --supersingular and --family if, with --points=all or nonprime, the orders have fewer than 63 prime factors (C28; proved to hold for supersingular curves of up to 62 bits). Cited: Gross, Deuring, and that a class polynomial of prime discriminant has a root modulo an inert prime. That the invariant 1728 never comes up is proved. Printing: all points options but a random one without a number, which may be at infinity (C76)"
  },
  {
   "property": "C85",
   "status": "proved",
   "theorems": [
    "Ecgen.Special.supersingular_unique",
    "Ecgen.Special.supersingular_unique_none",
    "Ecgen.Special.supersingular_run_prints",
    "Ecgen.Special.supersingular_unique_met",
    "Ecgen.Special.supersingular_unique_none_met"
   ],
   "note": "from the command line to the bytes; Deuring's theorem is a hypothesis as in C82, but only for primes that are 1 modulo 12"
  },
  {
   "property": "C86",
   "status": "partial",
   "theorems": [
    "Ecgen.Twisted.run_prints_twists_partial",
    "Ecgen.Twisted.modest_run_prints_twists_partial",
    "Ecgen.Twisted.twist_sum",
    "Ecgen.Twisted.run_met",
    "Ecgen.Twisted.stale_order_printed"
   ],
   "note": "from the command line to the bytes, with --prime or when nothing fails once a candidate has its order (no timer, --unique, --cofactor or hex check), and without --koblitz. Refuted otherwise: a run with --timeout prints the order 5 and the cofactor 0 for a curve with eleven points. modest_run_prints_twists_partial needs no condition on the length of the texts: at most 2500 bits, no metadata, and points by default, none, at most 2500 random ones, or all for at most 14 bits"
  },
  {
   "property": "C87",
   "status": "partial",
   "theorems": [
    "Ecgen.Twisted.search_defined_partial",
    "Ecgen.Twisted.points_fine",
    "Ecgen.Twisted.found_is_printed_partial",
    "Ecgen.Twisted.order_undefined",
    "Ecgen.Twisted.koblitz_never_found",
    "Ecgen.Twisted.koblitz_run_undefined",
    "Ecgen.Twisted.koblitz_met",
    "Ecgen.Twisted.run_met"
   ],
   "note": "the runs of C86, with no points, the default ones, random ones if each twist has a second point, or all or nonprime subgroups of orders with fewer than 63 prime factors (always below 62 bits, points_fine). Printing needs no further condition. Refuted for --twist --koblitz without an order filter: the order stage takes an element of the field for an integer, in every such search that gets there"
  },
  {
   "property": "C88",
   "status": "partial",
   "theorems": [
    "Ecgen.Ordered.order_run_prints_partial",
    "Ecgen.Ordered.prime_order_run_prints_partial",
    "Ecgen.Ordered.order_run_wrong",
    "Ecgen.Ordered.order_run_met",
    "Ecgen.Ordered.order_run_applies",
    "Ecgen.Ordered.wrong_order_printed"
   ],
   "note": "from the command line to the bytes, for orders of at least 50 that leave the remainder 2 modulo 3, and for several factors with a decided sign of the trace. Otherwise refuted: for an odd order of at least 50 a printed curve with a = 0 never has the order printed with it, and every other curve does; a concrete run of --order=61 prints the order 61 for a curve with 76 points"
  },
  {
   "property": "C89",
   "status": "partial",
   "theorems": [
    "Ecgen.Ordered.order_search_defined_partial",
    "Ecgen.Ordered.order_found_is_printed_partial",
    "Ecgen.Ordered.order_search_ends",
    "Ecgen.Ordered.order_run_met"
   ],
   "note": "random points only for curves with more than one point, all subgroups only for fewer than 63 prime factors"
  },
  {
   "property": "C90",
   "status": "partial",
   "theorems": [
    "Ecgen.Ordered.order_run_same_partial",
    "Ecgen.Ordered.order_run_met",
    "Ecgen.Ordered.order_run_applies"
   ],
   "note": "for odd orders of at least 50 that leave the remainder 2 modulo 3"
  },
  {
   "property": "C91",
   "status": "partial",
   "theorems": [
    "Ecgen.InvalidRun.invalid_run_prints_partial",
    "Ecgen.InvalidRun.modest_invalid_run_prints_partial",
    "Ecgen.InvalidRun.invalid_run_point_false"
   ],
   "note": "from the configuration to the bytes; texts of ordinary size. Refuted: the point listed may have the order of a smaller selected prime; `--invalid=2-3` prints no point of order 3 for a cyclic group of order 6. modest_invalid_run_prints_partial needs no condition on the length of the texts: accepted command lines of at most 2500 bits"
  },
  {
   "property": "C92",
   "status": "proved",
   "theorems": [
    "Ecgen.InvalidRun.undefined_sticks",
    "Ecgen.InvalidRun.finished_defined",
    "Ecgen.InvalidRun.undefined_run",
    "Ecgen.InvalidRun.undefined_met",
    "Ecgen.InvalidRun.invalid_run_defined",
    "Ecgen.InvalidRun.invalid_run_met"
   ],
   "note": "for selections that are numbers from 1 to 2^63-1, a range of such, or none with fewer than 2^59 bits"
  },
  {
   "property": "C93",
   "status": "proved",
   "theorems": [
    "Ecgen.InvalidRun.invalid_run_empty",
    "Ecgen.InvalidRun.invalid_run_large",
    "Ecgen.InvalidRun.invalid_run_zero",
    "Ecgen.InvalidRun.invalid_run_empty_met",
    "Ecgen.InvalidRun.invalid_run_large_met",
    "Ecgen.InvalidRun.invalid_run_zero_met"
   ],
   "note": "three reasons for which a run cannot end with the status 0"
  },
  {
   "property": "C94",
   "status": "partial",
   "theorems": [
    "Ecgen.Reseed.reseed_defined",
    "Ecgen.Reseed.reseed_device",
    "Ecgen.Reseed.reseed_injective",
    "Ecgen.Reseed.reseed_clock",
    "Ecgen.Reseed.reseed_fits",
    "Ecgen.Reseed.reseed_ends",
    "Ecgen.Reseed.reseed_met",
    "Ecgen.Reseed.reseed_stuck",
    "Ecgen.Reseed.reseed_ends_false",
    "Ecgen.Reseed.reseed_nonzero_false"
   ],
   "note": "proved: nothing undefined, the whole first eight bytes are taken, and the call ends within eight reads if each delivers something. Refuted: a device that is at its end or fails makes the program hang, and without the device the seed is 0 at the start of a second"
  },
  {
   "property": "C95",
   "status": "partial",
   "theorems": [
    "Ecgen.InvalidRun.threaded_run_prints",
    "Ecgen.InvalidRun.threaded_run_document",
    "Ecgen.InvalidRun.threaded_run_met",
    "Ecgen.InvalidRun.threaded_run_json_false",
    "Ecgen.InvalidRun.threaded_run_point_false"
   ],
   "note": "a single number for --invalid at most 2^63-25; the document for at most 2500 bits. Proved: all values printed, at all times and for all schedules, and that the bytes are a JSON document exactly if the last scan prints one curve. Refuted: `--invalid=2-3 --threads=2` may print two curves without a comma between them, and the point listed may have the order of a larger selected prime"
  },
  {
   "property": "C96",
   "status": "proved",
   "theorems": [
    "Ecgen.InvalidRun.threaded_run_defined",
    "Ecgen.InvalidRun.threaded_run_met"
   ],
   "note": "for selections as in C92; a single number at most 2^63-25"
  },
  {
   "property": "C97",
   "status": "partial",
   "theorems": [
    "Ecgen.Copy.copy_partial",
    "Ecgen.Copy.copy_unfaithful",
    "Ecgen.Copy.release",
    "Ecgen.Copy.release_twice",
    "Ecgen.Copy.copy_release",
    "Ecgen.Copy.copy_outlives",
    "Ecgen.Copy.clone_survives",
    "Ecgen.Copy.copy_perishes",
    "Ecgen.Copy.holds_unique",
    "Ecgen.Copy.copy_met",
    "Ecgen.Copy.copy_faithful_false"
   ],
   "note": "Proved: the copy succeeds, shares nothing, has the same printed members; releasing gives back exactly the blocks of a curve. Refuted: the metadata of the curve and the type of its seed, with what belongs to it, are not copied"
  },
  {
   "property": "C98",
   "status": "proved",
   "theorems": [
    "Ecgen.Engine.verbose_found",
    "Ecgen.Engine.verbose_failed",
    "Ecgen.Engine.verbose_running",
    "Ecgen.Engine.verbose_count",
    "Ecgen.Engine.verbose_nothing",
    "Ecgen.Engine.verbose_met"
   ],
   "note": "of the single attempt that ends a failed search nothing is written but the message on the limit"
  },
  {
   "property": "C99",
   "status": "partial",
   "theorems": [
    "Ecgen.Whole.every_curve_found_partial",
    "Ecgen.Whole.every_curve_printed_partial",
    "Ecgen.Whole.which_curves",
    "Ecgen.Whole.every_curve_met",
    "Ecgen.Whole.cofactor_never_found_false"
   ],
   "note": "false: with --cofactor=k and without --unique a curve whose group is not cyclic is never found, though it has a subgroup of the order wanted (cofactor_never_found_false: --fp --random --cofactor=4 3 never gives y^2 = x^3 + 1 over F_7 with 12 points); groups of k^2 elements are the only exception. Proved: which_curves, the curves that can be printed are exactly those that meet the options and whose group is cyclic (--unique, --cofactor) or of k^2 elements (--cofactor=k). The random numbers are any within their ranges; that generators of the group exist as PARI promises them (at most two, C04) is a hypothesis; the first generator must not vanish (Clear, C76); bytes for runs of modest size"
  }
 ]
}
