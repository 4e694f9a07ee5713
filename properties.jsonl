{"id": "C01", "title": "A successful curve search only returns parameters whose every stage is fresh and validated", "statement": "When the staged curve search (seed, field, a, b, curve, order, generators, points, metadata) reports success, every requested stage was executed, the last execution of each stage was accepted (it succeeded without timeout and passed all of its validators), and after that last execution only later stages were executed or cleaned up, so every stage was computed on top of the final values of the stages before it. Any property that each stage establishes from the previous stages and that cleanup preserves therefore holds of the returned curve.", "quantifier": "for all generator, validator and cleanup behaviours (including timeouts at any stage), all start and end stages, all retry limits, all runs", "why_tests_cant": "The number of backtracking histories is infinite and depends on random curves; a test sees a handful of them.", "anchors": ["src/exhaustive/exhaustive.c:exhaustive_gen_retry", "src/exhaustive/exhaustive.c:exhaustive_gen"]}
{"id": "C02", "title": "A search with a retry limit always terminates", "statement": "With a positive retry limit r the staged search over n stages returns after at most (r+1)^n stage executions, whatever the generators, validators and timeouts do; it never loops forever.", "quantifier": "for all positive retry limits, all stage ranges, all behaviours of generators, validators and timeouts", "why_tests_cant": "Termination over all adversarial generator behaviours cannot be observed by running the program.", "anchors": ["src/exhaustive/exhaustive.c:exhaustive_gen_retry"]}
{"id": "C03", "title": "A search fails only for a declared reason, and backtracking stays inside the requested stages", "statement": "The search never executes a stage before the start stage or at/after the end stage, never calls a cleanup for a stage outside the abandoned ones (it calls exactly one cleanup for each abandoned stage, latest first, and none for the stage it resumes at), and reports failure only if a stage or validator reported a fatal error or asked to go back before the first stage of the program, or the positive retry limit was reached at some stage.", "quantifier": "for all generator/validator/cleanup behaviours, all stage ranges and retry limits", "why_tests_cant": "Requires reasoning about every backtracking distance from every stage.", "anchors": ["src/exhaustive/exhaustive.c:exhaustive_gen_retry", "src/exhaustive/exhaustive.c:exhaustive_uinit"]}
{"id": "C04", "title": "The curve list printed by the normal and CM modes is a well-formed JSON array", "statement": "Whatever the requested count and whichever curve generation fails, the text printed by the tool is a JSON array of the curves generated before the failure, in order.", "quantifier": "for all counts and all success/failure patterns of the individual generations", "why_tests_cant": "Needs every failure position for every count; the repository tests only run the success path.", "anchors": ["src/exhaustive/exhaustive.c:exhaustive_generate", "src/io/output.c:output_o_begin", "src/io/output.c:output_o_separator", "src/io/output.c:output_o_end"]}
{"id": "C05", "title": "The bundled SHA-1 is FIPS 180 SHA-1 and does not depend on how the input is chunked", "statement": "Initialising, feeding a message in any sequence of pieces and finalising yields the FIPS 180-4 SHA-1 digest of the concatenation, for every message short enough for the 32-bit-pair bit counter; in particular hashing a seed in one piece or several gives the same digest.", "quantifier": "for all byte strings within the counter range and all ways of splitting them into updates", "why_tests_cant": "Test vectors cover a few messages; padding and buffering boundaries depend on the total length and on every split.", "anchors": ["lib/sha1/sha1.c:SHA1_Init", "lib/sha1/sha1.c:SHA1_Update", "lib/sha1/sha1.c:SHA1_Final", "src/util/bits.c:bits_sha1"]}
{"id": "C06", "title": "Integer to bit-string conversion round-trips, and fixed-length conversion keeps the value", "statement": "Converting any integer (of any sign) to a bit string and back returns it; converting a non-negative integer to a bit string of a given length at least its bit length pads on the left and keeps its value; if the requested length is smaller, the most significant bits are kept. Bit strings survive the way through an integer and back at their own length.", "quantifier": "for all integers and all lengths", "why_tests_cant": "All lengths and values, including multiples of 8 and zero.", "anchors": ["src/util/bits.c:bits_from_i", "src/util/bits.c:bits_from_i_len", "src/util/bits.c:bits_to_i"]}
{"id": "C07", "title": "Hexadecimal and binary text conversions of bit strings are faithful", "statement": "Reading a hex string yields four bits per digit in order with the usual digit values in both cases; the printed hex of any bit string has two digits per started byte and denotes the same integer (right aligned); reading back the printed hex of a string of whole bytes returns it; binary text, raw bytes and 0/1-vector conversions round-trip exactly.", "quantifier": "for all bit strings of any length and any padding content, all hex strings", "why_tests_cant": "The unaligned printing path depends on the bit length modulo 8 and on neighbouring bytes.", "anchors": ["src/util/bits.c:bits_from_hex", "src/util/bits.c:bits_to_hex", "src/util/bits.c:bits_from_bin", "src/util/bits.c:bits_to_bin", "src/util/bits.c:bits_from_raw", "src/util/bits.c:bits_to_raw", "src/util/bits.c:bits_to_bitvec", "src/util/bits.c:bits_from_bitvec"]}
{"id": "C08", "title": "Bit-string editing operations mean what their names say", "statement": "Concatenation, logical shift, lengthening and shortening in either direction, complement and reversal act on the represented bit sequence exactly like the corresponding list operations, leave the length they promise, and the in-place and copying variants agree; complement and reversal are involutions.", "quantifier": "for all bit strings satisfying the allocation invariant and all amounts in range", "why_tests_cant": "Byte-level implementations of bit-level operations: every length, offset and amount matters.", "anchors": ["src/util/bits.c:bits_concat", "src/util/bits.c:bits_shiftz", "src/util/bits.c:bits_lengthenz", "src/util/bits.c:bits_shortenz", "src/util/bits.c:bits_shiftiz", "src/util/bits.c:bits_notz", "src/util/bits.c:bits_rotz"]}
{"id": "C09", "title": "Bitwise OR and AND align operands at their least significant bit", "statement": "OR and AND of two bit strings have the length of the longer one and represent the bitwise OR and AND of the represented non-negative integers; both are commutative in value.", "quantifier": "for all pairs of bit strings of any lengths", "why_tests_cant": "All length combinations and both operand orders.", "anchors": ["src/util/bits.c:bits_or", "src/util/bits.c:bits_and", "src/util/bits.c:bits_bitwise"]}
{"id": "C10", "title": "Bit rotation is a rotation for every amount", "statement": "Rotating a bit string of positive length by a positive or negative amount moves bit i+amount (modulo the length) to position i; rotating by amount and by -amount are inverse.", "quantifier": "for all bit strings and all signed amounts", "why_tests_cant": "The negative wrap-around case mixes signed and unsigned 64-bit arithmetic; the one test uses length 8, where the bug is invisible.", "anchors": ["src/util/bits.c:bits_shiftrz", "src/util/bits.c:bits_shiftr"]}
{"id": "C11", "title": "Bit-string equality compares exactly the represented value", "statement": "Two bit strings compare equal if and only if they have the same sign, the same length and the same bits; bytes or bits past the length never influence the answer.", "quantifier": "for all pairs of bit strings with arbitrary padding contents", "why_tests_cant": "Padding contents are arbitrary memory.", "anchors": ["src/util/bits.c:bits_eq"]}
{"id": "C12", "title": "Bit-string operations never touch memory outside their allocation", "statement": "Starting from bit strings whose buffer covers their length, every bit-string operation reads and writes only inside the allocated buffer and returns a bit string satisfying the same invariant.", "quantifier": "for all bit strings satisfying the invariant and all in-range amounts, all sequences of operations", "why_tests_cant": "Out-of-bounds accesses are undefined behaviour and usually silent.", "anchors": ["src/util/bits.c", "src/util/bits.h:GET_BIT", "src/util/bits.h:SET_BIT"]}
{"id": "C13", "title": "Random bit strings can take every value", "statement": "A random bit string of length n is built from uniformly drawn bits so that every value of n bits is possible (a random 160-bit seed can be any 160-bit seed).", "quantifier": "for all lengths and all outputs of the random source", "why_tests_cant": "Unreachable values of a random function cannot be seen by sampling.", "anchors": ["src/util/bits.c:bits_new_rand", "src/exhaustive/brainpool.c:brainpool_gen_seed_random", "src/exhaustive/ansi.c:ansi_gen_seed_random"]}
{"id": "C14", "title": "Hex arguments are accepted exactly when they are hex", "statement": "The hex validation accepts exactly the strings of hex digits with an optional 0x/0X prefix followed by something, and returns the digits without the prefix.", "quantifier": "for all strings", "why_tests_cant": "Every string, including the ones around the prefix boundary.", "anchors": ["src/util/str.c:str_is_hex"]}
{"id": "C15", "title": "String joining never writes past its buffer and returns the concatenation", "statement": "Joining any number of strings with or without separator returns their concatenation with the separator between neighbours, within the allocated buffer.", "quantifier": "for all lists of strings and all separators", "why_tests_cant": "Heap overflows need particular counts and lengths; unit tests use two or three strings.", "anchors": ["src/util/str.c:str_join", "src/util/str.c:str_joinv"]}
{"id": "C16", "title": "ANSI X9.62 verifiably random prime-field curves satisfy the standard's relation with their seed", "statement": "For the prime field p and seed of a generated ANSI curve, the value r derived from the seed by the X9.62 hashing procedure satisfies r*b^2 = a^3 modulo p for the printed a and b, so a verifier accepts the curve.", "quantifier": "for all seeds, bit sizes and primes, all random choices of a for which generation succeeds", "why_tests_cant": "A verifier-style relation over all seeds and fields.", "anchors": ["src/exhaustive/ansi.c:ansi_gen_equation", "src/exhaustive/ansi.c:seed_process"]}
{"id": "C17", "title": "ANSI X9.62 seed expansion has the prescribed structure", "statement": "From a seed of g bits and a field of t bits, the expansion consists of the low h bits of SHA-1(seed) (top bit cleared for prime fields) followed by SHA-1 of (seed+i) mod 2^g for i=1..s, with s=floor((t-1)/160) and h=t-160s, for a total of t bits, so the derived integer is below 2^(t-1) for prime fields.", "quantifier": "for all seeds of at least 160 bits and all field sizes", "why_tests_cant": "Length bookkeeping for every t, in particular around multiples of 160.", "anchors": ["src/exhaustive/ansi.c:seed_process", "src/exhaustive/ansi.c:seed_stoi", "src/exhaustive/ansi.c:seed_itos"]}
{"id": "C18", "title": "Brainpool fields are deterministic from the seed and satisfy the Brainpool conditions", "statement": "For every 160-bit seed and size L, a field accepted by Brainpool generation is the first prime congruent 3 mod 4 at or after the hashed seed value among the iterated seeds, has exactly L bits, and the seed stored afterwards is the incremented seed modulo 2^160.", "quantifier": "for all seeds and all sizes", "why_tests_cant": "Depends on iteration over hash outputs.", "anchors": ["src/exhaustive/brainpool.c:brainpool_gen_field", "src/exhaustive/brainpool.c:brainpool_hash", "src/exhaustive/brainpool.c:brainpool_update_seed"]}
{"id": "C19", "title": "Brainpool equations satisfy the conditions of their variant", "statement": "For every accepted Brainpool equation the printed a satisfies a*z^4 = -3 modulo p for some z, b is a square (original variant) respectively a non-square (RFC 5639 variant) modulo p, and the curve is non-singular; a and b are the hash expansions of two consecutive seeds (original variant), b of the first later seed with a non-square expansion (RFC variant).", "quantifier": "for all fields p congruent 3 mod 4, all seeds", "why_tests_cant": "All seeds and primes; the tests only check the return code.", "anchors": ["src/exhaustive/brainpool.c:brainpool_gen_equation", "src/exhaustive/brainpool_rfc.c:brainpool_rfc_gen_equation"]}
{"id": "C20", "title": "Accepted Brainpool and NUMS curves resist the MOV and anomalous attacks", "statement": "A curve that passes the Brainpool/NUMS generator validators has, for each subgroup, order different from p and embedding degree larger than (n-1)/100: for every k up to that bound n does not divide p^k-1.", "quantifier": "for all primes p and all subgroup orders n", "why_tests_cant": "A divisibility statement over all k.", "anchors": ["src/exhaustive/brainpool.c:brainpool_check_gens", "src/gen/gens.c:gens_get_embedding", "src/gen/gens.c:gens_check_anomalous"]}
{"id": "C21", "title": "NUMS fields are the largest suitable primes", "statement": "The NUMS field for a given bit size is the largest prime congruent 3 mod 4 below 2^bits.", "quantifier": "for all bit sizes", "why_tests_cant": "Maximality over all smaller candidates for all sizes.", "anchors": ["src/exhaustive/nums.c:nums_gen_field"]}
{"id": "C22", "title": "NUMS curves are the first in their deterministic sequence", "statement": "The NUMS curve has a=-3 and the smallest b in the sequence 1,2,3,... for which the curve is non-singular and both the order and the twist order are prime, independently of which curves the process generated before.", "quantifier": "for all primes and all generation histories", "why_tests_cant": "History dependence through a static variable; needs all histories.", "anchors": ["src/exhaustive/nums.c:nums_gen_b", "src/exhaustive/nums.c:nums_gen_order"]}
{"id": "C23", "title": "Pairing-family parameters satisfy the defining identities of their family", "statement": "For every supported family (BN, BLS12, BLS24, KSS16, KSS18, KSS36, KSS40) and every seed z for which the polynomials are integral, the printed p, r and trace t satisfy: r divides p+1-t, r divides the k-th cyclotomic value at t-1 (hence p^k = 1 mod r), and 4p-t^2 is the family's CM discriminant times a square.", "quantifier": "for all integers z in the family's residue classes", "why_tests_cant": "Polynomial identities over all z.", "anchors": ["src/exhaustive/family.c:bn_p", "src/exhaustive/family.c:bls12_p", "src/exhaustive/family.c:family_gen_field"]}
{"id": "C24", "title": "A family seed entered interactively is rejected when the input is missing or invalid", "statement": "If the seed input is empty, at end of file, or too large, the generation of a pairing-family curve fails instead of silently using a default seed.", "quantifier": "for all input streams", "why_tests_cant": "The error sentinels collide with legal values.", "anchors": ["src/exhaustive/family.c:family_gen_seed_input", "src/io/input.c:input_int"]}
{"id": "C25", "title": "Koblitz orders are the orders of Koblitz curves", "statement": "Whenever the Koblitz order lookup for (m, a) succeeds it returns 2^m + 1 - V_m, V the Lucas sequence with V_0=2, V_1=(-1)^(1-a), V_(k+1)=V_1*V_k-2*V_(k-1) (the number of points of y^2+xy=x^3+ax^2+1 over GF(2^m)), which is 2 or 4 times an odd number; lookups of pairs not in the table return nothing. The order printed for a Koblitz curve is the order of that curve, also over prime fields.", "quantifier": "for all m and a", "why_tests_cant": "All table entries and all absent keys; the prime-field path is never tested.", "anchors": ["src/math/koblitz.c:koblitz_curves", "src/math/koblitz.c:koblitz_find", "src/gen/order.c:order_gen_koblitz"]}
{"id": "C26", "title": "Every supported binary field degree has a reduction polynomial", "statement": "For every degree m the tool declares as supported (2..10000), the lookup returns a polynomial of degree m with constant term and one or three distinct middle terms of degree between 1 and m-1, and random binary field generation never dereferences a missing entry.", "quantifier": "for all m", "why_tests_cant": "Ten thousand table rows split over four tables and searched by bisection: one absent row is one crashing input.", "anchors": ["src/math/poly.c:poly_find", "src/math/poly.c:poly_exists", "src/math/poly.c:poly_gen"]}
{"id": "C27", "title": "Reduction polynomials are irreducible", "statement": "The polynomial returned for a binary field degree is irreducible over GF(2), so the quotient ring is a field.", "quantifier": "for all supported degrees", "why_tests_cant": "Irreducibility of each polynomial is a statement over all factorisations.", "anchors": ["src/math/poly.c:hp_trinomials", "src/math/poly.c:ansi_trinomials", "src/math/poly.c:hp_pentanomials", "src/math/poly.c:ansi_pentanomials"]}
{"id": "C28", "title": "Subgroup order lists are exactly the requested divisors", "statement": "For a group order n the prime list is exactly the set of primes dividing n, the non-prime list exactly the composite divisors, and the full list exactly the divisors greater than one, each once.", "quantifier": "for all n >= 2", "why_tests_cant": "Set equality over all n; powerset enumeration with minimum size.", "anchors": ["src/math/subgroup.c:subgroups_prime", "src/math/subgroup.c:subgroups_nonprime", "src/math/subgroup.c:subgroups_all"]}
{"id": "C29", "title": "Points generated for subgroup orders have exactly that order", "statement": "Every point generated for a subgroup order m dividing a generator's order has order exactly m and lies in the group of the generator.", "quantifier": "for all abelian groups, generators and divisors", "why_tests_cant": "All groups and divisors.", "anchors": ["src/gen/point.c:points_from_orders", "src/gen/point.c:point_gen_random"]}
{"id": "C30", "title": "Trial points for a list of primes cover every prime that divides a generator's order", "statement": "For a list of primes, trial generation gives each generator one point of order l for every prime l of the list dividing the generator's order.", "quantifier": "for all lists of primes and all generator orders", "why_tests_cant": "Needs at least two primes dividing one generator order.", "anchors": ["src/gen/point.c:points_gen_trial"]}
{"id": "C31", "title": "Generator stages give the promised subgroup structure", "statement": "With the unique-generator option an accepted curve group is cyclic and generated by the printed generator; with cofactor k an accepted generator set starts with a generator of a subgroup of prime order n/k; cofactors and orders printed multiply to the group order.", "quantifier": "for all finite abelian groups with at most two invariant factors", "why_tests_cant": "All group structures, including non-cyclic ones.", "anchors": ["src/gen/gens.c:gens_gen_one", "src/gen/gens.c:gens_gen_cofactor", "src/gen/gens.c:gens_gen_any"]}
{"id": "C32", "title": "Order filters accept exactly the requested orders", "statement": "The prime filter accepts exactly prime orders, the cofactor filter exactly the orders k times a prime, and the smooth filter exactly the orders all of whose prime factors have at most the requested number of bits.", "quantifier": "for all orders and parameters", "why_tests_cant": "All orders.", "anchors": ["src/gen/order.c:order_gen_prime", "src/gen/order.c:order_gen_cofactor", "src/gen/order.c:order_gen_smooth"]}
{"id": "C33", "title": "Random point counts are honoured", "statement": "Asking for n random points yields exactly n points in total, spread over the generators, each a non-zero multiple of its generator.", "quantifier": "for all n, generator counts and random outputs", "why_tests_cant": "All splits and random draws.", "anchors": ["src/gen/point.c:points_gen_random", "src/gen/point.c:point_gen_random"]}
{"id": "C34", "title": "The quadratic twist has order 2q+2-n", "statement": "If a curve over a prime field with p elements (p>3) has n points, the twisted curve the tool prints has 2p+2-n points; the printed twist order is therefore right whenever the recorded order is that of the curve being twisted.", "quantifier": "for all primes and curves", "why_tests_cant": "Point counts over all fields.", "anchors": ["src/math/twists.c:twist_rand_to", "src/gen/curve.c:curve_gen_any_twist"]}
{"id": "C35", "title": "A twist search never reports a stale order", "statement": "In twist mode the order printed is the order of the printed curve, also when the search had to backtrack.", "quantifier": "for all runs of the search", "why_tests_cant": "Requires a backtracking run in twist mode; state left over from the previous attempt.", "anchors": ["src/gen/curve.c:curve_gen_any_twist", "src/gen/order.c:order_gen_any", "src/exhaustive/exhaustive.c:exhaustive_uinit"]}
{"id": "C36", "title": "Supersingular curves over prime fields have p+1 points", "statement": "For p = 3 mod 4 the curve y^2=x^3-x and for p = 2 mod 3 the curve y^2=x^3+1 that the tool constructs have exactly p+1 points, matching the order the tool reports without counting.", "quantifier": "for all primes", "why_tests_cant": "Point counts over all primes.", "anchors": ["src/cm/supersingular.c:supersingular_gen_equation", "src/cm/supersingular.c:supersingular_gen_order"]}
{"id": "C37", "title": "Curves built from a j-invariant have that j-invariant", "statement": "The equation constructed from a j-invariant (CM, anomalous and supersingular construction) different from 0 and 1728 is non-singular and has exactly that j-invariant, over every field of characteristic larger than 3, and twisting factors keep it.", "quantifier": "for all fields of characteristic > 3 and all j", "why_tests_cant": "An algebraic identity over all fields.", "anchors": ["src/cm/anomalous.c:anomalous_gen_equation", "src/cm/cm_any.c", "src/cm/cm_prime.c", "src/cm/supersingular.c"]}
{"id": "C38", "title": "Anomalous construction parameters force trace one", "statement": "For every table discriminant D and every b, the prime p = D*b*(b+1)+(D+1)/4 satisfies 4p = 1 + D*(2b+1)^2, so the CM norm equation has solution t=1; the bit size and the table row used by the field and by the equation stage are the same.", "quantifier": "for all b and all rows", "why_tests_cant": "All b.", "anchors": ["src/cm/anomalous.c:anomalous_gen_field", "src/cm/anomalous.c:anomalous_init", "src/cm/anomalous.c:anomalous_gen_equation"]}
{"id": "C39", "title": "The reduced form enumeration is complete, duplicate-free and stays in its buffer", "statement": "For a discriminant D the enumeration returns exactly the primitive reduced forms (A,B,C) with AC-B^2=D, |2B|<=A<=C (B non-negative on the boundary), each once, and never writes past its buffer.", "quantifier": "for all D >= 1", "why_tests_cant": "Completeness over all forms; the buffer bound fails only for particular D.", "anchors": ["src/cm/p1363.c:p1363_group", "src/cm/p1363.c:p1363_forms"]}
{"id": "C40", "title": "CM metadata is consistent", "statement": "The printed trace, CM discriminant and conductor satisfy t = q+1-n and disc*conductor^2 = t^2-4q; embedding degree is the least k with n | q^k-1.", "quantifier": "for all fields and orders", "why_tests_cant": "All inputs.", "anchors": ["src/gen/metadata.c:metadata_gen", "src/gen/gens.c:gens_get_embedding"]}
{"id": "C41", "title": "Primes selected for invalid-curve generation are exactly the requested ones", "statement": "With a range a-b exactly the primes in [a,b] are selected, with a single number the least prime not below it, and without a range the primes from 2 upward until their product exceeds the square of the curve order (so that CRT recovers the secret).", "quantifier": "for all curve orders and all ranges", "why_tests_cant": "All ranges, including degenerate ones.", "anchors": ["src/invalid/invalid.c:invalid_primes"]}
{"id": "C42", "title": "Single-threaded invalid-curve generation delivers one curve per selected prime", "statement": "When single-threaded invalid-curve generation returns, for every selected prime one curve with order divisible by that prime was printed, none twice for the same prime set membership, on the same field and with the same a as the original curve.", "quantifier": "for all prime lists and all random curves", "why_tests_cant": "Bookkeeping over all divisibility patterns.", "anchors": ["src/invalid/invalid.c:invalid_curves_single"]}
{"id": "C43", "title": "Multi-threaded invalid-curve generation prints each selected prime's curve exactly once under every schedule", "statement": "For every interleaving of the worker threads and the printing thread, each selected prime's curve is stored exactly once and printed exactly once, and no wakeup is lost while work remains.", "quantifier": "for all numbers of threads, prime lists and interleavings", "why_tests_cant": "Schedules cannot be enumerated by tests.", "anchors": ["src/invalid/invalid_thread.c:invalid_thread", "src/invalid/invalid.c:invalid_curves_threaded"]}
{"id": "C44", "title": "Invalid-curve output is a well-formed JSON array", "statement": "The text printed by invalid-curve generation, single- or multi-threaded, is a JSON array of the original curve followed by the invalid curves.", "quantifier": "for all schedules and all prime lists", "why_tests_cant": "The separator logic depends on the schedule.", "anchors": ["src/invalid/invalid.c:invalid_curves_single", "src/invalid/invalid.c:invalid_curves_threaded", "src/invalid/invalid.c:invalid_do"]}
{"id": "C45", "title": "Invalid curves are usable for the attack", "statement": "The affine addition and doubling formulas give the same results on every curve with the same field and a, so a point of small order on a generated invalid curve behaves as such in an implementation for the original curve.", "quantifier": "for all fields, all a and b, all points", "why_tests_cant": "An algebraic statement over all fields.", "anchors": ["src/invalid/invalid.c:invalid_invalid_ginit", "src/gen/equation.c:b_gen_random"]}
{"id": "C46", "title": "Accepted command lines have a consistent configuration", "statement": "When option parsing accepts a command line, exactly one field type, at most one order constraint and one generation method are selected, prime-field-only methods have a prime field, NUMS is not random, the seed of a seeded method has an allowed form for that method, and unset numeric options have their documented defaults.", "quantifier": "for all argument vectors", "why_tests_cant": "All orders and combinations of options.", "anchors": ["src/io/cli.c:cli_parse", "src/io/cli.c:cli_end"]}
{"id": "C47", "title": "Memory and time arguments denote the documented quantity", "statement": "A memory size with suffix k/K, m/M, g/G and a time with suffix s, m, h denotes the number scaled by the documented factor, whenever the result is representable.", "quantifier": "for all numbers and suffixes", "why_tests_cant": "All numbers, including those that overflow.", "anchors": ["src/io/cli.c:cli_parse_memory", "src/io/cli.c:cli_parse"]}
{"id": "C48", "title": "Interactive integer input is interpreted faithfully", "statement": "The integer reader returns the number on the line whenever it lies in the allowed range and distinguishes every accepted number from the conditions 'no/invalid input' and 'end of input'.", "quantifier": "for all input lines and bit sizes", "why_tests_cant": "Sentinel values collide with specific legal inputs.", "anchors": ["src/io/input.c:input_i", "src/gen/equation.c:a_gen_input", "src/gen/field.c:field_gen_input"]}
{"id": "C49", "title": "Printed field elements and points denote the generated values", "statement": "Printed hex values have the '0x' prefix, are padded to the field width, and parse back to the generated value; equal values print equally and distinct values print differently.", "quantifier": "for all values and field widths", "why_tests_cant": "All widths and values.", "anchors": ["src/io/output.c:output_jjson", "src/misc/types.h", "src/gen/field.c:field_elementi"]}
{"id": "C50", "title": "Field elements survive the conversion to integers and back", "statement": "Converting an integer below the field size to a field element and back is the identity, for prime and binary fields.", "quantifier": "for all fields and integers in range", "why_tests_cant": "All elements of all fields.", "anchors": ["src/gen/field.c:field_elementi", "src/gen/field.c:field_ielement"]}
{"id": "C51", "title": "The hex search accepts a curve exactly when the pattern occurs in a printed parameter", "statement": "With a hex pattern, the curve is accepted if and only if the pattern occurs (ignoring case) within the hex digits of one of the printed parameters.", "quantifier": "for all patterns and curves", "why_tests_cant": "False positives come from concatenation and prefixes.", "anchors": ["src/gen/hex.c:hex_check_param"]}
{"id": "C52", "title": "Random integers stay in their documented range", "statement": "Random integers, primes and ranges requested with a bit size or bounds lie in the documented range and are prime where promised.", "quantifier": "for all sizes and all outputs of the random source", "why_tests_cant": "Boundary values occur with negligible probability.", "anchors": ["src/util/random.c:random_int", "src/util/random.c:random_prime", "src/util/random.c:random_range"]}
{"id": "C53", "title": "Options that have no effect are reported", "statement": "Every option given by the user is either used by the chosen generation path or reported as unused.", "quantifier": "for all configurations", "why_tests_cant": "All combinations of options.", "anchors": ["src/misc/config.c:config_report_unused", "src/misc/config.h:GET"]}
{"id": "C54", "title": "Counting a character in an argument is exact and stays inside the string", "statement": "The helper that counts delimiters in a command-line argument returns the number of occurrences of the character in the string, and its in-place scan never reads past the terminating NUL.", "quantifier": "for all strings and all non-NUL characters", "why_tests_cant": "The scan moves pointer and counter alternately; whether the two always stay inside the string and count exactly is a property of all strings.", "anchors": ["src/util/str.c:str_cnt", "src/cm/cm.c"]}
{"id": "C55", "title": "A pairing-family curve has the number of points its family prescribes", "statement": "Whenever the tool accepts a pairing-family curve for a seed z, the printed order is exactly p+1-t for the family's trace t (not merely some multiple of r), so the curve really belongs to the family; the only possible exceptions are two one-digit seeds.", "quantifier": "for all families, all seeds and all curve cardinalities within Hasse's bound", "why_tests_cant": "The acceptance test only checks divisibility by r; that no other multiple of r fits is an inequality over all seeds.", "anchors": ["src/exhaustive/family.c:family_gen_order", "src/exhaustive/family.c:family_gen_field"]}
{"id": "C56", "title": "Reading parameters ends when the input ends", "statement": "When curve parameters are read from a finite input, repeated asking stops: each failed attempt consumes input and reaching the end of the input gives up instead of asking forever.", "quantifier": "for all finite inputs, delimiters and bit sizes", "why_tests_cant": "Termination over all inputs; the end-of-file path is different for each parameter.", "anchors": ["src/gen/equation.c:a_gen_input", "src/gen/field.c:field_gen_once", "src/gen/field.c:field_gen_input", "src/io/input.c:input_i"]}
{"id": "C57", "title": "A typed field is the field that is used", "statement": "Typing a prime up to 2^bits gives the prime field of that size and nothing but primes is accepted; typing the degree and three exponents gives exactly the field of the polynomial with these terms, provided it is irreducible and at least one exponent is non-zero; incomplete input is not accepted.", "quantifier": "for all inputs, delimiters, bit sizes and exponent triples", "why_tests_cant": "All input texts; the wrong acceptance at the end of input occurs only at particular cut points.", "anchors": ["src/gen/field.c:field_gen_input", "src/io/input.c:input_prime", "src/io/input.c:input_short"]}
{"id": "C58", "title": "Typed strings and orders are taken over unchanged", "statement": "A typed string is returned without its line terminator and otherwise complete, also on the last line of the input; a typed group order is the order that is used, and at the end of the input no order is invented.", "quantifier": "for all strings, delimiters, bit sizes and orders in the Hasse interval", "why_tests_cant": "All strings and orders; the deviations sit at the end of the input and above 2^bits.", "anchors": ["src/io/input.c:input_string", "src/gen/order.c:order_gen_input"]}
{"id": "C59", "title": "Anomalous prime has the requested size", "statement": "The prime chosen for an anomalous curve of a requested bit size has exactly that number of bits.", "quantifier": "for every bit size, every discriminant table row and every random choice for which the search ends", "why_tests_cant": "The rounding at both ends of the sampled interval only shows for particular random draws and sizes.", "anchors": ["src/cm/anomalous.c:anomalous_prime", "src/cm/anomalous.c:anomalous_init"]}
{"id": "C61", "title": "Class invariant indices follow the IEEE P1363 table", "statement": "For every discriminant D and reduced form the integers I, J, K, L used in the class invariant are those of IEEE P1363 A.13.2, and no internal error is raised.", "quantifier": "for all D not divisible by 4 and all reduced forms", "why_tests_cant": "The only test uses D = 71; the cases D = 1, 2, 3, 5, 6 (mod 8) are never exercised.", "anchors": ["src/cm/p1363.c:p1363_invariant", "src/cm/p1363.c:p1363_K", "src/cm/p1363.c:p1363_L"]}
{"id": "C62", "title": "The printed order is the order of the printed curve", "statement": "Outside of twist mode the order printed with a curve whose points are counted (all but Koblitz, family and complex multiplication curves, for which see C25, C55 and C66) is the number of points of that curve, whatever order filter is active, however often the search stepped back and whatever earlier candidates left behind.", "quantifier": "for all runs of the search, all candidates and all behaviours of the other stages", "why_tests_cant": "Depends on state left over from refused candidates in arbitrarily long searches.", "anchors": ["src/gen/order.c:order_gen_any", "src/gen/order.c:order_gen_sea", "src/gen/order.c:order_gen_cofactor", "src/gen/curve.c:curve_unroll", "src/exhaustive/exhaustive.c:exhaustive_gen_retry"]}
{"id": "C63", "title": "Accepted command lines set up a complete search", "statement": "Whenever option parsing accepts a command line, every stage of the search it starts has a generator, every generator that reads an argument is given one of the kind it reads, and so has every check; no stage is entered without a generator.", "quantifier": "for all accepted argument vectors and all orders requested", "why_tests_cant": "The tables are filled from all combinations of method, seed, order constraint, points and check options; a hole is a call through a null pointer or a search that always fails.", "anchors": ["src/exhaustive/exhaustive.c:exhaustive_ginit", "src/exhaustive/exhaustive.c:exhaustive_ainit", "src/exhaustive/exhaustive.c:exhaustive_cinit", "src/cm/cm.c:cm_ginit", "src/cm/cm.c:cm_ainit", "src/invalid/invalid.c:invalid_original_ginit", "src/invalid/invalid.c:invalid_invalid_ginit"]}
{"id": "C64", "title": "The requested order constraint is in force", "statement": "With the default, twist and ANSI X9.62 methods, --prime makes the search keep only prime orders, --cofactor and --smooth make it filter orders with the last value given for the option, --cofactor also determines the generators unless --unique is given, and --unique asks for one generator, whatever the other options and their order.", "quantifier": "for all accepted argument vectors of these methods", "why_tests_cant": "All combinations, repetitions and orders of options.", "anchors": ["src/io/cli.c:cli_parse", "src/exhaustive/exhaustive.c:exhaustive_ginit", "src/exhaustive/exhaustive.c:exhaustive_ainit"]}
{"id": "C60", "title": "Option arguments mean what the help text says", "statement": "On every accepted command line: the last --family selects the family it names (in any letter case) and exactly the documented names are accepted; the last --points with an optional number and a documented type selects that type and number, and the search then runs the corresponding point generator (with that number when the points are random); --threads uses the positive number given, refuses zero, and 'auto' uses the number of processors; --invalid only accepts digits and dashes and the run uses that text; --order contains a digit; --random makes exactly the named parts random, all of them without an argument; --count is the number given; the input, output, data and log names are the last ones given, and output is appended exactly with --append.", "quantifier": "for all sequences of options, all argument texts and all processor counts", "why_tests_cant": "the option sequences and argument texts are unbounded; a test covers a few command lines and not the interplay of repeated options", "anchors": ["src/io/cli.c: cli_parse, cli_options", "src/exhaustive/exhaustive.c: exhaustive_ginit, exhaustive_ainit", "src/cm/cm.c: cm_ginit, cm_ainit"]}
{"id": "C65", "title": "Files: what is written where, and what is left alone", "statement": "After a run that ends regularly, the output file holds its former content followed by exactly the printed text with --append, and exactly the printed text without; if it cannot be opened, or none is named, the printed text goes to standard output; the log file holds the log; no other file changes; the input is the content the input file had before the run; every file opened is closed exactly once and nothing else is closed; when the input file cannot be opened no curve is printed and the run fails.", "quantifier": "for all file systems, all file names and options, all sequences of texts written and read", "why_tests_cant": "quantifies over file system contents, coinciding names and all outputs; tests use a handful of fresh files", "anchors": ["src/io/output.c: output_init, output_quit, output_is_std, output_f", "src/io/input.c: input_init, input_quit", "src/ecgen.c: init, quit, main"]}
{"id": "C66", "title": "A curve constructed for an order has that many points", "statement": "When a curve is constructed by complex multiplication for a requested order N, the curve that is returned has exactly N points (affine solutions and the point at infinity), which is the order the program reports without counting.", "quantifier": "for all requested orders, all random points, all choices PARI makes", "why_tests_cant": "the outcome depends on random points and on which discriminant is found first; wrong curves appear only for some of them and the program never counts the points", "anchors": ["src/cm/cm_prime.c: add_primes, qdisc_next, cm_gen_curve_prime", "src/cm/cm_any.c: good_qdisc_minimal, cm_construct_curve, cm_construct_curve_subgroup, cm_gen_curve_any, cm_gen_order"]}
{"id": "C67", "title": "The requested order is the product of the factors given", "statement": "The argument of --order for the complex multiplication method is one number or a list of factors separated by commas; the order used is their product, an order of zero or one that does not fit into the requested number of bits is refused, and the construction for prime orders is used exactly for a single prime number. Nothing is written outside of the vector of factors.", "quantifier": "for all argument texts and bit sizes", "why_tests_cant": "argument texts are unbounded; an index error or an off-by-one in the size test shows only on particular ones", "anchors": ["src/cm/cm.c: cm_init", "src/util/str.c: str_cnt"]}
{"id": "C68", "title": "Every object of a search is released exactly once", "statement": "During a search, with any number of retries, refused candidates and expired timers, no object is released twice, no released object or null entry is read, and no array is left its bounds; a curve that is printed refers only to objects that exist. After a run the memory that is allocated is what was allocated before: nothing is lost, however long the search was.", "quantifier": "for all sequences of results of the generators and validators, all points at which a timer expires, all numbers of curves", "why_tests_cant": "which objects exist when a candidate is refused depends on the whole history of the search; a leak or double release needs a particular sequence of failures, often triggered by timing", "anchors": ["src/obj/curve.c: curve_free", "src/obj/subgroup.c: subgroup_free_deep, subgroups_free_deep", "src/obj/point.c: points_free_deep", "src/gen/seed.c: seed_free, seed_unroll", "src/gen/gens.c: gens_unroll", "src/gen/point.c: points_unroll", "src/gen/curve.c: curve_unroll", "src/exhaustive/exhaustive.c: exhaustive_gen_retry, exhaustive_generate", "src/exhaustive/family.c: family_gen_seed_random"]}
{"id": "C69", "title": "A request that no curve satisfies is refused", "statement": "A combination of options that no curve can satisfy is refused when the options are read, so that a search that is started can succeed: methods for prime fields are refused with --f2m, and order constraints that no curve over the chosen kind of field meets are refused.", "quantifier": "for all command lines, all fields of a kind, all curves over them, all runs of the search", "why_tests_cant": "that no candidate is ever accepted is a statement about all curves over all binary fields; a test can only see that a search has not ended yet", "anchors": ["src/io/cli.c: cli_end", "src/gen/order.c: order_gen_prime, order_gen_cofactor", "src/exhaustive/exhaustive.c: exhaustive_ginit, exhaustive_gen_retry"]}
{"id": "C70", "title": "The printed bytes are the JSON text of the curves", "statement": "The bytes printed for a curve are one JSON text by RFC 8259, and whoever reads them as JSON gets the values of the curve: field, seed, coefficients, order, generators and points; curves with different values have different texts. What a run prints altogether is the JSON text of the array of the printed curves. Strings in it are valid UTF-8 with every special character escaped, the text buffer is filled exactly and never overrun, and no byte behind the end of a string is read.", "quantifier": "for all curves, widths, metadata, contents of fresh memory, trees of JSON values and numbers of curves", "why_tests_cant": "the buffer is sized by one pass over the tree and filled by another, and a reader's view depends on every byte; tests see a few trees, not that no text is ambiguous, malformed or one byte too long", "anchors": ["src/io/output.c: output_jjson, output_json_point, output_sjson, output_sjson_begin, output_sjson_separator, output_sjson_end", "lib/parson/parson.c: json_serialize_to_string_pretty, json_serialize_to_buffer_r, json_serialize_string, append_indent, json_object_set_value, json_object_dotset_value, is_valid_utf8"]}
{"id": "C71", "title": "No search looks at memory it has given back", "statement": "While curves are searched for, printed and released, no number is read after the stack memory it lies in was given back or after its clone was released, no clone is released twice and no null pointer is read, however often the search goes back, wherever the timer goes off, and for any number of curves.", "quantifier": "for all accepted command lines (but those of the invalid curve method), all numbers drawn or typed, all outcomes of the tests and lengths of loops, all points at which the timer may go off, and all numbers of curves", "why_tests_cant": "a stale pointer reads memory that usually still holds the old value; whether it does depends on what was allocated since, on the order of failures and on the timer", "anchors": ["src/exhaustive/exhaustive.c: exhaustive_gen_retry, exhaustive_generate, exhaustive_uinit", "src/gen/*.c, src/exhaustive/*.c, src/cm/*.c: every generator, check and unroll function", "src/math/twists.c: twist_rand", "src/obj/curve.c: curve_free", "src/obj/point.c: subgroups_free_deep"]}
{"id": "C72", "title": "The timer limits each computation and touches nothing else", "statement": "With a timeout of n seconds no generator of a parameter runs for longer than n seconds; when the time is up exactly that generator is ended and the search goes on in the same call; a parameter that takes less time is never cut off; checks, cleanup, printing and other searches are never interrupted; every timer is deleted. Without a timeout nothing is ever cut off.", "quantifier": "for all times n, all durations of all steps of the program, all numbers of searches and iterations, and all moments at which the signal may arrive", "why_tests_cant": "the outcome depends on where the program is when the signal arrives; the dangerous moments are a few instructions long", "anchors": ["src/util/timeout.h: timeout_start, timeout_stop", "src/util/timeout.c: timeout_handle", "src/exhaustive/exhaustive.c: exhaustive_gen_retry"]}
{"id": "C73", "title": "The invalid curve method keeps the curves it has found", "statement": "In a run with --invalid nothing that was given back is looked at, no null pointer is read and nothing is released twice: not while the curve to invalidate is searched for, not in any round of the search for invalid curves, not when they are printed, copied and released. The original curve and every curve found so far stay intact in memory during all later rounds, whatever these give back. The searches whose results the program does not look at never give up.", "quantifier": "for all command lines with --invalid, all curves drawn, all sets of primes and all ways in which they divide the orders, any number of rounds, all moments at which the timer goes off (one thread), all threads", "why_tests_cant": "whether memory that was given back is looked at depends on the sequence of refused and accepted curves; the result is wrong only if the memory was used again meanwhile", "anchors": ["src/invalid/invalid.c: invalid_do, invalid_original_curve, invalid_curves_single", "src/invalid/invalid_thread.c: invalid_thread", "src/obj/curve.c: curve_copy, curve_free", "src/exhaustive/exhaustive.c: exhaustive_gen_retry"]}
{"id": "C74", "title": "A request for a Koblitz curve ends", "statement": "A request for a Koblitz curve over a binary field with a constraint on the order (cofactor, smoothness) ends with a curve that meets it, or is refused if no such curve exists.", "quantifier": "for all degrees, both coefficients, all constraints, all field polynomials, all timers and all behaviours of the other stages", "why_tests_cant": "that a search never ends cannot be observed; which degrees and cofactors go together is a theorem about all fields", "anchors": ["src/exhaustive/exhaustive.c: exhaustive_ginit, exhaustive_gen_retry", "src/gen/order.c: order_gen_cofactor, order_gen_smooth", "src/math/koblitz.c", "src/io/cli.c: cli_end"]}
{"id": "C75", "title": "The program prints what was asked for", "statement": "When the program ends with the status 0, what it has printed is the JSON text of an array with as many curves as were asked for; each curve, in the numbers read back from the text, is a nonsingular curve over a field of the size and kind asked for, its printed order is the number of its points and meets the constraint given (prime, cofactor, smooth), the coefficients are those of the Koblitz option, each generator is a point of the printed order whose cofactor completes the order, the generators generate the group, and the points listed are multiples of the generator of the printed orders, one for each order asked for; a seed is printed exactly if a seeded method was chosen.", "quantifier": "for all command lines of the default method and of --ansi, all random numbers, all typed input, all failures and retries of the stages, all moments at which the timer goes off, all numbers of curves", "why_tests_cant": "it joins the command line, the tables of functions, the search with its retries, the mathematics of the stages and the bytes on the output; no sample of runs covers the combinations of options, failures and interruptions", "anchors": ["src/ecgen.c: main", "src/io/cli.c: cli_parse", "src/exhaustive/exhaustive.c: exhaustive_init, exhaustive_gen_retry, exhaustive_generate", "src/gen", "src/io/output.c: output_o", "lib/parson"]}
{"id": "C76", "title": "A run does nothing undefined", "statement": "No stage of the search for a curve reads a member of the curve before it is set, uses an argument that is missing, or takes points of another curve; and every curve a search finds can be printed.", "quantifier": "for all command lines of the default method and of --ansi, all random numbers, all typed input, all failures and retries, all moments at which the timer goes off, in searches that succeed, fail or never end", "why_tests_cant": "undefined behaviour need not show; the order of stages depends on failures, retries and the timer", "anchors": ["src/exhaustive/exhaustive.c: exhaustive_gen_retry, exhaustive_ginit, exhaustive_ainit, exhaustive_uinit", "src/gen/point.c: point_gen_random, points_gen_random", "src/gen/gens.c", "src/io/output.c: output_o"]}
{"id": "C77", "title": "A run of --brainpool or --brainpool-rfc prints Brainpool curves", "statement": "When such a run ends with the status 0, what it has printed is the JSON text of an array with as many curves as were asked for. Each curve, in the numbers read back from the text: the prime has exactly the number of bits asked for and is 3 modulo 4; prime and coefficients are the ones the standard derives by SHA-1 from a sequence of seeds (with the square conditions of the version asked for); the curve is nonsingular, its printed order is the number of its points, prime, less than the field size and of embedding degree above (order-1)/100; there is one generator, of the whole group with cofactor 1; it is the multiple, by the number derived from the printed seed, of a point with the least first coordinate; the points listed are those asked for.", "quantifier": "for all command lines with --brainpool or --brainpool-rfc, all seeds of 160 bits, all random numbers, all failures and retries of the stages, all moments at which the timer goes off, all numbers of curves", "why_tests_cant": "the properties of each of infinitely many seeds and their hashes matter, and each retry continues the sequence of seeds in its own way", "anchors": ["src/exhaustive/brainpool.c", "src/exhaustive/brainpool_rfc.c", "src/exhaustive/exhaustive.c: exhaustive_ginit, exhaustive_cinit, exhaustive_gen_retry, exhaustive_generate", "src/gen/order.c: order_gen_prime", "src/gen/gens.c: gens_check_anomalous", "src/io/output.c: output_o"]}
{"id": "C78", "title": "A run of --nums prints NUMS curves", "statement": "When such a run ends with the status 0, what it has printed is the JSON text of an array with as many curves as were asked for. Each curve, in the numbers read back from the text: the field has the largest prime of at most the number of bits asked for that is 3 modulo 4, the first coefficient is -3, the curve is nonsingular, its printed order is the number of its points, prime, not the field size and of embedding degree above (order-1)/100, the order of the twist is prime too; there is one generator, of the whole group with cofactor 1: the point with the least first coordinate from 1 on, with the smaller of the two second coordinates; no seed is printed.", "quantifier": "for all command lines with --nums, all bit sizes, all failures and retries, all moments at which the timer goes off, all numbers of curves and addresses of curve objects", "why_tests_cant": "static variables and addresses steer the search over any number of curves; primes and orders of all sizes", "anchors": ["src/exhaustive/nums.c", "src/exhaustive/exhaustive.c: exhaustive_ginit, exhaustive_cinit, exhaustive_gen_retry, exhaustive_generate", "src/exhaustive/brainpool.c: brainpool_check_gens", "src/io/output.c: output_o"]}
{"id": "C79", "title": "The printed seed identifies a Brainpool curve", "statement": "The seed printed with a curve of --brainpool is one from which the program prints that curve again, base point included.", "quantifier": "for all seeds, all bit sizes, all runs", "why_tests_cant": "the seeds of one run do not show what a second run from the printed seed does, and a random bit that goes one way in a test may go the other way later", "anchors": ["src/exhaustive/brainpool.c: brainpool_update_seed, brainpool_gen_gens", "src/io/output.c: output_o"]}
{"id": "C80", "title": "A run of a seeded method does nothing undefined", "statement": "In a run of --brainpool, --brainpool-rfc or --nums no stage of the search and no check reads a member of the curve or a coordinate that is not there, and every curve a search finds can be printed.", "quantifier": "for all command lines with one of the three options, all seeds of 160 bits, all random numbers, all failures and retries, all moments at which the timer goes off, in searches that succeed, fail or never end", "why_tests_cant": "undefined behaviour need not show; it depends on hashes of seeds and on orders of curves", "anchors": ["src/exhaustive/brainpool.c: brainpool_gen_gens, brainpool_check_gens", "src/exhaustive/nums.c: nums_gen_b, nums_gen_gens", "src/exhaustive/exhaustive.c: exhaustive_gen_retry", "src/gen/point.c", "src/io/output.c: output_o"]}
{"id": "C81", "title": "A run of --anomalous prints anomalous curves", "statement": "When such a run ends with the status 0, what it has printed is the JSON text of an array with as many curves as were asked for. Each curve, in the numbers read back from the text, is nonsingular over a prime field and has exactly as many points as the field has elements; the prime is 163 b (b + 1) + 41 for some b, below 2^bits and at most 163 below 2^(bits-1) (it is 41 for every request of at most 7 bits); points and generators lie on the curve and have the orders printed.", "quantifier": "for all command lines with the option that the program accepts, all random numbers in their ranges, all answers typed in, all failures and retries, all moments at which the timer goes off, all numbers of curves", "why_tests_cant": "the curve depends on random numbers of the size of the field; that the order is right rests on complex multiplication, not on a point count", "anchors": ["src/cm/anomalous.c: anomalous_init, anomalous_gen_field, anomalous_gen_equation, anomalous_gen_order", "src/cm/cm.c: cm_do", "src/exhaustive/exhaustive.c: exhaustive_gen_retry, exhaustive_generate", "src/io/output.c: output_o"]}
{"id": "C82", "title": "A run of --supersingular prints supersingular curves", "statement": "When such a run ends with the status 0, what it has printed is the JSON text of an array with as many curves as were asked for. Each curve, in the numbers read back from the text, is nonsingular over a prime field as asked for and has one point more than the field has elements; points and generators lie on the curve and have the orders printed.", "quantifier": "for all command lines with the option that the program accepts, all random numbers in their ranges, all answers typed in, all failures and retries, all moments at which the timer goes off, all numbers of curves", "why_tests_cant": "the curve depends on the class of the prime modulo 4 and 3 and on the first inert discriminant; the order is printed without a point count", "anchors": ["src/cm/supersingular.c: supersingular_gen_equation, supersingular_gen_order", "src/cm/cm.c: cm_do", "src/exhaustive/exhaustive.c: exhaustive_gen_retry, exhaustive_generate", "src/io/output.c: output_o"]}
{"id": "C83", "title": "A run of --family prints members of the family", "statement": "When such a run ends with the status 0, what it has printed is the JSON text of an array with as many curves as were asked for. Each curve, in the numbers read back from the text, is nonsingular over the prime field whose size is the value of the family's polynomial at the printed seed; the value of the family's second polynomial is a prime that divides the number of points, and the embedding degree of that prime is the family's.", "quantifier": "for all command lines with the option that the program accepts, all random numbers in their ranges, all answers typed in, all failures and retries, all moments at which the timer goes off, all numbers of curves, all seven families", "why_tests_cant": "the parameters are random integers of any size; the search goes back to the equation any number of times", "anchors": ["src/exhaustive/family.c: family_gen_seed_random, family_gen_seed_input, family_gen_field, family_gen_equation_iter, family_gen_equation_cm, family_gen_order", "src/exhaustive/exhaustive.c: exhaustive_gen_retry, exhaustive_generate", "src/io/output.c: output_o"]}
{"id": "C84", "title": "Runs of --anomalous, --supersingular and --family do nothing undefined", "statement": "While such a run searches for a curve, no member of the curve is used before it is set, no null pointer is taken for a table entry, nothing is divided by zero in the field, no root is taken from an empty list of roots, and the lists of points can be made; a search that succeeds gives a curve that can be printed.", "quantifier": "for all command lines with the option that the program accepts, all random numbers in their ranges, all answers typed in, all failures and retries, all moments at which the timer goes off, after every single call of a generator with its checks, in searches that succeed, fail or never end", "why_tests_cant": "the invariant 1728, an empty list of roots or a missing factor would come up for single primes among all; the search can go back any number of times", "anchors": ["src/cm/anomalous.c: anomalous_gen_equation", "src/cm/supersingular.c: supersingular_gen_equation", "src/exhaustive/family.c: family_gen_field, family_gen_equation_iter, family_gen_order", "src/exhaustive/exhaustive.c: exhaustive_gen_retry", "src/gen/point.c: points_gen_all, points_gen_nonprime, points_gen_random"]}
{"id": "C85", "title": "--supersingular with --unique works only for primes that are 1 modulo 4", "statement": "Each supersingular curve printed is y^2 = x^3 - x if the prime is 3 modulo 4, y^2 = x^3 + 1 if it is 5 modulo 12, and y^2 = x^3 + a x - a if it is 1 modulo 12. The first has three points of order two, so with --unique only curves over primes that are 1 modulo 4 are printed, and with at most 2 bits no curve is ever found.", "quantifier": "for all command lines with the option that the program accepts, all random numbers in their ranges, all answers typed in, all failures and retries, all moments at which the timer goes off", "why_tests_cant": "the statement is about all primes, and about a search that never ends", "anchors": ["src/cm/supersingular.c: supersingular_gen_equation", "src/gen/gens.c: gens_gen_one", "src/cm/cm.c: cm_init"]}
{"id": "C86", "title": "A run of --twist prints quadratic twists", "statement": "When a run of --twist ends well, the bytes printed are a JSON array of as many curves as were asked for. Each is one that was asked for (its order is the number of its points, the order filter holds, the generators and points are right), and it is a quadratic twist of a curve whose coefficients were drawn or typed: the orders of the two add up to 2q + 2.", "quantifier": "for all command lines with --twist that the program accepts, all random numbers in their ranges, all answers typed in, all twists PARI may choose, all failures and retries, all moments at which the timer goes off", "why_tests_cant": "the order of a curve that was refused is left behind in the curve and taken for the order of the next; it shows only after a failure in the right stage", "anchors": ["src/gen/curve.c: curve_gen_any_twist", "src/math/twists.c: twist_rand, twist_rand_to", "src/exhaustive/exhaustive.c: exhaustive_gen_retry, exhaustive_ginit", "src/gen/order.c", "src/io/output.c: output_o"]}
{"id": "C87", "title": "Runs of --twist do nothing undefined", "statement": "While a run of --twist searches, no member of the curve is used before it is set, no argument is missing, and no coefficient that is an element of the field is taken for an integer; a search that succeeds gives a curve that can be printed.", "quantifier": "for all command lines with --twist that the program accepts, all random numbers in their ranges, all answers typed in, all twists PARI may choose, all failures and retries, all moments at which the timer goes off, after every single call of a generator with its checks, in searches that succeed, fail or never end", "why_tests_cant": "the types of the coefficients change with the twist; undefined behaviour need not show", "anchors": ["src/gen/curve.c: curve_gen_any_twist", "src/math/twists.c: twist_rand_to", "src/gen/order.c: order_gen_koblitz", "src/exhaustive/exhaustive.c: exhaustive_ginit"]}
{"id": "C88", "title": "A run of --order prints curves of the order that was typed", "statement": "When a run of --order ends well, the bytes printed are a JSON array of as many curves as were asked for; each is a nonsingular curve over a prime field whose number of points is the order printed with it and the product of the numbers typed, and the generators and points printed with it are right.", "quantifier": "for all command lines with --order that the program accepts, all orders typed, all random numbers, all points and nonsquares PARI may choose, all roots of the class polynomials in whatever order, all failures and retries, all moments at which the timer goes off", "why_tests_cant": "the order is never counted: it is what was typed, and is right only if the discriminant, the root of the class polynomial and the twist are right; for one discriminant the curves have six twists and the program tries two", "anchors": ["src/cm/cm.c: cm_init, cm_do", "src/cm/cm_prime.c: cm_gen_curve_prime", "src/cm/cm_any.c: cm_gen_curve_any", "src/gen/order.c", "src/gen/gens.c", "src/exhaustive/exhaustive.c: exhaustive_generate", "src/io/output.c: output_o"]}
{"id": "C89", "title": "Runs of --order do nothing undefined and end", "statement": "While a run of --order searches, no member of the curve is used before it is set and no argument is missing or of the wrong type; a search that succeeds gives a curve that can be printed; and if nothing goes wrong a search succeeds with its ninth call.", "quantifier": "for all command lines with --order that the program accepts, all orders typed, all random numbers, all points and nonsquares PARI may choose, all roots of the class polynomials in whatever order, all failures and retries, all moments at which the timer goes off, after every single call of a generator with its checks, in searches that succeed, fail or never end", "why_tests_cant": "undefined behaviour need not show; the order is read back from a text that the method has built from the product", "anchors": ["src/cm/cm.c: cm_init, cm_do", "src/cm/cm_prime.c: cm_gen_curve_prime", "src/cm/cm_any.c: cm_gen_curve_any", "src/exhaustive/exhaustive.c: exhaustive_ginit"]}
{"id": "C90", "title": "A run of --order prints the same curve again and again", "statement": "However many curves are asked for with --count, all that a run of --order prints are over the same field and isomorphic to each other: the substitution x = u²x', y = u³y' makes one equation out of the other.", "quantifier": "for all command lines with --order that the program accepts, all orders typed, all random numbers, all points and nonsquares PARI may choose, all roots of the class polynomials in whatever order, all failures and retries, all moments at which the timer goes off", "why_tests_cant": "a statement about all pairs of curves of all runs; two runs may print different equations of the same curve", "anchors": ["src/cm/cm_prime.c: cm_gen_curve_prime", "src/cm/cm_any.c: cm_gen_curve_any", "src/exhaustive/exhaustive.c: exhaustive_generate"]}
{"id": "C91", "title": "A run of --invalid prints the curve and an invalid curve for each prime", "statement": "When a run of --invalid ends with the status 0, the bytes printed are a JSON array. Its first element is the curve to invalidate, with the right order and generators. The other elements correspond to the primes that the option selects: each is a nonsingular curve over the same field with the same first coefficient, whose order is right and divisible by its prime, with right generators, and with a point of the order of its prime listed.", "quantifier": "for all command lines with --invalid and one thread that the program accepts, all fields and coefficients drawn or typed, all selections of primes, all failures and retries, all moments at which the timer goes off", "why_tests_cant": "every b drawn, every order of the orders found, every pair of a curve and a prime; the same memory is used for the curves that are dropped and those that are kept", "anchors": ["src/invalid/invalid.c: invalid_do, invalid_original_curve, invalid_primes, invalid_curves_single, invalid_original_ginit, invalid_invalid_ginit", "src/gen/point.c: points_gen_trial", "src/exhaustive/exhaustive.c: exhaustive_gen_retry", "src/io/output.c: output_o, output_o_separator"]}
{"id": "C92", "title": "Runs of --invalid do nothing undefined", "statement": "While a run of --invalid with one thread searches, selects, stores and prints, no member of a curve is used before it is set, and no array of zero length is declared for the generators.", "quantifier": "for all command lines with --invalid and one thread that the program accepts, all fields and coefficients drawn or typed, all selections of primes, all failures and retries, all moments at which the timer goes off, whether the run ends or not", "why_tests_cant": "undefined behaviour need not show; it would need a curve of a certain order to be drawn in a certain round", "anchors": ["src/invalid/invalid.c: invalid_do, invalid_original_curve, invalid_primes, invalid_curves_single, invalid_original_ginit, invalid_invalid_ginit", "src/gen/point.c: points_gen_trial", "src/exhaustive/exhaustive.c: exhaustive_gen_retry", "src/io/output.c: output_o, output_o_separator"]}
{"id": "C93", "title": "Runs of --invalid that cannot end well", "statement": "A run of --invalid ends with the status 0 only if that is possible: if no prime is selected it ends with the status 1 and has printed no JSON; if a selected prime exceeds the orders of all curves over fields of the size asked for it never ends with the status 0; and if the primes are selected by the order and the curve to invalidate is y² = x³ + b over a prime field with p = 2 modulo 3 it never ends with the status 0.", "quantifier": "for all command lines with --invalid and one thread that the program accepts, all fields and coefficients drawn or typed, all selections of primes, all failures and retries, all moments at which the timer goes off", "why_tests_cant": "a statement that something never happens in runs without end", "anchors": ["src/invalid/invalid.c: invalid_do, invalid_original_curve, invalid_primes, invalid_curves_single, invalid_original_ginit, invalid_invalid_ginit", "src/gen/point.c: points_gen_trial", "src/exhaustive/exhaustive.c: exhaustive_gen_retry", "src/io/output.c: output_o, output_o_separator"]}
{"id": "C94", "title": "Every start takes a full fresh seed", "statement": "The program and each of its threads seed the random generator with the number that the first eight bytes of /dev/urandom spell, however short the single reads are, so that different bytes give different seeds; if the device does not open or the bytes are all zero, the clock is taken. Seeding writes nothing outside its variable, ends, and never seeds with zero.", "quantifier": "for all contents of the device, all splittings of the reads, all clocks", "why_tests_cant": "short reads, a missing or failing device and a clock at the start of a second do not happen in a test; randomness cannot be asserted from one output", "anchors": ["src/util/random.c: random_reseed, random_init", "src/ecgen.c: init", "src/invalid/invalid_thread.c: invalid_thread"]}
{"id": "C95", "title": "--invalid prints the right curves with several threads", "statement": "A run of --invalid with several threads prints, whatever the schedule, first the curve to invalidate as the default method would print it, and by its end one invalid curve for each selected prime, over the same field with the same first coefficient, with right orders, generators and points, of an order divisible by the prime and with a point of the order of the prime; what it has printed at its end is a JSON array of these curves.", "quantifier": "for all configurations, all numbers of threads, all schedules, all answers of PARI to all threads, all times", "why_tests_cant": "the schedules and the random answers to the threads are unbounded in number; a test sees one schedule", "anchors": ["src/invalid/invalid.c: invalid_do, invalid_curves_threaded, invalid_original_curve, invalid_primes", "src/invalid/invalid_thread.c: invalid_thread", "src/exhaustive/exhaustive.c: exhaustive_gen_retry", "src/gen/point.c: points_gen_trial"]}
{"id": "C96", "title": "--invalid with several threads does nothing undefined", "statement": "In a run of --invalid with several threads no thread uses a member of a curve that is not set, declares an array of length zero, or has a stored curve that cannot be printed.", "quantifier": "for all configurations, all numbers of threads, all schedules, all answers of PARI to all threads", "why_tests_cant": "undefined behaviour need not show, and the schedules are unbounded in number", "anchors": ["src/invalid/invalid_thread.c: invalid_thread", "src/invalid/invalid.c: invalid_curves_threaded", "src/gen/point.c: points_gen_trial", "src/exhaustive/exhaustive.c: exhaustive_gen_retry"]}
{"id": "C97", "title": "Copies of curves are faithful and separate, and releasing a curve gives back what it owns", "statement": "A copy or a clone of a curve is the same curve, with the same seed, parameters, order, generators, points and metadata, and shares no memory with the original: either of the two can be released without the other being touched. Releasing a curve gives back each block it owns once and nothing else, so a copy that is released leaves the memory as it was before. A clone stays as it is when the stack of PARI is reset.", "quantifier": "for all curves with any members set, all numbers of generators and points, all states of the memory and all allocators", "why_tests_cant": "use after release, releasing twice and leaks need not show in the results, and which members are set and how many generators there are is unbounded", "anchors": ["src/obj/obj.h: OBJ, OBJS", "src/obj/curve.c: curve_copy, curve_clone, curve_free", "src/obj/subgroup.c: subgroup_copy, subgroup_clone, subgroup_free_deep, subgroups_free_deep", "src/obj/point.c: point_copy, point_clone, point_free, points_free_deep", "src/gen/seed.c: seed_copy, seed_clone, seed_free", "src/util/bits.c: bits_copy, bits_free", "src/util/memory.c: try_memdup"]}
{"id": "C98", "title": "The log of a search tells what it did", "statement": "With --verbose, a search writes one sign for every attempt at a stage, in the order of the attempts: + if the stage was accepted, . if it is repeated, - if an earlier stage is asked for, # if the timer cut it off. The line ends exactly when the curve is found; a search that reaches its limit of retries says so, with the limit and the stage. When a curve is found there are at least as many + as stages, and exactly as many if the search never went back.", "quantifier": "for all generators, checks, timers and limits, all stages to begin and end with, in searches that succeed, fail or go on", "why_tests_cant": "the sequence of failures, retries and timeouts is unbounded", "anchors": ["src/exhaustive/exhaustive.c: exhaustive_gen_retry", "src/io/output.h: verbose_log"]}
{"id": "C99", "title": "Every curve asked for can be found", "statement": "The random search leaves nothing out: for every field of the size and kind asked for and every nonsingular curve over it whose coefficients and number of points meet the options of the command line, and whose group is cyclic if a unique generator is asked for, there are random choices with which the run ends with status 0 and prints this curve, as often as curves were asked for; and no other curves are ever printed.", "quantifier": "for all command lines of the default method without a hex check, all fields, all coefficients and all orders that meet them", "why_tests_cant": "a search that can never produce some of the curves asked for looks the same as one that can in any sample of runs; the number of curves is astronomically large", "anchors": ["src/exhaustive/exhaustive.c: exhaustive_do, exhaustive_gen_retry, exhaustive_ginit", "src/gen/field.c: field_gen_random", "src/gen/equation.c: a_gen_random, b_gen_random", "src/gen/order.c: order_gen_any, order_gen_prime, order_gen_cofactor, order_gen_smooth", "src/gen/gens.c: gens_gen_any, gens_gen_one, gens_gen_cofactor"]}
{"id": "C100", "title": "No search gets stuck", "statement": "As long as some curve meets what the command line asks for, the search for a curve can always still succeed: whatever curves have been tried and thrown away so far, whatever calls have failed, and however often the timer has expired, there are random numbers for the calls still to come with which the search goes on from there to its end and returns a curve.", "quantifier": "for all command lines of the default method without a hex check, all curves that meet them, all random numbers, failures and expiries so far, and all states the search can be in", "why_tests_cant": "a search that is caught in a corner it cannot leave (a stage repeated for ever on a curve that can never pass, something left behind by a failure that later stages trip over) looks in a test like one that is unlucky; only a proof over all states a search can reach tells them apart", "anchors": ["src/exhaustive/exhaustive.c: exhaustive_gen_retry, exhaustive_gen", "src/gen/order.c: GENERATOR", "src/gen/gens.c: GENERATOR", "src/gen/curve.c: CHECK(curve_check_nonzero)"]}
{"id": "C101", "title": "The tables of a search hold what was asked for and are released once", "statement": "When a search starts, every stage finds the checks and the arguments that the command line calls for, in their order, and they stay in memory that is in use for as long as the search runs. When the run is over all of that memory is given back, none of it twice and nothing else with it: also where two stages share an argument, and where two searches share all of their tables.", "quantifier": "for all command lines, all contents of the heap, all choices of addresses by the allocator, and all that the search does with the rest of the heap in between", "why_tests_cant": "a block that is released twice, or read after its release, often goes unnoticed, and whether it does depends on the addresses the allocator happens to choose and on which options are combined; a test sees one allocator and a few combinations", "anchors": ["src/exhaustive/exhaustive.c: exhaustive_clear, exhaustive_cinit, exhaustive_ainit", "src/exhaustive/check.c: check_new, check_free", "src/exhaustive/arg.c: arg_new, arg_free", "src/cm/cm.c: cm_ainit, cm_cinit, cm_quit", "src/invalid/invalid.c: invalid_cinit, invalid_do"]}
{"id": "C102", "title": "A curve of --ansi can be verified from what is printed", "statement": "When a run of --ansi ends with the status 0, every curve it has printed carries a seed, and the printed coefficients are the ones that ANSI X9.62 derives from a bit string of at least 160 bits with the value of this seed: over a prime field the derived number r satisfies r b^2 = a^3 modulo p, over a binary field b is the derived number. This holds whatever was tried and thrown away before: seed, field and coefficients printed together belong together. A run over a prime field of one bit prints nothing.", "quantifier": "for all command lines with --ansi, all seeds given, typed or drawn, all fields, all random numbers, failures, retries and expiries of the timer", "why_tests_cant": "a search that goes back to another stage and keeps a coefficient from an earlier seed or field prints a curve that looks right and fails the verification; which stages fail in which order is unbounded, and SHA-1 makes expected values unreadable in tests", "anchors": ["src/exhaustive/ansi.c: ansi_gen_seed_argument, ansi_gen_seed_random, ansi_gen_seed_input, ansi_gen_equation", "src/exhaustive/exhaustive.c: exhaustive_gen_retry, exhaustive_ginit", "src/io/output.c: output_jjson"]}
{"id": "C103", "title": "A search by --ansi stays with its first seed", "statement": "Over prime fields a search by --ansi works with one seed: the one that was given, typed or drawn first is the seed of every curve that is tried afterwards, whatever fails on the way, as long as the timer does not expire. So if no curve of the requested size and order belongs to that seed, the search returns nothing however long it runs and, if nothing else goes wrong, never ends; this is so for every seed whose derived number r has 4r + 27 divisible by all primes of the requested size.", "quantifier": "for all command lines with --ansi over prime fields, all seeds, all fields, coefficients, orders and generators found later, all failures of the later stages, and any number of rounds", "why_tests_cant": "that a run does not end cannot be observed, and that it stays with its seed is a statement about unboundedly many rounds; in tests the first seed almost always has a curve", "anchors": ["src/exhaustive/exhaustive.c: exhaustive_gen_retry, exhaustive_ginit", "src/exhaustive/ansi.c: ansi_gen_seed_random, ansi_gen_equation", "src/gen/order.c: GENERATOR", "src/gen/curve.c: CHECK(curve_check_nonzero)"]}
{"id": "C104", "title": "Every curve of a seed can be found by --ansi", "statement": "In a search by --ansi over prime fields, as long as the seed at hand has a curve that meets what the command line asks for, the search can still end and return a curve of this seed, whatever has been tried, has failed or has been cut off by the timer before. Every such curve can be the one returned: all pairs of coefficients that the relation r b^2 = a^3 of X9.62 accepts for the seed, with a in the range of the random numbers, can come up.", "quantifier": "for all command lines with --ansi over prime fields (without a hex check), all seeds, all curves of the seed that meet the request, and all states that a search can reach", "why_tests_cant": "that no state is a dead end is a statement about all reachable states and all continuations; a test sees one run, and a rare dead end would look like a slow search", "anchors": ["src/exhaustive/ansi.c: ansi_gen_equation_fp", "src/exhaustive/exhaustive.c: exhaustive_gen_retry", "src/gen/order.c: GENERATOR", "src/gen/gens.c: gens_gen_any"]}
{"id": "C105", "title": "Sizes for which --nums can find nothing", "statement": "NUMS curves do not exist for every number of bits: with 1, 2 or 7 bits no second coefficient gives a nonsingular curve y^2 = x^3 - 3x + b whose order and twist order are both prime. A run of --nums with one of these sizes is accepted and prints no curve, however long it runs.", "quantifier": "for all command lines with --nums and one of these sizes, all numbers of curves asked for, all lengths of the run and all behaviour of the random numbers, failures and the timer", "why_tests_cant": "a test cannot tell a search that never ends from a slow one, and would have to count the points of every curve over the field", "anchors": ["src/exhaustive/nums.c: nums_gen_field, nums_gen_b, nums_gen_order", "src/exhaustive/exhaustive.c: exhaustive_gen_retry"]}
{"id": "C106", "title": "Prime orders for which the search of --order never begins", "statement": "A curve of a prime order is searched for with the primes modulo which the order is a square, first those up to the rounded natural logarithm of the order. If there is no such prime (2 counts if the order is 1 or 7 modulo 8), the list that would hold them is reallocated to the size 0, which ends the program with the GNU C library, before any discriminant has been tried; no curve is printed although there may be one. This happens exactly for these orders and only at the beginning. 53 is such an order, and there are curves with 53 points.", "quantifier": "for all prime orders, all results of the calls to PARI, all lengths of the run and all behaviour of the random numbers, failures and the timer", "why_tests_cant": "the orders concerned are rare among large primes, and what a reallocation to the size 0 does depends on the C library", "anchors": ["src/cm/cm_prime.c: add_primes, qdisc_next, cm_gen_curve_prime", "src/util/memory.c: try_realloc"]}
{"id": "C107", "title": "When an array without entries is asked for", "statement": "The program asks for memory for no entries at all (which PARI's allocator answers with a null pointer, ending the program) only for a curve whose single point is the point at infinity (array of generators), for a generator that is the point at infinity (array of points of prime or of composite order), and for a range of --invalid that contains no prime (array of primes). The first cannot happen with --prime or --cofactor, nor over binary fields.", "quantifier": "for all command lines of the default method and --ansi, all states a search can reach, all groups and orders, all ranges", "why_tests_cant": "such curves exist only over the smallest fields and come up by chance; the searches are unbounded", "anchors": ["src/gen/gens.c: gens_put", "src/gen/point.c: points_from_orders, points_gen_prime, points_gen_nonprime", "src/invalid/invalid.c: invalid_primes", "src/util/memory.c: alloc"]}
{"id": "C108", "title": "With --hex-check every printed curve contains the pattern", "statement": "Every curve printed by a run with --hex-check=PATTERN contains the pattern, in lower case, in the hex digits of its seed, its prime, a coefficient, its order or a coordinate of a generator or point. A curve that contains it passes the check with its points as computed; one that does not is discarded and the search goes back to the choice of the field.", "quantifier": "for all command lines of the default method and --ansi with --hex-check, all patterns of hex digits not ending in 0, all behaviours of PARI and of the user, all numbers of curves", "why_tests_cant": "the search is unbounded and random; a test sees a few printed curves for one pattern", "anchors": ["src/gen/hex.c: hex_check_param", "src/exhaustive/exhaustive.c: exhaustive_gen, exhaustive_gen_retry, exhaustive_cinit"]}
{"id": "C109", "title": "With --metadata every printed curve comes with its own invariants", "statement": "Every curve printed by a run with --metadata comes with the j-invariant and the discriminant of its equation and the trace q + 1 - n of its Frobenius; over a prime field also with its embedding degree (0 if there is none because n = p), and with the fundamental discriminant D and conductor f with D f^2 = t^2 - 4p. Nothing of the kind is printed without --metadata.", "quantifier": "for all command lines of the default method and --ansi, all behaviours of PARI (with coredisc2 and znorder as documented) and of the user, all numbers of curves; over prime fields all curves that do not have 2p points", "why_tests_cant": "the values of one curve can be compared with a reference, but a search backtracks at random: that no value of a discarded curve is printed needs an invariant", "anchors": ["src/gen/metadata.c: metadata_gen", "src/gen/gens.c: gens_get_embedding", "src/io/output.c: output_jjson", "src/exhaustive/exhaustive.c: exhaustive_gen_retry"]}
{"id": "C110", "title": "All runs of --order for one order print the same group; with --unique either they all do or none does", "statement": "Whatever two runs of --order for the same order do, with whatever further options and random numbers, the curves they print are over the same field, can be turned into each other by a substitution x = u^2 x', y = u^3 y', and have isomorphic groups with as many points as asked for. So if a run with --unique prints a curve, every curve that any run for the order prints has a cyclic group; and if a run without --unique prints a curve whose group is not cyclic, no run with --unique ever prints one: it constructs the same group again and again. --order=125 is such an order.", "quantifier": "for all odd orders of at least 50 that leave the remainder 2 modulo 3, all pairs of command lines, all random points and twists, all lengths of the runs, PARI as specified; composite orders under the condition of C88 on the random points", "why_tests_cant": "a search that never succeeds cannot be told from a long one by running it, and two runs agree on all random choices only by proof", "anchors": ["src/cm/cm_any.c: cm_construct_curve, cm_gen_curve_any, good_qdisc_minimal", "src/cm/cm_prime.c: cm_gen_curve_prime", "src/gen/gens.c: gens_gen_one"]}
{"id": "C111", "title": "The metadata of anomalous and supersingular curves are those one expects", "statement": "Every curve printed with --metadata by --anomalous, --supersingular or --family comes with its own invariants as in C109. A curve of --anomalous is always printed with the embedding degree 0, the trace 1 and the fundamental discriminant -163; a curve of --supersingular with the embedding degree 2, the trace 0 and the fundamental discriminant -p or -4p, according to whether p leaves the remainder 3 modulo 4 or not; the conductor f satisfies D f^2 = t^2 - 4p. The j-invariant and the discriminant are those of the equation.", "quantifier": "for all command lines of these methods with --metadata, all primes, all behaviours of PARI (with coredisc2 and znorder as documented) and of the user, all numbers of curves; for --family all curves that do not have 2p points", "why_tests_cant": "the values hold for every prime that the search may draw, and after any number of failed attempts; a test sees some primes", "anchors": ["src/gen/metadata.c: metadata_gen", "src/gen/gens.c: gens_get_embedding", "src/cm/anomalous.c: anomalous_gen_field, anomalous_gen_order", "src/cm/supersingular.c: supersingular_gen_order", "src/exhaustive/family.c: family_gen_field, family_gen_order", "src/exhaustive/exhaustive.c: exhaustive_gen_retry"]}
{"id": "C112", "title": "The metadata of --order belong to the order that was asked for, and are the same for all runs", "statement": "Every curve printed with --metadata by --order=N comes with the j-invariant and the discriminant of its equation, with the trace p + 1 - N, the embedding degree of N modulo p, and the negative fundamental discriminant D and the conductor f with D f^2 = (p + 1 - N)^2 - 4p. Whatever two runs for one order do, these values are the same, but for the discriminant of the equation. They are the values of the printed curve whenever it has N points; when the construction has gone wrong (C88) they are not.", "quantifier": "for all command lines with --order and --metadata, all orders of at least 50, all random points and twists, all numbers of curves, PARI as specified; the agreement of two runs for odd orders that leave the remainder 2 modulo 3", "why_tests_cant": "the values depend on a prime that the search draws; that no run for an order can ever print others needs the uniqueness of the curve (C110)", "anchors": ["src/gen/metadata.c: metadata_gen", "src/gen/gens.c: gens_get_embedding", "src/cm/cm_any.c: cm_gen_curve_any", "src/cm/cm_prime.c: cm_gen_curve_prime", "src/cm/cm.c: cm_init"]}
{"id": "C113", "title": "The metadata of pairing-friendly curves are those of the family", "statement": "Every curve that a run of --family prints has p + 1 - t points, where t is the value of the family's trace polynomial at the printed seed, without exception for small seeds. With --metadata the printed trace is t, the printed fundamental discriminant is that of the family (-4 for KSS16 and KSS40, -3 for the others), the conductor f satisfies D f^2 = t^2 - 4p, and the printed embedding degree is the embedding degree of the whole group, a multiple of the family's; for BN curves it is 12, for BLS curves also a multiple of a third of the seed minus one, and so in general not the 12 or 24 of the family.", "quantifier": "for all command lines with --family and --metadata, all seven families, all seeds, all behaviours of PARI (with coredisc2 and znorder as documented) and of the user, all failures, retries and timeouts, all numbers of curves whose orders are within Hasse's bound", "why_tests_cant": "the seeds are integers of any size, and the program itself checks only that a prime divides the number of points", "anchors": ["src/misc/types.h: curve_t", "src/exhaustive/family.c: family_gen_field, family_gen_order", "src/gen/metadata.c: metadata_gen", "src/io/output.c: output_o", "src/exhaustive/exhaustive.c: exhaustive_generate"]}
