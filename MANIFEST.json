{
 "claims": [
  {
   "property": "C01",
   "status": "proved",
   "theorems": [
    "Verif.C01_add"
   ],
   "note": "All nine types, both build profiles, operands with arbitrary carries in the top word."
  },
  {
   "property": "C02",
   "status": "partial",
   "theorems": [
    "Verif.C02_sub_correct_iff",
    "Verif.C02_sub_partial",
    "Verif.C02_counterexample",
    "Verif.C02_statement_false"
   ],
   "note": "The code is wrong when the right operand has a carry: the exact condition is proved as an equivalence and a counterexample through the public API is given."
  },
  {
   "property": "C03",
   "status": "partial",
   "theorems": [
    "Verif.C03_neg_is_identity",
    "Verif.C03_neg_partial",
    "Verif.C03_counterexample",
    "Verif.C03_statement_false"
   ],
   "note": "The code adds the modulus, so -a denotes a. Proved for every a; the property holds only for a = 0."
  },
  {
   "property": "C04",
   "status": "partial",
   "theorems": [
    "Verif.C04_mul_correct_iff",
    "Verif.C04_mul_partial",
    "Verif.C04_mul_carry_free",
    "Verif.C04_counterexample_negative",
    "Verif.C04_statement_false"
   ],
   "note": "Holds for seven types on all lazily normalized operands; for e222_117 and e251_9 the exact set of integer products for which the result is right is proved, with counterexamples."
  },
  {
   "property": "C05",
   "status": "partial",
   "theorems": [
    "Verif.C05_square",
    "Verif.C05_square_agrees_with_mul_iff",
    "Verif.C05_domain_partial",
    "Verif.C05_counterexample",
    "Verif.C05_statement_false"
   ],
   "note": "square denotes the square of the residue, without restriction; it agrees with the * of the code in eight types, and in Mod_e251_9 exactly when the value is below 2^252 in absolute value (there * is wrong, not square)."
  },
  {
   "property": "C06",
   "status": "proved",
   "theorems": [
    "Verif.C06_small_add",
    "Verif.C06_small_sub"
   ],
   "note": ""
  },
  {
   "property": "C07",
   "status": "partial",
   "theorems": [
    "Verif.C07_small_mul_i32_correct_iff",
    "Verif.C07_small_mul_e521_i32_correct_iff",
    "Verif.C07_small_mul_bound",
    "Verif.C07_small_mul_i16",
    "Verif.C07_small_mul_correct_iff",
    "Verif.C07_small_mul_e521_correct_iff",
    "Verif.C07_small_mul_two",
    "Verif.C07_small_mul_partial",
    "Verif.C07_small_mul_i32_partial",
    "Verif.C07_counterexample_carry",
    "Verif.C07_counterexample_large",
    "Verif.C07_counterexample_e521",
    "Verif.C07_statement_false"
   ],
   "note": "Carries in the left operand are folded with the wrong factor, large factors overflow silently into the top word, and e521_1 uses wrong carries. The exact condition for a correct result without a panic is proved as an equivalence for every i32 and both build profiles, for e521_1 separately; every i16 is right on carry-free operands in the other eight types; small_mul(2), the only use in the point code, is correct on all carry-free operands."
  },
  {
   "property": "C08",
   "status": "proved",
   "theorems": [
    "Verif.C08_never_panics"
   ],
   "note": "Also covers division, inversion, Legendre symbol, square root, negation and normalization; small_mul is not in the property (see C07)."
  },
  {
   "property": "C09",
   "status": "partial",
   "theorems": [
    "Verif.C09_normalize_correct_iff",
    "Verif.C09_normalize_value",
    "Verif.C09_normalize_partial",
    "Verif.C09_canonical_unique",
    "Verif.C09_normalize_idempotent",
    "Verif.C09_counterexample",
    "Verif.C09_statement_false"
   ],
   "note": "Exact condition proved as an equivalence for every representation; counterexample 0 - unpacked(2^n-1)."
  },
  {
   "property": "C10",
   "status": "partial",
   "theorems": [
    "Verif.C10_normalize_eq_partial",
    "Verif.C10_normalize_eq_exact",
    "Verif.C10_false_negative",
    "Verif.C10_statement_false"
   ],
   "note": "Proved whenever both operands satisfy the (exact) condition of C09; what the code compares otherwise is stated exactly."
  },
  {
   "property": "C11",
   "status": "partial",
   "theorems": [
    "Verif.C11_pack_partial",
    "Verif.C11_packed_partial",
    "Verif.C11_packed_correct_iff",
    "Verif.C11_sizes",
    "Verif.C11_statement_false"
   ],
   "note": "Right exactly when the operand satisfies the condition of C09 (proved as an equivalence)."
  },
  {
   "property": "C12",
   "status": "partial",
   "theorems": [
    "Verif.C12_unpack_partial",
    "Verif.C12_unpack_e383",
    "Verif.C12_unpack_small",
    "Verif.C12_statement_false"
   ],
   "note": "Proved for eight types; Mod_e383_187 does not mask bit 383 (exact behaviour proved)."
  },
  {
   "property": "C13",
   "status": "partial",
   "theorems": [
    "Verif.C13_unpack_packed_partial",
    "Verif.C13_unpack_packed_iff",
    "Verif.C13_packed_unpack",
    "Verif.C13_statement_false"
   ],
   "note": "pack after unpack proved without restriction; unpack after pack is right exactly when the operand satisfies the condition of C09, and by accident for some further values in Mod_e383_187 (proved as an equivalence)."
  },
  {
   "property": "C14",
   "status": "proved",
   "theorems": [
    "Verif.C14_unpack",
    "Verif.C14_pack",
    "Verif.C14_pack_tail"
   ],
   "note": ""
  },
  {
   "property": "C15",
   "status": "partial",
   "theorems": [
    "Verif.C15_invert_partial",
    "Verif.C15_mul_invert_partial",
    "Verif.C15_counterexample",
    "Verif.C15_e251_counterexample",
    "Verif.C15_statement_false"
   ],
   "note": "Proved for all operands in seven types, for non-negative operands in Mod_e222_117, and for runs whose products stay in the domain of * in Mod_e251_9; the code is wrong for negative operands in those two types, and in Mod_e251_9 also for a sum of two canonical elements (concrete counterexamples)."
  },
  {
   "property": "C16",
   "status": "partial",
   "theorems": [
    "Verif.C16_div_value",
    "Verif.C16_div_mul_partial",
    "Verif.C16_statement_false"
   ],
   "note": "As C15."
  },
  {
   "property": "C17",
   "status": "partial",
   "theorems": [
    "Verif.C17_legendre_partial",
    "Verif.C17_counterexample",
    "Verif.C17_statement_false"
   ],
   "note": "As C15."
  },
  {
   "property": "C18",
   "status": "partial",
   "theorems": [
    "Verif.C18_sqrt_partial",
    "Verif.C18_counterexample",
    "Verif.C18_e251_counterexample",
    "Verif.C18_statement_false"
   ],
   "note": "As C15; counterexamples for Mod_e222_117 (negative operand) and Mod_e251_9 (a canonical quadratic residue)."
  },
  {
   "property": "C19",
   "status": "partial",
   "theorems": [
    "Verif.C19_constants",
    "Verif.C19_documented_partial",
    "Verif.C19_M_HALF_COEFF",
    "Verif.C19_no_M_HALF",
    "Verif.C19_E222_ORDER",
    "Verif.C19_statement_false"
   ],
   "note": "All exported constants proved except that the doc comment of E222_ORDER gives the order of M-221: the full statement is refuted there and the actual value is stated."
  },
  {
   "property": "C20",
   "status": "partial",
   "theorems": [
    "Verif.C20_bit_partial",
    "Verif.C20_bit_exact",
    "Verif.C20_bits_correct_iff",
    "Verif.C20_high_bits",
    "Verif.C20_nbits",
    "Verif.C20_statement_false"
   ],
   "note": "All bits are right exactly when the operand satisfies the condition of C09 (proved as an equivalence)."
  },
  {
   "property": "C21",
   "status": "proved",
   "theorems": [
    "Verif.C21_filled",
    "Verif.C21_select"
   ],
   "note": ""
  },
  {
   "property": "C22",
   "status": "partial",
   "theorems": [
    "Verif.C22_hex_partial",
    "Verif.C22_hex_correct_iff",
    "Verif.C22_statement_false"
   ],
   "note": "Right exactly when the operand satisfies the condition of C09 (proved as an equivalence)."
  },
  {
   "property": "C23",
   "status": "proved",
   "theorems": [
    "Verif.C23_operators",
    "Verif.C23_no_other_forms",
    "Verif.C23_methods"
   ],
   "note": "All 49 operator impls of each file are transcribed as a table (identical in the nine files) and dispatched as Rust would; every form equals the one core method it stands for, and no further forms exist."
  },
  {
   "property": "C24",
   "status": "partial",
   "theorems": [
    "Verif.C24_rand_range",
    "Verif.C24_rand_canonical",
    "Verif.C24_rand_partial",
    "Verif.C24_rand_never_m_one",
    "Verif.C24_statement_false"
   ],
   "note": "Canonicity proved; coverage is false: the exact set of possible results is proved."
  },
  {
   "property": "C25",
   "status": "partial",
   "theorems": [
    "Verif.C25_refines_partial",
    "Verif.C25_seven_types_partial",
    "Verif.C25_careful_partial",
    "Verif.C25_value",
    "Verif.C25_statement_false"
   ],
   "note": "Unconditional for computations without - in seven types; in all nine types for careful computations (with - of normalized elements; Ex.Careful); otherwise for computations accepted by a decidable interval analysis. The full statement is false (counterexample in Mod_e222_117)."
  },
  {
   "property": "C26",
   "status": "partial",
   "theorems": [
    "Verif.C26_law",
    "Verif.C26_add_exact_partial",
    "Verif.C26_add_partial",
    "Verif.C26_add_carry_free_partial",
    "Verif.C26_add_value",
    "Verif.C26_add_correct_iff",
    "Verif.C26_add_nonneg_iff",
    "Verif.C26_exception",
    "Verif.C26_counterexample",
    "Verif.C26_statement_false"
   ],
   "note": "The formula is proved correct over every correct scalar type, and over the repository field types whenever no operation leaves the domain of C02/C04; on all five curve types the sum of the base point with itself is proved to be off the curve. On E-382, Curve41417 and E-521 the coordinates of every sum are given exactly and the conditions for a right sum are necessary and sufficient."
  },
  {
   "property": "C27",
   "status": "partial",
   "theorems": [
    "Verif.C27_double_exact_partial",
    "Verif.C27_double_partial",
    "Verif.C27_double_carry_free_partial",
    "Verif.C27_double_value",
    "Verif.C27_double_correct_iff",
    "Verif.C27_counterexample",
    "Verif.C27_statement_false"
   ],
   "note": "As C26, including the exact coordinates and the necessary and sufficient condition."
  },
  {
   "property": "C28",
   "status": "partial",
   "theorems": [
    "Verif.C28_triple_exact_iff",
    "Verif.C28_triple_partial",
    "Verif.C28_counterexample",
    "Verif.C28_statement_false"
   ],
   "note": "The formula has a wrong sign: over every correct scalar type the result is right exactly when the x coordinate of 3P is 0 (proved as an equivalence; the same on the five curve types for runs inside the domains of C02/C04/C07); on all five curve types the triple of the base point is off the curve."
  },
  {
   "property": "C29",
   "status": "partial",
   "theorems": [
    "Verif.C29_zero",
    "Verif.C29_zero_exact",
    "Verif.C29_zero_add_exact_iff",
    "Verif.C29_zero_add_partial",
    "Verif.C29_counterexample",
    "Verif.C29_statement_false"
   ],
   "note": "zero() sets t to 1 and represents no point; over a correct scalar type zero() + P is right exactly when x y = 0, likewise on E-382, Curve41417 and E-521 for reduced coordinates, on either side; on all five curve types adding it to the base point leaves the curve."
  },
  {
   "property": "C30",
   "status": "partial",
   "theorems": [
    "Verif.C30_init_iff",
    "Verif.C30_init_partial",
    "Verif.C30_init_exact_iff",
    "Verif.C30_counterexample",
    "Verif.C30_statement_false"
   ],
   "note": "init sets t to 1: right exactly when x y = 1 (proved as an equivalence); wrong for all five base points."
  },
  {
   "property": "C31",
   "status": "partial",
   "theorems": [
    "Verif.C31_ladder_exact",
    "Verif.C31_ladder_exact_partial",
    "Verif.C31_scalar_mult_exact",
    "Verif.C31_scalar_mult_exact_partial",
    "Verif.C31_exact_counterexample",
    "Verif.C31_counterexample",
    "Verif.C31_statement_false"
   ],
   "note": "The ladder computes (2^nbits - 1 - k) P even with correct arithmetic and a correct neutral element; on all five curve types scalar_mult(1) of the base point is proved to be off the curve (whole ladder evaluated by the kernel through an exact integer model)."
  },
  {
   "property": "C32",
   "status": "proved",
   "theorems": [
    "Verif.C32_trace",
    "Verif.C32_operations",
    "Verif.C32_total"
   ],
   "note": "The trace records every executed statement with its loop index; proved for any scalar type. C32_total: the ladder never panics on the five curve types."
  },
  {
   "property": "C33",
   "status": "proved",
   "theorems": [
    "Verif.C33_complete"
   ],
   "note": ""
  },
  {
   "property": "C34",
   "status": "proved",
   "theorems": [
    "Verif.C34_base"
   ],
   "note": ""
  },
  {
   "property": "C35",
   "status": "partial",
   "theorems": [
    "Verif.C35_exact_partial",
    "Verif.C35_partial",
    "Verif.C35_statement_false",
    "Verif.C35_commute_words",
    "Verif.C35_commute_iff",
    "Verif.C35_commute_counterexample"
   ],
   "note": "As C26. Commutativity itself fails on all five curves (C35_commute_counterexample); the only cause is the order in t1 d t2 (C35_commute_words, and exactly C35_commute_iff on three curves)."
  },
  {
   "property": "C36",
   "status": "proved",
   "theorems": [
    "Verif.C36_moduli_prime"
   ],
   "note": "Pocklington (N-1) and Morrison (N+1) certificates checked by the kernel; soundness of both criteria proved in Verif/Prime/Criteria.lean."
  },
  {
   "property": "C37",
   "status": "partial",
   "theorems": [
    "Verif.C37_normalize_bitand_bitor_partial",
    "Verif.C37_correct_iff",
    "Verif.C37_normalize_self",
    "Verif.C37_statement_false"
   ],
   "note": "Right exactly when both operands satisfy the condition of C09 (proved as an equivalence)."
  },
  {
   "property": "C38",
   "status": "proved",
   "theorems": [
    "Verif.C38_debug"
   ],
   "note": ""
  },
  {
   "property": "C39",
   "status": "proved",
   "theorems": [
    "Verif.C39_order_prime",
    "Verif.C39_base_order"
   ],
   "note": ""
  },
  {
   "property": "C40",
   "status": "proved",
   "theorems": [
    "Verif.C40_order_prime",
    "Verif.C40_base"
   ],
   "note": "The group is that of Mathlib (WeierstrassCurve.Affine.Point)."
  },
  {
   "property": "C41",
   "status": "partial",
   "theorems": [
    "Verif.C41_mul_value",
    "Verif.C41_mul_comm",
    "Verif.C41_square_eq_mul",
    "Verif.C41_mul_nonneg",
    "Verif.C41_e251_closed",
    "Verif.C41_partial",
    "Verif.C41_statement_false"
   ],
   "note": "All parts hold except that in Mod_e251_9 squared(a) and a*a differ exactly for |value| >= 2^252 (proved as an equivalence)."
  },
  {
   "property": "C42",
   "status": "partial",
   "theorems": [
    "Verif.C42_normalized_partial",
    "Verif.C42_packed_partial",
    "Verif.C42_eight_types_partial",
    "Verif.C42_statement_false"
   ],
   "note": "The full statement holds in eight types (bytes with bit 383 set are excluded in Mod_e383_187, see C12). In Mod_e251_9 it holds without division, inversion, legendre and sqrt; it is false there for sqrt."
  },
  {
   "property": "C43",
   "status": "partial",
   "theorems": [
    "Verif.C43_legendre_words_partial",
    "Verif.C43_seven_types_partial",
    "Verif.C43_statement_false"
   ],
   "note": "All operands in seven types; elsewhere as C17."
  },
  {
   "property": "C44",
   "status": "proved",
   "theorems": [
    "Verif.C44_quartic"
   ],
   "note": ""
  },
  {
   "property": "C45",
   "status": "partial",
   "theorems": [
    "Verif.C45_value_partial",
    "Verif.C45_root",
    "Verif.C45_detects_partial",
    "Verif.C45_principal_partial",
    "Verif.C45_statement_false"
   ],
   "note": "As C18: all operands in seven types; false in Mod_e251_9 even for a canonical operand."
  },
  {
   "property": "C46",
   "status": "proved",
   "theorems": [
    "Verif.C46_edwards_card",
    "Verif.C46_edwards_cofactor",
    "Verif.C46_montgomery_card",
    "Verif.C46_montgomery_cofactor"
   ],
   "note": ""
  },
  {
   "property": "C47",
   "status": "proved",
   "theorems": [
    "Verif.C47_add",
    "Verif.C47_double",
    "Verif.C47_ladder"
   ],
   "note": ""
  },
  {
   "property": "C48",
   "status": "proved",
   "theorems": [
    "Verif.C48_rand_card",
    "Verif.C48_rand_injective",
    "Verif.C48_missing"
   ],
   "note": ""
  },
  {
   "property": "C49",
   "status": "proved",
   "theorems": [
    "Verif.C49_edwards_cyclic",
    "Verif.C49_edwards_subgroup",
    "Verif.C49_edwards_small",
    "Verif.C49_montgomery_cyclic",
    "Verif.C49_montgomery_subgroup",
    "Verif.C49_montgomery_small"
   ],
   "note": ""
  },
  {
   "property": "C50",
   "status": "proved",
   "theorems": [
    "Verif.C50_edwards",
    "Verif.C50_montgomery"
   ],
   "note": ""
  },
  {
   "property": "C51",
   "status": "partial",
   "theorems": [
    "Verif.C51_never_panics_partial",
    "Verif.C51_small_mul_outcomes",
    "Verif.C51_counterexample_factor",
    "Verif.C51_counterexample_square",
    "Verif.C51_statement_false"
   ],
   "note": "The code violates the property: M_ONE times a large i32 panics in debug builds of five types, and squaring a product with an integer panics in all nine. Proved: release builds of small_mul never panic and debug builds give the same words or panic with overflow; computations whose factors stay below a stated bound and whose integer products are reduced before being multiplied again never panic."
  },
  {
   "property": "C52",
   "status": "proved",
   "theorems": [
    "Verif.C52_computation",
    "Verif.C52_add",
    "Verif.C52_sub",
    "Verif.C52_mul",
    "Verif.C52_square",
    "Verif.C52_small_add",
    "Verif.C52_small_sub",
    "Verif.C52_small_mul",
    "Verif.C52_neg",
    "Verif.C52_normalize",
    "Verif.C52_invert",
    "Verif.C52_legendre",
    "Verif.C52_quartic",
    "Verif.C52_sqrt",
    "Verif.C52_div",
    "Verif.C52_unpack",
    "Verif.C52_bitand",
    "Verif.C52_bitor",
    "Verif.C52_normalize_eq",
    "Verif.C52_pack_normalized",
    "Verif.C52_pack",
    "Verif.C52_packed",
    "Verif.C52_hex",
    "Verif.C52_bit",
    "Verif.C52_point_add",
    "Verif.C52_point_double",
    "Verif.C52_point_triple",
    "Verif.C52_scalar_mult"
   ],
   "note": "No assumption on the words other than that they are 64-bit integers."
  },
  {
   "property": "C53",
   "status": "partial",
   "theorems": [
    "Verif.C53_client_partial",
    "Verif.C53_analysed_partial",
    "Verif.C53_fitting_partial",
    "Verif.C53_normalized_partial",
    "Verif.C53_statement_false"
   ],
   "note": "The code violates the property in Mod_e222_117 (lazyClient) and for subtraction. Proved: seven types for clients without - between elements, whether they normalize or not; all nine types for clients that normalize every new element, with -; in Mod_e251_9 without division, inversion, Legendre symbol and sqrt; all nine types for clients accepted by an interval analysis that follows the client (also with -), in particular for those with instructions that fit the type (Op.Fits)."
  },
  {
   "property": "C54",
   "status": "proved",
   "theorems": [
    "Verif.C54_in_place",
    "Verif.C54_unary",
    "Verif.C54_quartic_legendre",
    "Verif.C54_small",
    "Verif.C54_compare",
    "Verif.C54_pack",
    "Verif.C54_bits",
    "Verif.C54_bitwise",
    "Verif.C54_masks",
    "Verif.C54_constants",
    "Verif.C54_rand",
    "Verif.C54_format",
    "Verif.C54_operators",
    "Verif.C54_all_functions",
    "Verif.C54_all_constants",
    "Verif.C54_text_add",
    "Verif.C54_text_neg",
    "Verif.C54_text_pack"
   ],
   "note": "The text is read by a general parser and given meaning by a general interpreter, both trusted; nothing else about the translation of the field files into the model is then trusted."
  },
  {
   "property": "C55",
   "status": "proved",
   "theorems": [
    "Verif.C55_operators",
    "Verif.C55_formulas",
    "Verif.C55_constructors",
    "Verif.C55_bitwise",
    "Verif.C55_ladder",
    "Verif.C55_scalar_mult",
    "Verif.C55_all_functions",
    "Verif.C55_curve_file",
    "Verif.C55_text_add",
    "Verif.C55_text_scalar_mult",
    "Verif.C55_text_ladder_total"
   ],
   "note": "As for C54, the general parser and interpreter are trusted; nothing else about the translation of the point code is."
  },
  {
   "property": "C56",
   "status": "proved",
   "theorems": [
    "Verif.C56_faithful",
    "Verif.C56_release",
    "Verif.C56_debug",
    "Verif.C56_success",
    "Verif.C56_point_scalar",
    "Verif.C56_ladder",
    "Verif.C56_unary",
    "Verif.C56_operators",
    "Verif.C56_record_carry_out",
    "Verif.C56_record_index",
    "Verif.C56_observes_load",
    "Verif.C56_observes_field",
    "Verif.C56_observes_index",
    "Verif.C56_observes_not",
    "Verif.C56_observes_cast",
    "Verif.C56_observes_op",
    "Verif.C56_observes_assign",
    "Verif.C56_observes_op_assign",
    "Verif.C56_observes_round",
    "Verif.C56_observes_for",
    "Verif.C56_observes_call",
    "Verif.C56_observes_write_back",
    "Verif.C56_observes_invoke",
    "Verif.C56_observes_operator",
    "Verif.C56_observes_operator_assign",
    "Verif.C56_observes_method",
    "Verif.C56_observes_random",
    "Verif.C56_observes_path",
    "Verif.C56_observes_path_assoc",
    "Verif.C56_record_add"
   ],
   "note": "About the record of Rust/Trace.lean. Not recorded: the work of the formatter, the time a machine instruction takes, and what a compiler makes of the text."
  },
  {
   "property": "C57",
   "status": "proved",
   "theorems": [
    "Verif.C57_sub",
    "Verif.C57_mul",
    "Verif.C57_square",
    "Verif.C57_normalize",
    "Verif.C57_compare",
    "Verif.C57_pack",
    "Verif.C57_unpack",
    "Verif.C57_unpack_pack",
    "Verif.C57_points",
    "Verif.C57_scalar_mult"
   ],
   "note": "About the edited program of Model/Repaired.lean, not about the code. The exponentiations and clients are in C58; rand (C24) and the comments of C19 are not repaired."
  },
  {
   "property": "C58",
   "status": "proved",
   "theorems": [
    "Verif.C58_client",
    "Verif.C58_inverted",
    "Verif.C58_legendre",
    "Verif.C58_sqrt",
    "Verif.C58_normalize_eq",
    "Verif.C58_bit",
    "Verif.C58_packed"
   ],
   "note": "About the edited program of Model/Repaired.lean, not about the code."
  },
  {
   "property": "C59",
   "status": "proved",
   "theorems": [
    "Verif.C59_client_model",
    "Verif.C59_never_panics",
    "Verif.C59_never_panics_ints",
    "Verif.C59_any_words",
    "Verif.C59_client",
    "Verif.C59_client_analysed",
    "Verif.C59_client_normalizing",
    "Verif.C59_statement_false"
   ],
   "note": "The parser and the interpreter are trusted as in C54. Without the exceptions of part (4) the claim is refuted by C59_statement_false."
  },
  {
   "property": "C60",
   "status": "proved",
   "theorems": [
    "Verif.C60_field",
    "Verif.C60_edwards",
    "Verif.C60_curve",
    "Verif.C60_program",
    "Verif.C60_distinct",
    "Verif.C60_blank_line",
    "Verif.C60_indent",
    "Verif.C60_comment",
    "Verif.C60_break"
   ],
   "note": "The meaning of the reader of Rust/Grammar.lean (what it takes the syntax of Rust to be) remains trusted, and that the lines are those of the files (checked by tools/verbatim.py)."
  },
  {
   "property": "C61",
   "status": "proved",
   "theorems": [
    "Verif.C61_leak",
    "Verif.C61_faithful",
    "Verif.C61_release",
    "Verif.C61_blind",
    "Verif.C61_success",
    "Verif.C61_exchange_runs",
    "Verif.C61_exchange",
    "Verif.C61_looking_leaks"
   ],
   "note": "About the record of Rust/Trace.lean, with the limits stated for C56."
  },
  {
   "property": "C62",
   "status": "proved",
   "theorems": [
    "Verif.C62_model",
    "Verif.C62_elements",
    "Verif.C62_points_unseen",
    "Verif.C62_never_panics",
    "Verif.C62_client",
    "Verif.C62_client_analysed",
    "Verif.C62_statement_false",
    "Verif.C62_handshake"
   ],
   "note": "Without small_mul, whose bounds are C51. The agreement with Z/p is for the programs the property names (Op.Fits, Client.Safe); C62_statement_false is its failure for others on E-222."
  },
  {
   "property": "C63",
   "status": "partial",
   "theorems": [
    "Verif.C63_statement_false",
    "Verif.C63_counterexample",
    "Verif.C63_ladder_exact_partial",
    "Verif.C63_scalar_mult_exact_partial",
    "Verif.C63_repaired"
   ],
   "note": "Refuted on all five curves (C63_counterexample: base point, secrets 1 and 2). Proved over correct scalar types for the ladder started with a correct neutral element and for points with x y = 0, and for all points of the five curves with the repairs of C57."
  },
  {
   "property": "C64",
   "status": "proved",
   "theorems": [
    "Verif.C64_client",
    "Verif.C64_text",
    "Verif.C64_right_iff",
    "Verif.C64_builds",
    "Verif.C64_curve"
   ],
   "note": "The machine on integers follows the bodies of invert, legendre, quartic_legendre and sqrt (the chains of Model/Chain.lean, tied to the text by C54), with each operation replaced by its formula. small_mul is added in C67. Parser and interpreter trusted as in C54 for the statements about text."
  },
  {
   "property": "C65",
   "status": "proved",
   "theorems": [
    "Verif.C65_client",
    "Verif.C65_text",
    "Verif.C65_operations",
    "Verif.C65_right_iff"
   ],
   "note": "As for C64. The conditions of C65_right_iff are congruences between explicit integers; simpler ones for three curves are in C26 and C27."
  },
  {
   "property": "C66",
   "status": "proved",
   "theorems": [
    "Verif.C66_sub",
    "Verif.C66_neg",
    "Verif.C66_normalize",
    "Verif.C66_mul",
    "Verif.C66_small_mul",
    "Verif.C66_unpack",
    "Verif.C66_triple",
    "Verif.C66_zero",
    "Verif.C66_init",
    "Verif.C66_ladder"
   ],
   "note": "Each theorem gives the wrong result of the variant and the right result of the repaired code on the same input."
  },
  {
   "property": "C67",
   "status": "proved",
   "theorems": [
    "Verif.C67_client",
    "Verif.C67_text",
    "Verif.C67_small_mul",
    "Verif.C67_right_iff",
    "Verif.C67_builds",
    "Verif.C67_embeds"
   ],
   "note": "Programs whose integers leave the ranges of Fld.tight (factors of small_mul, arguments of invert, legendre and sqrt) or Fld.loose (factors and squares) are not described; the machine says so. Parser and interpreter trusted as in C54 for the statement about text."
  },
  {
   "property": "C68",
   "status": "proved",
   "theorems": [
    "Verif.C68_montgomery_model",
    "Verif.C68_montgomery_prime",
    "Verif.C68_montgomery_card",
    "Verif.C68_montgomery_orders",
    "Verif.C68_montgomery_x",
    "Verif.C68_edwards_model",
    "Verif.C68_edwards_prime",
    "Verif.C68_edwards_card",
    "Verif.C68_edwards_orders",
    "Verif.C68_edwards_affine",
    "Verif.C68_edwards_y"
   ],
   "note": "No code of the repository works on twists; this is about the curves its constants define. The twist of an Edwards curve is counted in Weierstrass form, which has two points more than the equation in x and y (points at infinity); C68_edwards_model relates the coordinates."
  },
  {
   "property": "C69",
   "status": "proved",
   "theorems": [
    "Verif.C69_encodes_iff",
    "Verif.C69_card",
    "Verif.C69_unique",
    "Verif.C69_injective"
   ],
   "note": "Counts all strings of the length nbytes(); longer strings are read through their first nbytes() bytes (C14)."
  },
  {
   "property": "C70",
   "status": "proved",
   "theorems": [
    "Verif.C70_canonical",
    "Verif.C70_sub",
    "Verif.C70_small_mul",
    "Verif.C70_neg",
    "Verif.C70_mul",
    "Verif.C70_normalize"
   ],
   "note": "The exact counts behind the counterexamples of C02, C03, C04, C07 and C09."
  },
  {
   "property": "C71",
   "status": "proved",
   "theorems": [
    "Verif.C71_distance",
    "Verif.C71_bound",
    "Verif.C71_each"
   ],
   "note": "Probabilities are numbers of cases divided by the number of all cases; that gen_range is uniform is the hypothesis, the rand crate is not modelled."
  },
  {
   "property": "C72",
   "status": "proved",
   "theorems": [
    "Verif.C72_code",
    "Verif.C72_uniform",
    "Verif.C72_distance",
    "Verif.C72_base"
   ],
   "note": "About the edited scalar_mult of Model/Repaired.lean and the unchanged rand; the code as it is does not compute k P (C31). Uniform answers of the generator are the hypothesis."
  },
  {
   "property": "C73",
   "status": "proved",
   "theorems": [
    "Verif.C73_pack_unpack",
    "Verif.C73_unpack_pack",
    "Verif.C73_unpack_pack_value",
    "Verif.C73_count"
   ],
   "note": "About the two helpers as modelled in Model/Tests.lean; the calls with constants are translated and run by tools/unit_tests.py."
  },
  {
   "property": "C74",
   "status": "proved",
   "theorems": [
    "Verif.C74_client",
    "Verif.C74_public",
    "Verif.C74_shared",
    "Verif.C74_agreement",
    "Verif.C74_rejects",
    "Verif.C74_trace"
   ],
   "note": "About the edited functions of Model/Repaired.lean. The test of the curve equation, the affine coordinates and the comparison of points are not in the repository; Curve/RepairedClients.lean writes them in terms of the operations of the fields."
  },
  {
   "property": "C75",
   "status": "proved",
   "theorems": [
    "Verif.C75_decode",
    "Verif.C75_shared",
    "Verif.C75_public",
    "Verif.C75_agreement",
    "Verif.C75_random",
    "Verif.C75_rejects",
    "Verif.C75_injective"
   ],
   "note": "About the edited functions of Model/Repaired.lean. The repository declares the trait Compressed and has no implementation of it; encoder and decoder are clients as in C74."
  },
  {
   "property": "C76",
   "status": "proved",
   "theorems": [
    "Verif.C76_sum",
    "Verif.C76_difference",
    "Verif.C76_negative",
    "Verif.C76_product",
    "Verif.C76_inverse",
    "Verif.C76_signature",
    "Verif.C76_signature_rare"
   ],
   "note": "About the edited functions of Model/Repaired.lean (the code as it is does not compute k P, C31). The library has no type of numbers modulo ORDER."
  },
  {
   "property": "C77",
   "status": "proved",
   "theorems": [
    "Verif.C77_canonical",
    "Verif.C77_covers",
    "Verif.C77_each",
    "Verif.C77_distance",
    "Verif.C77_bound",
    "Verif.C77_code",
    "Verif.C77_keys"
   ],
   "note": "About the edited rand of Model/RepairedRand.lean (the rest of the fields unchanged), and for the keys the edited functions of Model/Repaired.lean. Uniform answers of the generator are the hypothesis, the rand crate is not modelled."
  },
  {
   "property": "C78",
   "status": "proved",
   "theorems": [
    "Verif.C78_answer",
    "Verif.C78_tells",
    "Verif.C78_cofactor",
    "Verif.C78_four",
    "Verif.C78_clamped"
   ],
   "note": "About the edited functions of Model/Repaired.lean, in a program that checks the curve equation of what it receives and not the order."
  },
  {
   "property": "C79",
   "status": "proved",
   "theorems": [
    "Verif.C79_curve",
    "Verif.C79_twist",
    "Verif.C79_received",
    "Verif.C79_agree",
    "Verif.C79_zero",
    "Verif.C79_naive"
   ],
   "note": "About the text of the field files run by a client program (Client, C53 and C59) that is not code of the repository. C79_naive shows that the normalization cannot be left out."
  },
  {
   "property": "C80",
   "status": "proved",
   "theorems": [
    "Verif.C80_faithful",
    "Verif.C80_release",
    "Verif.C80_debug",
    "Verif.C80_success",
    "Verif.C80_montgomery_alike",
    "Verif.C80_montgomery",
    "Verif.C80_branching_leaks"
   ],
   "note": "As in C56 the record is that of the interpreter of the text: functions, places, operations, indices; not what a compiler or a processor makes of it. The registers of the client count as an array."
  },
  {
   "property": "C81",
   "status": "proved",
   "theorems": [
    "Verif.C81_shared",
    "Verif.C81_agree",
    "Verif.C81_distinct",
    "Verif.C81_alike",
    "Verif.C81_record"
   ],
   "note": "About the text of the field files run by a client program that is not code of the repository (edwards.rs is not used). What the record covers is said in C80."
  },
  {
   "property": "C82",
   "status": "proved",
   "theorems": [
    "Verif.C82_verify",
    "Verif.C82_sign",
    "Verif.C82_extract"
   ],
   "note": "About the text of the field files run by a client program that is not code of the repository. The hash function that makes the challenge and the arithmetic modulo the order (r + h a) are outside of it."
  },
  {
   "property": "C83",
   "status": "proved",
   "theorems": [
    "Verif.C83_shared",
    "Verif.C83_agree",
    "Verif.C83_distinct",
    "Verif.C83_alike",
    "Verif.C83_record"
   ],
   "note": "About the text of the field files run by a client program that is not code of the repository; the trait Compressed of point.rs has no implementation there."
  },
  {
   "property": "C84",
   "status": "proved",
   "theorems": [
    "Verif.C84_others",
    "Verif.C84_few",
    "Verif.C84_some",
    "Verif.C84_unnormalized",
    "Verif.C84_range",
    "Verif.C84_rand",
    "Verif.C84_blinded"
   ],
   "note": "The bound is not sharp: it counts the elements with a power a^(2^j) in the range in which a product could reach 2^504. Whether inverted is wrong for any normalized element is not known (C15)."
  },
  {
   "property": "C85",
   "status": "proved",
   "theorems": [
    "Verif.C85_clients",
    "Verif.C85_avoiding",
    "Verif.C85_needed",
    "Verif.C85_sound",
    "Verif.C85_decode_others",
    "Verif.C85_decode_few",
    "Verif.C85_base"
   ],
   "note": "The set is that of C84 and not the smallest possible. The decoding is a client program that is not code of the repository."
  },
  {
   "property": "C86",
   "status": "proved",
   "theorems": [
    "Verif.C86_sound",
    "Verif.C86_decode",
    "Verif.C86_tuples",
    "Verif.C86_random",
    "Verif.C86_missed"
   ],
   "note": "The decoding is a client program that is not code of the repository. Probabilities as in C71."
  },
  {
   "property": "C87",
   "status": "proved",
   "theorems": [
    "Verif.C87_others",
    "Verif.C87_few",
    "Verif.C87_off_curve",
    "Verif.C87_not_right"
   ],
   "note": "The decoding is a client program that is not code of the repository."
  },
  {
   "property": "C88",
   "status": "proved",
   "theorems": [
    "Verif.C88_sound",
    "Verif.C88_found",
    "Verif.C88_distance",
    "Verif.C88_rejected"
   ],
   "note": "The client is not code of the repository. Probabilities as in C71."
  },
  {
   "property": "C89",
   "status": "proved",
   "theorems": [
    "Verif.C89_point",
    "Verif.C89_same",
    "Verif.C89_count"
   ],
   "note": "The client is not code of the repository, which has constants but no code for the Montgomery curves."
  },
  {
   "property": "C90",
   "status": "proved",
   "theorems": [
    "Verif.C90_back",
    "Verif.C90_all",
    "Verif.C90_rejected",
    "Verif.C90_origin"
   ],
   "note": "The client is not code of the repository, which has constants but no code for the Montgomery curves."
  },
  {
   "property": "C91",
   "status": "proved",
   "theorems": [
    "Verif.C91_point",
    "Verif.C91_same",
    "Verif.C91_one",
    "Verif.C91_count",
    "Verif.C91_few"
   ],
   "note": "The client is not code of the repository. C91_point to C91_count are about the curves other than Curve1174, C91_few is about all of them."
  },
  {
   "property": "C92",
   "status": "proved",
   "theorems": [
    "Verif.C92_back",
    "Verif.C92_all",
    "Verif.C92_rejected"
   ],
   "note": "The client is not code of the repository. The theorems are about the curves other than Curve1174."
  },
  {
   "property": "C93",
   "status": "proved",
   "theorems": [
    "Verif.C93_i64",
    "Verif.C93_usize",
    "Verif.C93_shifts",
    "Verif.C93_u8",
    "Verif.C93_casts",
    "Verif.C93_literals"
   ],
   "note": "About the operations of the interpreter on machine types; that rustc implements these types as two's complement words is part of the trusted base."
  },
  {
   "property": "C94",
   "status": "proved",
   "theorems": [
    "Verif.C94_lines",
    "Verif.C94_comment",
    "Verif.C94_numbers",
    "Verif.C94_unambiguous"
   ],
   "note": "About the reader of the model; tokens that follow each other without a space are not covered."
  },
  {
   "property": "C95",
   "status": "proved",
   "theorems": [
    "Verif.C95_expression",
    "Verif.C95_unambiguous"
   ],
   "note": "About the reader of the model; expressions without T { ... } and write!."
  }
 ]
}
