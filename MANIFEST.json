{
 "claims": [
  {
   "property": "C01",
   "status": "proved",
   "theorems": [
    "MK.C01_idset_history"
   ],
   "note": ""
  },
  {
   "property": "C02",
   "status": "proved",
   "theorems": [
    "MK.C02_add_zero_panics",
    "MK.C02_zero_never_member",
    "MK.IDSet.addAll_zero"
   ],
   "note": ""
  },
  {
   "property": "C03",
   "status": "proved",
   "theorems": [
    "MK.C03_union",
    "MK.C03_intersection",
    "MK.C03_copy"
   ],
   "note": ""
  },
  {
   "property": "C04",
   "status": "proved",
   "theorems": [
    "MK.C04_keyset_history"
   ],
   "note": ""
  },
  {
   "property": "C05",
   "status": "proved",
   "theorems": [
    "MK.C05_rotation_keyset_history",
    "MK.C05_del_unknown_party"
   ],
   "note": ""
  },
  {
   "property": "C06",
   "status": "proved",
   "theorems": [
    "MK.C06_relin_keyset_history",
    "MK.C06_del_keeps_pool",
    "MK.C06_MulRelinNew_panics",
    "MK.C06_MulRelinNew_ok"
   ],
   "note": ""
  },
  {
   "property": "C07",
   "status": "proved",
   "theorems": [
    "MK.C07_new_ciphertext",
    "MK.C07_copy",
    "MK.C07_pad"
   ],
   "note": ""
  },
  {
   "property": "C08",
   "status": "proved",
   "theorems": [
    "MK.C08_encrypt_phase",
    "MK.C08_encrypt_noise",
    "MK.C08_round_trip"
   ],
   "note": ""
  },
  {
   "property": "C09",
   "status": "proved",
   "theorems": [
    "MK.C09_decrypt_phase",
    "MK.C09_decrypt_panics_iff"
   ],
   "note": ""
  },
  {
   "property": "C10",
   "status": "proved",
   "theorems": [
    "MK.C10_partial_decrypt_order"
   ],
   "note": ""
  },
  {
   "property": "C11",
   "status": "proved",
   "theorems": [
    "MK.C11_AddNew",
    "MK.C11_AddNew_ratio"
   ],
   "note": ""
  },
  {
   "property": "C12",
   "status": "proved",
   "theorems": [
    "MK.C12_SubNew",
    "MK.C12_SubNew_ratio"
   ],
   "note": ""
  },
  {
   "property": "C13",
   "status": "proved",
   "theorems": [
    "MK.C13_metadata"
   ],
   "note": "Operands are values in the model, so they are unchanged by construction."
  },
  {
   "property": "C14",
   "status": "proved",
   "theorems": [
    "MK.C14_factor",
    "MK.C14_decode_error",
    "MK.C14_exact_iff",
    "MK.C14_ratio_below_two"
   ],
   "note": ""
  },
  {
   "property": "C15",
   "status": "proved",
   "theorems": [
    "MK.C15_DropLevel",
    "MK.C15_DropLevel_panics",
    "MK.C15_DropLevelNew"
   ],
   "note": ""
  },
  {
   "property": "C16",
   "status": "partial",
   "theorems": [
    "MK.C16_MultByConst",
    "MK.C16_MultByConst_int",
    "MK.C16_complex_wrong",
    "MK.C16_complex_partial"
   ],
   "note": "Real constants proved; for complex constants the claim is false on coefficient-form ciphertexts (C16_complex_wrong) and the law that does hold is C16_complex_partial."
  },
  {
   "property": "C17",
   "status": "proved",
   "theorems": [
    "MK.C17_errors",
    "MK.C17_count",
    "MK.C17_scale",
    "MK.C17_scale_exact"
   ],
   "note": ""
  },
  {
   "property": "C18",
   "status": "proved",
   "theorems": [
    "MK.C18_Rescale",
    "MK.C18_Rescale_slots"
   ],
   "note": ""
  },
  {
   "property": "C19",
   "status": "partial",
   "theorems": [
    "MK.C19_RescaleNew_loses_input",
    "MK.C19_RescaleNew_drops"
   ],
   "note": "The claim is false when no modulus is dropped: the result decrypts to zero. Proved otherwise."
  },
  {
   "property": "C20",
   "status": "proved",
   "theorems": [
    "MK.C20_MulPtxt",
    "MK.C20_MulPtxtNew",
    "MK.C20_MulPtxtNew_slots"
   ],
   "note": ""
  },
  {
   "property": "C21",
   "status": "proved",
   "theorems": [
    "MK.C21_MulAndRelin",
    "MK.C21_MulRelinNew",
    "MK.C21_MulRelinNew_slots",
    "MK.C21_mulRelin"
   ],
   "note": ""
  },
  {
   "property": "C22",
   "status": "proved",
   "theorems": [
    "MK.C22_square"
   ],
   "note": ""
  },
  {
   "property": "C23",
   "status": "proved",
   "theorems": [
    "MK.C23_mul_hoisted",
    "MK.C23_rotate_hoisted",
    "MK.C30_hoisted_eq",
    "MK.C23_MulRelinHoistedNew",
    "MK.C23_MulRelinHoistedNew_nil",
    "MK.C23_HoistedForm",
    "MK.C23_RotateHoistedNew",
    "MK.C23_mulRelin"
   ],
   "note": ""
  },
  {
   "property": "C24",
   "status": "proved",
   "theorems": [
    "MK.C24_Rotate",
    "MK.C24_RotateNew"
   ],
   "note": ""
  },
  {
   "property": "C25",
   "status": "proved",
   "theorems": [
    "MK.C25_default_keys_suffice",
    "MK.C35_default_rotation_keys"
   ],
   "note": ""
  },
  {
   "property": "C26",
   "status": "proved",
   "theorems": [
    "MK.C26_panics",
    "MK.C26_copy"
   ],
   "note": ""
  },
  {
   "property": "C27",
   "status": "proved",
   "theorems": [
    "MK.C27_Conjugate",
    "MK.C27_ConjugateNew",
    "MK.C27_below_max_panics",
    "MK.C27_ConjugateNew_below_max_panics"
   ],
   "note": "Below the maximum level the code panics; this is proved too."
  },
  {
   "property": "C28",
   "status": "proved",
   "theorems": [
    "MK.C28_reach_ok",
    "MK.C28_external_product",
    "MK.C28_decompose",
    "MK.C28_mul",
    "MK.C28_rotate",
    "MK.C28_conjugate",
    "MK.C28_ev_reach_ok",
    "MK.C28_AddNew_SubNew",
    "MK.C28_MulPtxtNew",
    "MK.C28_MulRelinNew",
    "MK.C28_RotateNew",
    "MK.C28_ConjugateNew"
   ],
   "note": ""
  },
  {
   "property": "C29",
   "status": "proved",
   "theorems": [
    "MK.C29_decompose"
   ],
   "note": ""
  },
  {
   "property": "C30",
   "status": "proved",
   "theorems": [
    "MK.C30_external_product",
    "MK.C30_hoisted_eq"
   ],
   "note": ""
  },
  {
   "property": "C31",
   "status": "proved",
   "theorems": [
    "MK.Word.C31_ModUpQtoP",
    "MK.Word.C31_ModUpPtoQ",
    "MK.Word.C31_panics_above_32"
   ],
   "note": "Word level, one coefficient column. The bound 'below 3p' holds only when the source primes sum to at most 2^64; 6p in general."
  },
  {
   "property": "C32",
   "status": "proved",
   "theorems": [
    "MK.Word.C32_ModDownQPtoQ",
    "MK.Word.C32_not_rounded"
   ],
   "note": "Floor up to the float quotient; the documented rounding is refuted for every input whose fractional part is at least one half."
  },
  {
   "property": "C33",
   "status": "partial",
   "theorems": [
    "MK.Word.C33_ModDownQPtoP_partial",
    "MK.Word.C33_ModDownQPtoP_law",
    "MK.Word.C33_wrong_table",
    "MK.Word.C33_panics"
   ],
   "note": "Holds for levelP = levelQ; the law at all levels is C33_ModDownQPtoP_law; for other levels the code uses the wrong inverse and the claim is refuted (wrong result or panic)."
  },
  {
   "property": "C34",
   "status": "proved",
   "theorems": [
    "MK.C34_secret_key",
    "MK.C34_public_key",
    "MK.C34_relin_key",
    "MK.C34_rotation_key",
    "MK.C34_conjugation_key"
   ],
   "note": ""
  },
  {
   "property": "C35",
   "status": "proved",
   "theorems": [
    "MK.C35_rotation_key_index",
    "MK.C35_default_negative",
    "MK.C35_minus_one_panics",
    "MK.C35_keypair_sparse_panics",
    "MK.C35_default_rotation_keys"
   ],
   "note": "The documented behaviour for negative indices and for sparse key pairs is refuted; the exact law is proved."
  },
  {
   "property": "C36",
   "status": "proved",
   "theorems": [
    "MK.C36_permutation_is_automorphism",
    "MK.C36_positions_once",
    "MK.C36_word"
   ],
   "note": ""
  },
  {
   "property": "C37",
   "status": "proved",
   "theorems": [
    "MK.C37_rotation",
    "MK.C37_conjugation",
    "MK.C37_slots_injective",
    "MK.C37_RotateNew_slots",
    "MK.C37_ConjugateNew_slots"
   ],
   "note": "Slots are values at exp(i pi/N)^(5^j), the order of the encoder (trusted); the evaluator corollaries carry the rotation and conjugation theorems to slots with noise bounds."
  },
  {
   "property": "C38",
   "status": "proved",
   "theorems": [
    "MK.Lr.C38_SumRowVec",
    "MK.Lr.C38_SumColVec"
   ],
   "note": "On exact slot vectors of any field; C37_RotateNew_slots and C11_C12_slots connect the ciphertext operations to these."
  },
  {
   "property": "C39",
   "status": "proved",
   "theorems": [
    "MK.Lr.C39_iteration",
    "MK.Lr.C39_train",
    "MK.Lr.C39_lr",
    "MK.Lr.C39_minibatch_iteration",
    "MK.Lr.C39_minibatch_train",
    "MK.Lr.C39_minibatch"
   ],
   "note": "Exact slot arithmetic, from the parsed table to the weights, for any number of iterations."
  },
  {
   "property": "C40",
   "status": "proved",
   "theorems": [
    "MK.Lr.C40_packBatchZ",
    "MK.Lr.C40_packBatchLabel",
    "MK.Lr.C40_unique_place",
    "MK.Lr.C40_perBatch",
    "MK.Lr.C40_overfull",
    "MK.Lr.C40_mask_width",
    "MK.Lr.C39_minibatch"
   ],
   "note": "C40_overfull: a batch size above the row count that is not a multiple of it gives batches with more records than the divisor. The zero padding is part of C39_minibatch."
  },
  {
   "property": "C41",
   "status": "proved",
   "theorems": [
    "MK.Lr.C41_infer"
   ],
   "note": ""
  },
  {
   "property": "C42",
   "status": "proved",
   "theorems": [
    "MK.Lr.C42_training",
    "MK.Lr.C42_training_inference",
    "MK.Lr.C42_minibatch"
   ],
   "note": "On the real evaluator, from ciphertexts at any level high enough: every iteration ends exactly four levels lower, inference three, every product is rescaled by exactly one level and no rescaling error is dropped; the slot values are tracked alongside with explicit error terms."
  },
  {
   "property": "C43",
   "status": "proved",
   "theorems": [
    "MK.C43_Decrypt",
    "MK.C43_after_history",
    "MK.C43_history_independent",
    "MK.C43_history_dependent"
   ],
   "note": "Exact effect of any history of successful decryptions (the pool keeps the lowest level seen); equality with a new decryptor when the carried polynomial fits that modulus, and inequality otherwise for an encoder that separates polynomials. Encoder is an arbitrary pair of functions (lattigo)."
  },
  {
   "property": "C44",
   "status": "proved",
   "theorems": [
    "MK.Utils.C44_bit_reverse",
    "MK.Utils.C44_involutive",
    "MK.Utils.C44_not_power"
   ],
   "note": "For N = 2^k; also proved: for every other positive N the helper loops forever."
  },
  {
   "property": "C45",
   "status": "proved",
   "theorems": [
    "MK.Utils.C45_interfaceMod_uint64",
    "MK.Utils.C45_interfaceMod_big",
    "MK.Utils.C45_interfaceMod_int64",
    "MK.Utils.C45_interfaceMod_other",
    "MK.Utils.C45_scaleUpExact",
    "MK.Utils.C45_genBigIntChain",
    "MK.Utils.C45_GenSwitchkeysRescalingParams",
    "MK.Utils.C45_scaleUpVecExact"
   ],
   "note": "interfaceMod on int64 is congruent but reduced only as characterised by C45_interfaceMod_int64 (positive values are returned unreduced, negative multiples give q). scaleUpVecExact away from the 2^64 edge of the conversion."
  },
  {
   "property": "C46",
   "status": "proved",
   "theorems": [
    "MK.Utils.C46_readData",
    "MK.Utils.C46_panics_iff"
   ],
   "note": "From the parsed CSV rows on; ParseFloat is an arbitrary partial function."
  },
  {
   "property": "C47",
   "status": "proved",
   "theorems": [
    "MK.Word.C47_table",
    "MK.Word.C47_DecomposeAndSplit",
    "MK.Word.C47_digit",
    "MK.Word.C47_refines_digit",
    "MK.Word.C47_panics_not_dvd",
    "MK.Word.C47_panics_alpha_zero"
   ],
   "note": "Also shows that the words computed are residues of the digit used in the key-switch model."
  },
  {
   "property": "C48",
   "status": "proved",
   "theorems": [
    "MK.Word.C48_quotient",
    "MK.Word.C48_floatOK"
   ],
   "note": "For any rounding with relative error 2^-53 (round-to-nearest double is an instance)."
  },
  {
   "property": "C49",
   "status": "proved",
   "theorems": [
    "MK.C49_EncryptMsgNewExpand",
    "MK.C49_EncryptMsgNew",
    "MK.C49_EncodeMsgNew",
    "MK.C49_round_trip"
   ],
   "note": "Encoder arbitrary; histories of encryptor and decryptor arbitrary."
  },
  {
   "property": "C50",
   "status": "proved",
   "theorems": [
    "MK.Lr.C50_genTestParams",
    "MK.Lr.C50_direct"
   ],
   "note": "From the CRS of NewParameters on; the random samples are arbitrary within their bounds and the map order over the ids is arbitrary."
  },
  {
   "property": "C51",
   "status": "proved",
   "theorems": [
    "MK.Lr.C51_lr_main",
    "MK.Lr.C51_accuracy",
    "MK.Lr.C51_shipped"
   ],
   "note": "The constants of main are computed in float64 (C62); the data are complex numbers; lattigo's encoder is any encoder meeting Encoder.Accurate (one is constructed: MK.stdEncoder_accurate). The error bounds are worst case: at the shipped parameters the worst-case relinearization error is large, so C51_accuracy is informative only for parameters with smaller digits; levels, scales and the absence of panics do not depend on it."
  },
  {
   "property": "C52",
   "status": "proved",
   "theorems": [
    "MK.Lr.C52_mb_main",
    "MK.Lr.C52_accuracy",
    "MK.Lr.C52_shipped"
   ],
   "note": "As C51, for lr_minibatch.go."
  },
  {
   "property": "C53",
   "status": "proved",
   "theorems": [
    "MK.Lr.C53_normalise",
    "MK.Lr.C53_ok_iff",
    "MK.Lr.C53_standard",
    "MK.Lr.C53_units",
    "MK.Lr.C53_columns"
   ],
   "note": "Values in exact arithmetic (float64: C63), success and panics for any rounding; a constant column gives NaN in Go, which the theorems exclude (Varies)."
  },
  {
   "property": "C54",
   "status": "proved",
   "theorems": [
    "MK.Lr.C54_toy_main",
    "MK.Lr.C54_accuracy",
    "MK.Lr.C54_shipped"
   ],
   "note": "As C51, for lr_toy.go."
  },
  {
   "property": "C55",
   "status": "proved",
   "theorems": [
    "MK.Lr.C55_mb_toy_main",
    "MK.Lr.C55_accuracy",
    "MK.Lr.C55_shipped"
   ],
   "note": "As C52, for lr_minibatch_toy.go."
  },
  {
   "property": "C56",
   "status": "proved",
   "theorems": [
    "MK.Lr.C56_bounds",
    "MK.Lr.C56_accuracy",
    "MK.Lr.C56_small"
   ],
   "note": "As C51; the rational bounds are worst case and evaluated by the kernel at ring degree 32."
  },
  {
   "property": "C57",
   "status": "proved",
   "theorems": [
    "MK.C57_client",
    "MK.C57_frame",
    "MK.C57_reserved_id"
   ],
   "note": "Keys, hoisted forms, plaintexts and the scratch of key switcher, encryptor and decryptor stay values: no function lets a ciphertext component point into them."
  },
  {
   "property": "C58",
   "status": "proved",
   "theorems": [
    "MK.Lr.C58_lr",
    "MK.Lr.C58_lrToy",
    "MK.Lr.C58_mb",
    "MK.Lr.C58_mbToy",
    "MK.Lr.C58_lr_accuracy",
    "MK.Lr.C58_mb_accuracy"
   ],
   "note": "Keys, plaintexts, vectors and the scratch of encryptor and decryptor stay values, as in C57."
  },
  {
   "property": "C59",
   "status": "proved",
   "theorems": [
    "MK.Word.C59_ModDownQPtoQNTT",
    "MK.Word.C59_ShallowCopy",
    "MK.Word.C59_ModUp_scratch"
   ],
   "note": "lattigo's lazy transforms enter by a contract: linear bijection modulo q, words below 6q stay below 6q."
  },
  {
   "property": "C60",
   "status": "proved",
   "theorems": [
    "MK.Utils.C60_scaleUpBig",
    "MK.Utils.C60_scaleUpVecExactBigFloat",
    "MK.Utils.C60_scaleUpVecExactBigFloat_empty",
    "MK.Utils.C60_scaleDown",
    "MK.Utils.C60_scaleDown_not_square",
    "MK.Utils.C60_roundtrip",
    "MK.Utils.C60_StandardDeviation",
    "MK.Utils.C60_StandardDeviation_zero",
    "MK.Utils.C60_StandardDeviation_float",
    "MK.Utils.C60_StandardDeviation_equal",
    "MK.Utils.C60_stdDev_nan",
    "MK.Utils.C60_GenSecretKey_distribution"
   ],
   "note": "StandardDeviation in exact real arithmetic and with every float64 rounding (no overflow, no fused operations); big.Float by its relative rounding error; the ternary sampler by its documented distribution."
  },
  {
   "property": "C61",
   "status": "proved",
   "theorems": [
    "MK.Lr.C61_bounds",
    "MK.Lr.C61_accuracy",
    "MK.Lr.C61_small",
    "MK.Lr.C61_toy_accuracy",
    "MK.Lr.C61_mb_toy_accuracy",
    "MK.Lr.C61_mb_toy_small",
    "MK.Lr.C61_toy_small"
   ],
   "note": "As C56, for the other three programs; lr_toy.go needs 210 slots and is evaluated at degree 512."
  },
  {
   "property": "C62",
   "status": "proved",
   "theorems": [
    "MK.Lr.C62_consts",
    "MK.Lr.C51_lr_main",
    "MK.Lr.C52_mb_main",
    "MK.Lr.C54_toy_main",
    "MK.Lr.C55_mb_toy_main"
   ],
   "note": "Rounding with unbounded exponent (no overflow or underflow); float64(batchSize) exact. The main theorems are stated for the constants computed this way."
  },
  {
   "property": "C63",
   "status": "proved",
   "theorems": [
    "MK.Lr.C63_normalise",
    "MK.Lr.C54_shipped",
    "MK.Lr.C55_shipped"
   ],
   "note": "Rounding with unbounded exponent; math.Pow(x,2) is the rounded square; float64(numTrain)-1 exact."
  },
  {
   "property": "C64",
   "status": "proved",
   "theorems": [
    "MK.C64_ceilQuot",
    "MK.C64_beta",
    "MK.C64_ceilDiv",
    "MK.C64_shape"
   ],
   "note": "math.Log2 and math.Pow(2, n) by a contract: exact on powers of two, resp. integers; other logarithms accurate to 2^-40."
  },
  {
   "property": "C65",
   "status": "proved",
   "theorems": [
    "MK.C65_log2OfInnerSum",
    "MK.C65_PKGen",
    "MK.C65_SWKGen",
    "MK.C65_RLKGen",
    "MK.C65_RLKGen_can_fail",
    "MK.C65_Encrypt",
    "MK.C65_Encrypt_can_fail",
    "MK.C65_ExternalProduct"
   ],
   "note": "Samples within the cut-off of the samplers (6 sigma = 19, ternary secrets); the primes of lattigo's test parameters are not in the repository, so the moduli are any that exceed the stated sizes."
  },
  {
   "property": "C66",
   "status": "proved",
   "theorems": [
    "MK.Lr.C66_keys",
    "MK.Lr.C66_lr_main",
    "MK.Lr.C66_toy_main",
    "MK.Lr.C66_mb_main",
    "MK.Lr.C66_mb_toy_main"
   ],
   "note": "Samples belong to the party (keys) or to the call (encryptions) they are drawn for, so that runs in different orders can have the same samples."
  },
  {
   "property": "C67",
   "status": "proved",
   "theorems": [
    "MK.Lr.C67_normalise",
    "MK.Lr.C67_lr_main",
    "MK.Lr.C67_toy_main",
    "MK.Lr.C67_mb_main",
    "MK.Lr.C67_mb_toy_main",
    "MK.Lr.C67_shipped",
    "MK.Lr.C67_accuracy"
   ],
   "note": "NaN and infinities have no value in the model; since nothing leaves the normal range none occur, except by division by a zero standard deviation, which the hypotheses exclude."
  },
  {
   "property": "C68",
   "status": "proved",
   "theorems": [
    "MK.C68_Decrypt_verdict",
    "MK.C68_Decrypt_eq_Encrypt",
    "MK.C68_Decrypt",
    "MK.C68_Decrypt_can_fail",
    "MK.C68_Multikey_verdict",
    "MK.C68_Multikey",
    "MK.C68_Multikey_can_fail",
    "MK.C68_Decompose",
    "MK.C68_Hadamard",
    "MK.C68_Hadamard_can_fail"
   ],
   "note": "As C65. The bounds on the Hadamard product assume that the measured coefficients stay below half of every modulus; at the parameter set of lr.go they need not, and nothing is claimed there."
  },
  {
   "property": "C69",
   "status": "proved",
   "theorems": [
    "MK.C69_secret_key",
    "MK.C69_public_key",
    "MK.C69_key_pair",
    "MK.C69_relin_key",
    "MK.C69_rotation_key",
    "MK.C69_conjugation_key",
    "MK.C69_default_rotation_keys",
    "MK.C69_add_crs",
    "MK.C69_copies",
    "MK.C69_start",
    "MK.C69_step",
    "MK.C69_run",
    "MK.C69_session",
    "MK.C69_unchanged",
    "MK.C69_sound"
   ],
   "note": "A cell is the polynomial pair (Q,P) of one key entry; the Go code never shares the Q part and the P part of one entry separately."
  },
  {
   "property": "C70",
   "status": "proved",
   "theorems": [
    "MK.C70_mul",
    "MK.C70_mulHoisted",
    "MK.C70_rotate",
    "MK.C70_rotateHoisted",
    "MK.C70_conjugate",
    "MK.C70_step",
    "MK.C70_run",
    "MK.C70_session",
    "MK.C70_unchanged"
   ],
   "note": "A ciphertext component is the Q half of a cell. Scales and rescaling are not part of this memory (they are in that of C57); in a session the level and the id set of a new ciphertext are given by the caller."
  },
  {
   "property": "C71",
   "status": "proved",
   "theorems": [
    "MK.C71_encrypt",
    "MK.C71_encMsg",
    "MK.C71_copy",
    "MK.C71_partial",
    "MK.C71_decrypt",
    "MK.C71_cdecrypt",
    "MK.C71_session_decrypt",
    "MK.C71_round_trip"
   ],
   "note": "The effect of the encoder on the plaintext pool is an arbitrary function, and the decoder reads the decryptor's pool at once; scales are not part of this memory. In a session PartialDecrypt is applied to a copy only; applied in place it changes its argument by design."
  },
  {
   "property": "C72",
   "status": "proved",
   "theorems": [
    "MK.CT.C72_EncAndDec_verdict",
    "MK.CT.C72_EncAndDec_pass",
    "MK.CT.C72_EncAndDec_can_fail",
    "MK.CT.C72_shipped_can_fail",
    "MK.CT.C72_Add_pass",
    "MK.CT.C72_Sub_pass",
    "MK.CT.C72_Mul_pass",
    "MK.CT.C72_Rot_any",
    "MK.CT.C72_Rot_blind",
    "MK.CT.C72_Rot_wrong",
    "MK.CT.C72_Rot_pass",
    "MK.CT.C72_Conj_pass",
    "MK.CT.C72_Conj_sees",
    "MK.CT.C72_MulHoisted_pass",
    "MK.CT.C72_RotHoisted_pass",
    "MK.CT.C72_RotHoisted_panics",
    "MK.CT.C72_MulPtxt_pass",
    "MK.CT.C72_Rescale_pass"
   ],
   "note": "The rounding of complex128 additions and of math.Log2 inside the tests is not modelled. The positive results on the evaluator are conditional on noise bounds; at the shipped parameters the worst case exceeds the tolerance (C72_shipped_can_fail), the examples are at ring degree 32 and, for the rotation test, at PN15QP880 with little encryption noise."
  },
  {
   "property": "C73",
   "status": "proved",
   "theorems": [
    "MK.C73_RotateNew_panics",
    "MK.C73_RotateNew_iff",
    "MK.C73_RotateHoistedNew_panics",
    "MK.C73_RotateHoistedNew_iff",
    "MK.C73_ConjugateNew_panics",
    "MK.C73_ConjugateNew_iff",
    "MK.CT.C73_benchMulAndRelin_ok",
    "MK.CT.C73_benchMulAndRelin",
    "MK.CT.C73_BenchmarkMKCKKS",
    "MK.CT.C73_benchSquareHoisted",
    "MK.CT.C73_benchMulAndRelinHoisted",
    "MK.CT.C73_benchMulAndRelinHoisted_panics",
    "MK.CT.C73_benchRotate_panics",
    "MK.CT.C73_testEvaluatorRot_panics",
    "MK.CT.C73_testEvaluatorRotHoisted_panics",
    "MK.CT.C73_testEvaluatorConj_panics",
    "MK.CT.C73_userList",
    "MK.CT.C73_TestCKKS_runs",
    "MK.CT.C73_TestCKKS_pass",
    "MK.CT.C73_TestCKKS_verdict",
    "MK.CT.C73_TestCKKS_sees",
    "MK.CT.C73_shipped_TestCKKS_can_fail",
    "MK.CT.C73_shipped_TestCKKS",
    "MK.CT.C73_shipped_TestCKKS_PN14",
    "MK.CT.C73_shipped_Benchmark",
    "MK.CT.C73_shipped_Benchmark_PN14"
   ],
   "note": "Time measurement, printing and the rounding inside the tests are not modelled. Passing is conditional on noise bounds; at the shipped parameters the worst case exceeds the tolerance (C72)."
  },
  {
   "property": "C74",
   "status": "proved",
   "theorems": [
    "MK.C74_set_verdict",
    "MK.C74_TestMKRLWE_verdict",
    "MK.C74_TestMKRLWE_skips",
    "MK.C74_set_passes",
    "MK.C74_TestMKRLWE_can_fail"
   ],
   "note": "The parameter literals of the default list come from lattigo's source, which is not in the repository: the theorems hold for every list, and the instance is PN16QP1761 of the test file. A sampler is a bound on its samples."
  },
  {
   "property": "C75",
   "status": "proved",
   "theorems": [
    "MK.Lr.C75_whole_batch",
    "MK.Lr.C75_first_batch",
    "MK.Lr.C75_lr_toy",
    "MK.Lr.C75_lr",
    "MK.Lr.C75_mb_toy",
    "MK.Lr.C75_mb"
   ],
   "note": "The statements about the programs are those of C51, C52, C54, C55 with the plain training evaluated."
  },
  {
   "property": "C76",
   "status": "proved",
   "theorems": [
    "MK.Lr.C76_toy",
    "MK.Lr.C76_lr",
    "MK.Lr.C76_momentum"
   ],
   "note": "nesLambda is Nesterov's sequence, independent of the programs; that their authors meant its weights is read off the toy programs."
  },
  {
   "property": "C77",
   "status": "proved",
   "theorems": [
    "MK.Lr.readData_toyRows",
    "MK.Lr.exParse_ok",
    "MK.Lr.csv_col",
    "MK.Lr.CsvTable.toyData",
    "MK.Lr.CsvTable.score",
    "MK.Lr.C77_toy",
    "MK.Lr.C77_mb_toy"
   ],
   "note": "The file is transcribed record by record (Verif/ToyCsv.lean); that the transcription renders to the file byte for byte was checked outside the proofs. encoding/csv is modelled as the list of rows; strconv.ParseFloat as any correctly rounding parser."
  },
  {
   "property": "C78",
   "status": "proved",
   "theorems": [
    "MK.Lr.C78_plain",
    "MK.Lr.C78_toy",
    "MK.Lr.C78_mb_toy"
   ],
   "note": "Noise means the distance of the decrypted slot from the number its polynomial holds; its worst-case bound at the shipped parameters (C54, C55) is larger than these thresholds, so the statements count the records that exceed them."
  },
  {
   "property": "C79",
   "status": "proved",
   "theorems": [
    "MK.Lr.readData_dataRows",
    "MK.Lr.exParseLong_ok",
    "MK.Lr.C79_plain",
    "MK.Lr.C79_lr",
    "MK.Lr.C79_mb"
   ],
   "note": "The file is transcribed record by record (Verif/DataCsv.lean); that the transcription renders to the file byte for byte was checked outside the proofs. encoding/csv is modelled as the list of rows; strconv.ParseFloat as any correctly rounding parser. Noise is as in C78."
  }
 ]
}