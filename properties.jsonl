{"id": "C01", "title": "IDSet behaves as a finite set under every call history", "statement": "After any sequence of Add and Remove calls on a fresh IDSet, Has(v) is true exactly when the last Add/Remove mentioning v was an Add, and Size() is the number of such v.", "quantifier": "all finite sequences of Add/Remove calls over all strings", "why_tests_cant": "histories are unbounded; a test samples a few", "anchors": ["mkrlwe/idset.go: NewIDSet, Has, Add, Remove, Size"]}
{"id": "C02", "title": "The reserved identifier \"0\" can never be a party", "statement": "Add(\"0\") always panics, and no IDSet built by any history of the exported operations (Add, Remove, CopyNew, Union, Intersection, Ciphertext.IDSet) contains \"0\"; hence the constant component of a ciphertext is never mistaken for a party.", "quantifier": "all histories of IDSet operations, all ciphertexts", "why_tests_cant": "must hold after every history, not only the ones a test builds", "anchors": ["mkrlwe/idset.go: Add, CopyNew, Union, Intersection", "mkrlwe/elements.go: Ciphertext.IDSet"]}
{"id": "C03", "title": "Union, Intersection and CopyNew are the set operations, and do not alias their inputs", "statement": "For all IDSets a, b and every map iteration order, a.Union(b)/a.Intersection(b)/a.CopyNew() never panics, contains exactly the union/intersection/same identifiers with the right Size, and a, b are unchanged.", "quantifier": "all pairs of sets, all Go map iteration orders", "why_tests_cant": "Go randomises map iteration order; all sets", "anchors": ["mkrlwe/idset.go: Union, Intersection, CopyNew"]}
{"id": "C04", "title": "Key sets return the last key registered for a party", "statement": "For SecretKeySet, PublicKeySet and ConjugationKeySet: after any history of Add/Del calls Get(id) returns the key of the last Add for id if it was not followed by a Del of id, and panics otherwise; calls concerning one party never change the answer for another.", "quantifier": "all finite Add/Del histories", "why_tests_cant": "unbounded histories", "anchors": ["mkrlwe/keys.go: AddSecretKey, DelSecretKey, GetSecretKey, AddPublicKey, GetPublicKey, DelPublicKey, AddConjugationKey, DelConjugationKey, GetConjugationKey"]}
{"id": "C05", "title": "RotationKeySet is a map keyed by (party, rotation index)", "statement": "After any history of AddRotationKey/DelRotationKey, GetRotationKey(id,k) returns the last key added for exactly that (id,k) unless deleted since, and panics otherwise; DelRotationKey of an unknown party is a no-op.", "quantifier": "all finite histories", "why_tests_cant": "unbounded histories; two-level nil-map cases", "anchors": ["mkrlwe/keys.go: AddRotationKey, DelRotationKey, GetRotationKey"]}
{"id": "C06", "title": "Every registered relinearization key has scratch space, and multiplication with an unregistered party panics", "statement": "After any history of AddRelinearizationKey/DelRelinearizationKey, GetRelinearizationKey behaves as in C04 and every party with a key has an entry in both hoisting pools, so MulRelinNew never dereferences a missing pool entry for a registered party; if a participant of an operand has no relinearization key, MulRelinNew panics and never returns a ciphertext.", "quantifier": "all histories, all ciphertext pairs", "why_tests_cant": "unbounded histories", "anchors": ["mkrlwe/keys.go: RelinearizationKeySet, AddRelinearizationKey, DelRelinearizationKey", "mkckks/evaluator.go: MulRelinNew"]}
{"id": "C07", "title": "Ciphertext participants, copies and padding", "statement": "NewCiphertext(idset).IDSet() is idset; CopyNew yields an equal ciphertext whose later mutation does not affect the original; PadCiphertext(ids) makes the participants the union and leaves the decryption of the ciphertext under every key assignment unchanged.", "quantifier": "all id sets, all ciphertexts, all secret keys", "why_tests_cant": "all ciphertexts and keys", "anchors": ["mkrlwe/elements.go: NewCiphertext, IDSet, CopyNew, PadCiphertext"]}
{"id": "C08", "title": "Encrypt then Decrypt returns the message up to bounded noise", "statement": "For every plaintext polynomial m, every party with a ternary secret and a public key with error bound B, every encryption randomness, in both NTT and coefficient form of plaintext and of ciphertext, and for every enclosing id set whose keys are supplied: Decrypt(Encrypt(m)) equals m + e at every level of min(plaintext level, ciphertext level), for one integer polynomial e with |e|_inf <= (2N+1)B.", "quantifier": "all messages, keys, random tapes, ring degrees, levels, NTT flags", "why_tests_cant": "quantifies over all randomness and messages", "anchors": ["mkrlwe/encryptor.go: Encrypt", "mkrlwe/decryptor.go: Decrypt", "mkrlwe/keygen.go: GenPublicKey, genSecretKeyFromSampler", "mkckks/encryptor.go: EncryptMsgNew, EncryptMsgNewExpand"]}
{"id": "C09", "title": "Decrypt needs exactly the participants' keys", "statement": "Decrypt panics if and only if some participant of the ciphertext has no key in the set; keys of non-participants do not influence the result; the ciphertext passed in is not modified.", "quantifier": "all ciphertexts, all key sets, all map iteration orders", "why_tests_cant": "all subsets of keys and orders", "anchors": ["mkrlwe/decryptor.go: Decrypt, PartialDecrypt"]}
{"id": "C10", "title": "Distributed decryption is order independent", "statement": "Applying PartialDecrypt with the participants' keys in any order leaves the same constant component c0 + sum c_id*s_id and removes exactly those participants; Decrypt equals this whatever order Go iterates the key map in.", "quantifier": "all permutations of parties, all ciphertexts", "why_tests_cant": "n! schedules; Go randomises map order", "anchors": ["mkrlwe/decryptor.go: PartialDecrypt, Decrypt"]}
{"id": "C11", "title": "AddNew decrypts to the sum", "statement": "For all ciphertexts a, b over arbitrary (overlapping or disjoint) party sets with equal scales, phase(AddNew(a,b)) = phase(a)+phase(b) at every level of the result, for all secret keys; when one scale is an integer multiple k>=2 of the other the smaller one is multiplied by k first.", "quantifier": "all ciphertext pairs, id sets, levels, keys", "why_tests_cant": "all inputs", "anchors": ["mkckks/evaluator.go: AddNew, evaluateInPlace, newCiphertextBinary, MultByConst"]}
{"id": "C12", "title": "SubNew decrypts to the difference", "statement": "Same as C11 for SubNew: phase(SubNew(a,b)) = phase(a)-phase(b), including components of parties present only in b (which must be negated) or only in a.", "quantifier": "all ciphertext pairs, id sets, levels, keys", "why_tests_cant": "all inputs", "anchors": ["mkckks/evaluator.go: SubNew, sub"]}
{"id": "C13", "title": "Metadata of binary operations", "statement": "AddNew/SubNew return a new ciphertext with participants = union, level = min, scale = max of the operands', in coefficient form, and leave both operands (value and scale) unchanged.", "quantifier": "all ciphertext pairs", "why_tests_cant": "all inputs", "anchors": ["mkckks/evaluator.go: newCiphertextBinary, evaluateInPlace"]}
{"id": "C14", "title": "AddNew respects scales for every scale ratio", "statement": "For all scales, decoding AddNew(a,b) at the returned scale yields decode(a)+decode(b) (relative error of the rescaled operand at most the rounding of one integer factor). The code multiplies by floor(ratio) and ignores ratios below 2, so the law holds exactly for integer ratios and fails otherwise; the proved law gives the exact factor.", "quantifier": "all pairs of positive scales", "why_tests_cant": "all real scale ratios", "anchors": ["mkckks/evaluator.go: evaluateInPlace"]}
{"id": "C15", "title": "DropLevel keeps the plaintext", "statement": "DropLevel(ct,n) with 0<=n<=level removes exactly n moduli from every component and leaves the phase modulo every remaining modulus unchanged; DropLevelNew leaves its argument unchanged; n > level+1 panics.", "quantifier": "all ciphertexts and n", "why_tests_cant": "all inputs", "anchors": ["mkckks/evaluator.go: DropLevel, DropLevelNew"]}
{"id": "C16", "title": "MultByConst multiplies the plaintext by the constant", "statement": "For every ciphertext and every real constant the phase of the result is round(scale*c) times the phase of the input modulo every q_i, and the scale field is multiplied by the scale used; for complex constants the evaluator's coefficient-form ciphertexts should be multiplied by a+b*i (X^(N/2)).", "quantifier": "all ciphertexts, all constants", "why_tests_cant": "all constants", "anchors": ["mkckks/evaluator.go: MultByConst, getConstAndScale", "mkckks/utils.go: scaleUpExact"]}
{"id": "C17", "title": "Rescale divides by exactly the right number of moduli", "statement": "For all scales and levels: Rescale returns an error and changes nothing when minScale<=0, scale=0 or level=0; otherwise it drops the smallest n moduli such that the remaining scale is below q*minScale/2, the new scale is scale/(product of the dropped moduli) and is >= minScale/2 if n>0; it never returns a ciphertext of negative level (it panics when the scale exceeds what the whole chain can absorb).", "quantifier": "all scales, moduli chains, levels", "why_tests_cant": "loop bound depends on real-valued scales", "anchors": ["mkckks/evaluator.go: Rescale"]}
{"id": "C18", "title": "Rescaling divides the plaintext with bounded error", "statement": "For every ciphertext with k parties holding ternary keys, q_L * phase(Rescale(ct)) = phase(ct) + e at every remaining level, with one integer polynomial e, |e|_inf <= (q_L/2)(1+kN) per dropped modulus.", "quantifier": "all ciphertexts, keys, levels", "why_tests_cant": "all inputs", "anchors": ["mkckks/evaluator.go: Rescale"]}
{"id": "C19", "title": "RescaleNew returns the input when no rescaling is due", "statement": "If the scale is already below the threshold, RescaleNew(ct, t) should return a ciphertext that decrypts like ct. (The code rebinds its local pointer and returns the freshly allocated all-zero ciphertext; the negation is proved.)", "quantifier": "all ciphertexts with small scale", "why_tests_cant": "all inputs", "anchors": ["mkckks/evaluator.go: Rescale, RescaleNew"]}
{"id": "C20", "title": "MulPtxtNew multiplies by the plaintext", "statement": "For every ciphertext and coefficient-form plaintext, before rescaling the phase of the result is phase(ct)*pt at every level and the scale is the product of scales; participants and operands unchanged.", "quantifier": "all ciphertexts, plaintexts, keys", "why_tests_cant": "all inputs", "anchors": ["mkckks/evaluator.go: MulPtxtNew"]}
{"id": "C21", "title": "MulRelinNew decrypts to the product up to bounded noise", "statement": "For all multi-party ciphertexts a, b (any overlap of party sets, any number of parties), all ternary secrets, all common reference strings, all key-generation errors bounded by B and every map iteration order: phase(MulAndRelin(a,b)) = phase(a)*phase(b) + e for one integer polynomial e whose infinity norm is bounded by an explicit polynomial in N, B, the number of parties, the number of digits and the digit size over P.", "quantifier": "all ciphertexts, keys, CRS, errors, N, party counts, iteration orders", "why_tests_cant": "quantifies over all randomness, party counts and schedules", "anchors": ["mkrlwe/keyswitch.go: MulAndRelin, ExternalProduct, Decompose", "mkrlwe/keyswitch_hoisted.go: MulAndRelinHoisted", "mkrlwe/keygen.go: GenRelinearizationKey"]}
{"id": "C22", "title": "Squaring is multiplication", "statement": "MulRelinNew(ct, ct) with the same object (shared hoisting pool) returns the same ciphertext as multiplying ct with a copy of itself.", "quantifier": "all ciphertexts, keys, pool contents", "why_tests_cant": "aliasing and stale pool contents", "anchors": ["mkckks/evaluator.go: MulRelinNew"]}
{"id": "C23", "title": "Hoisting does not change results", "statement": "For all ciphertexts, RotateHoistedNew with HoistedForm(ct) returns exactly what RotateNew returns, and MulRelinHoistedNew with hoisted forms (or nil) for either operand returns exactly what the non-hoisted product returns.", "quantifier": "all ciphertexts, keys, rotation indices, iteration orders", "why_tests_cant": "bit-for-bit equality on all inputs", "anchors": ["mkrlwe/keyswitch_hoisted.go: ExternalProductHoisted, MulAndRelinHoisted, RotateHoisted", "mkckks/evaluator.go: HoistedForm"]}
{"id": "C24", "title": "RotateNew rotates by any integer amount", "statement": "For every integer k (negative, larger than the slot count, zero) and every ciphertext, if keys for the needed indices are registered, the phase of RotateNew(ct,k) is the Galois automorphism X -> X^(5^(k mod N/2)) applied to phase(ct), plus key-switching noise bounded explicitly.", "quantifier": "all integers k, ciphertexts, keys, iteration orders", "why_tests_cant": "all integers; recursion over binary digits", "anchors": ["mkckks/evaluator.go: RotateNew, rotate", "mkrlwe/keyswitch.go: Rotate", "mkrlwe/keygen.go: GenRotationKey"]}
{"id": "C25", "title": "Default rotation keys suffice for every rotation", "statement": "If the key set contains the output of GenDefaultRotationKeys for every participant, RotateNew(ct,k) never panics, for every integer k; GenDefaultRotationKeys itself never panics.", "quantifier": "all k, all power-of-two ring degrees, all ciphertexts", "why_tests_cant": "all integers k", "anchors": ["mkrlwe/keygen.go: GenDefaultRotationKeys", "mkrlwe/params.go: NewParameters", "mkckks/evaluator.go: rotate"]}
{"id": "C26", "title": "RotateHoistedNew rejects indices without a dedicated key", "statement": "RotateHoistedNew panics for every k whose normalised index is non-zero and has no CRS entry, and for k = 0 mod N/2 returns a copy.", "quantifier": "all k", "why_tests_cant": "all integers", "anchors": ["mkckks/evaluator.go: rotateHoisted"]}
{"id": "C27", "title": "ConjugateNew applies complex conjugation", "statement": "For every maximum-level ciphertext, phase(ConjugateNew(ct)) is the automorphism X -> X^(2N-1) of phase(ct) plus bounded noise.", "quantifier": "all ciphertexts, keys", "why_tests_cant": "all inputs", "anchors": ["mkrlwe/keyswitch.go: Conjugate", "mkrlwe/keygen.go: GenConjugationKey"]}
{"id": "C28", "title": "Evaluator results do not depend on earlier operations", "statement": "The result of ExternalProduct, Decompose, MulAndRelin, Rotate, Conjugate, AddNew, SubNew, MulPtxtNew is the same whatever the scratch pools of the evaluator / key switcher / relinearization key set contain, i.e. after any history of earlier operations.", "quantifier": "all histories / all scratch contents", "why_tests_cant": "unbounded histories", "anchors": ["mkrlwe/keyswitch.go: KeySwitcher pools", "mkckks/evaluator.go: ctxtPool, polyQPool", "mkrlwe/keys.go: HoistPool"]}
{"id": "C29", "title": "Gadget decomposition recomposes", "statement": "At every level, the digits produced by Decompose satisfy digit_k = a modulo every prime of block k that is <= level, each digit is an integer polynomial with coefficients of absolute value below twice the block product, and digits of the blocks cover every prime <= level exactly once.", "quantifier": "all polynomials, levels, alpha, chain lengths", "why_tests_cant": "all inputs and all levels", "anchors": ["mkrlwe/basis_extension.go: DecomposeAndSplit", "mkrlwe/keyswitch.go: Decompose", "mkrlwe/params.go: Alpha, Beta"]}
{"id": "C30", "title": "External product computes a*s up to bounded noise", "statement": "For every a and every switching key generated for s (with any common reference part t*a_k), ExternalProduct(a, key) + t*ExternalProduct(a, CRS) = a*s + e with |e| bounded explicitly, at every level.", "quantifier": "all a, s, t, CRS, errors, levels", "why_tests_cant": "all inputs", "anchors": ["mkrlwe/keyswitch.go: ExternalProduct", "mkrlwe/keygen.go: GenSwitchingKey"]}
{"id": "C31", "title": "Basis extension is exact", "statement": "For all residues (any 64-bit representatives) in a chain of at most 32 source primes below 2^61, ModUpQtoP/ModUpPtoQ output words congruent, modulo each target prime, to one integer x' = x + d*Q with x the CRT value in [0,Q) and d in {-1,0,1} (d = 0 unless x/Q is within 2^-42 of 0 or 1); no 64-bit or 128-bit overflow occurs, every output is below 6p (below 3p when the source primes sum to at most 2^64); more than 32 source primes panic.", "quantifier": "all residue vectors, all prime chains below 2^61", "why_tests_cant": "all words; overflow corner cases", "anchors": ["mkrlwe/basis_extension.go: modUpExact, reconstructRNS, multSum, basisextenderparameters"]}
{"id": "C32", "title": "ModDown is integer division by P", "statement": "For all x given in basis QP, ModDownQPtoQ returns floor(x/P) modulo every q_i (up to the +-1 of the floating-point quotient); the documentation says rounded, which fails (witness).", "quantifier": "all residue vectors", "why_tests_cant": "all words", "anchors": ["mkrlwe/basis_extension.go: ModDownQPtoQ, genModDownParams"]}
{"id": "C33", "title": "ModDownQPtoP divides by Q", "statement": "For all levels, ModDownQPtoP returns floor(x/Q_levelQ) modulo every p_j. (The code indexes its inverse table with levelP instead of levelQ, so this holds when levelP = levelQ and fails otherwise.)", "quantifier": "all levels and residues", "why_tests_cant": "all level pairs", "anchors": ["mkrlwe/basis_extension.go: ModDownQPtoP"]}
{"id": "C34", "title": "Public material satisfies its defining equations", "statement": "For every secret, CRS and error: pk0 + s*pk1 = e; for relinearization keys b = -s*a+e0, d = -r*a+P*s*g+e1, v = -s*u-P*r*g+e2; for rotation keys rk = -sigma^-1(s)*a + P*s*g + e, for conjugation keys ck = -s*a + P*sigma(s)*g + e, modulo every q_i and p_j, where g is the RNS gadget.", "quantifier": "all secrets, CRS, errors, chain shapes", "why_tests_cant": "all randomness", "anchors": ["mkrlwe/keygen.go: GenPublicKey, GenRelinearizationKey, GenRotationKey, GenConjugationKey, GenSwitchingKey"]}
{"id": "C35", "title": "GenRotationKey handles every rotation index the evaluator accepts", "statement": "For negative indices GenRotationKey should succeed exactly when a CRS exists for the normalised index. (The code tests the un-normalised index, so valid negative indices panic and reserved ones pass the test; the proved law states the exact behaviour.) GenKeyPairSparse should return a key pair but always dereferences a nil key.", "quantifier": "all integers", "why_tests_cant": "all integers", "anchors": ["mkrlwe/keygen.go: GenRotationKey, GenKeyPairSparse"]}
{"id": "C36", "title": "Coefficient permutation of Rotate is the Galois automorphism", "statement": "For every odd g and power-of-two N, the index/sign loop of Rotate maps polynomial a(X) to a(X^g) mod X^N+1, writes every output position exactly once, and is a ring homomorphism; outputs are at most q_i.", "quantifier": "all polynomials, odd g, N = 2^k", "why_tests_cant": "all polynomials", "anchors": ["mkrlwe/keyswitch.go: Rotate", "mkrlwe/keyswitch_hoisted.go: RotateHoisted"]}
{"id": "C37", "title": "Automorphism by 5^k is left rotation of the slots", "statement": "For every real polynomial m and every k, evaluating m(X^(5^k)) at the slot points gives the slots of m rotated left by k; X^(2N-1) gives complex conjugates.", "quantifier": "all polynomials, k, N = 2^j", "why_tests_cant": "all inputs", "anchors": ["mkckks/evaluator.go: RotateNew, ConjugateNew", "mkrlwe/keyswitch.go: galEl"]}
{"id": "C38", "title": "SumRowVec and SumColVec", "statement": "For power-of-two shapes with numRow*numCol = slots: SumRowVec puts in every slot the sum over all rows of its column; SumColVec puts in every slot of row r the sum of row r.", "quantifier": "all slot vectors, all power-of-two shapes", "why_tests_cant": "all vectors, unbounded shapes", "anchors": ["lr/lr.go: SumRowVec, SumColVec"]}
{"id": "C39", "title": "One training iteration is a Nesterov step of the cubic-sigmoid logistic loss", "statement": "On exact slots, for every data matrix, labels, weights and constants: beta' = v - (gamma/n) * sum_r (sigma3(z_r . v) - y_r) z_r in every row, and v' = (1-eta) beta' + eta beta, where sigma3(x)=c3 x^3+c1 x+c0.", "quantifier": "all data, labels, weights, constants, numbers of iterations", "why_tests_cant": "all data sets, any number of iterations", "anchors": ["lr/lr.go: main training loop", "lr/lr_minibatch.go: main training loop"]}
{"id": "C40", "title": "Mini-batch packing covers every training record exactly once", "statement": "For all sizes, the packing assigns each record index below min(numTrain, packed capacity) to exactly one (batch, ciphertext, row), never indexes outside the slot vector, and zero padding rows contribute nothing to the gradient.", "quantifier": "all numTrain, batchSize, slots, features", "why_tests_cant": "all size combinations", "anchors": ["lr/lr_minibatch.go: z packing, label_vector"]}
{"id": "C41", "title": "Inference evaluates the model", "statement": "On exact slots, for every record and weights, slot 0 of the inference result is sigma3(sum_j x_j beta_j), for every number of features up to the slot count.", "quantifier": "all records, weights, feature counts", "why_tests_cant": "all inputs", "anchors": ["lr/lr.go: inference"]}
{"id": "C42", "title": "Training never exhausts the modulus chain", "statement": "With the shipped parameters each training iteration consumes exactly 4 levels, so after numIter = 4 iterations and one inference every Rescale inside succeeded (no ignored error) and every product was rescaled exactly once.", "quantifier": "all rotations/data (metadata is data independent); all chains with moduli within the stated ratio of the scale", "why_tests_cant": "depends on real-valued scale drift through the whole circuit", "anchors": ["lr/lr.go: PN15QP880, main", "mkckks/evaluator.go: Rescale"]}
{"id": "C43", "title": "Decrypt is history independent", "statement": "mkckks Decryptor.Decrypt should return the same message whatever was decrypted before. (The plaintext pool is truncated to the lowest level seen so far and never grows back, so the result is the phase modulo the smallest chain seen; equality holds for phases that fit that smaller modulus and fails otherwise.)", "quantifier": "all decryption histories", "why_tests_cant": "unbounded histories", "anchors": ["mkckks/decryptor.go: Decrypt", "mkrlwe/decryptor.go: Decrypt"]}
{"id": "C44", "title": "Bit-reversal helpers permute by bit reversal", "statement": "For every N = 2^k and slice, SliceBitReverseInPlace* moves element i to the index whose k-bit binary expansion is reversed; applying it twice is the identity.", "quantifier": "all slices, all N=2^k", "why_tests_cant": "all N", "anchors": ["mkckks/utils.go: SliceBitReverseInPlaceFloat64, SliceBitReverseInPlaceComplex128, SliceBitReverseInPlaceRingComplex"]}
{"id": "C45", "title": "Integer helper functions reduce correctly", "statement": "interfaceMod(x,q) is in [0,q) and congruent to x for every supported type (fails for positive and for negative multiples int64); scaleUpExact returns a representative of round(n*value) in [0,q] congruent mod q; genBigIntChain[i] is the product of the first i+1 moduli; GenSwitchkeysRescalingParams returns P^-1 in Montgomery form.", "quantifier": "all inputs", "why_tests_cant": "all integers", "anchors": ["mkckks/utils.go: interfaceMod, scaleUpExact, genBigIntChain, GenSwitchkeysRescalingParams"]}
{"id": "C46", "title": "readData keeps row/column association", "statement": "For every parsed CSV with at most numData data rows of at most numFeature+1 columns, record i holds row i+1 (header skipped), all but the last column are features in order and the last is the label; larger inputs panic.", "quantifier": "all tables", "why_tests_cant": "all tables", "anchors": ["lr/lr.go: readData"]}
{"id": "C47", "title": "Decomposer parameter tables are never indexed out of range for valid parameters", "statement": "If gamma divides PCount, gamma >= 2 and blocks have at most 32 primes, then for every levelQ, digit index below Beta(levelQ): DecomposeAndSplit's table accesses are in range and the parameters it picks are the ones for exactly the primes of that block; if gamma does not divide PCount and alpha >= 2 the access is out of range.", "quantifier": "all chain lengths, levels, gamma", "why_tests_cant": "all parameter shapes", "anchors": ["mkrlwe/basis_extension.go: NewDecomposer, DecomposeAndSplit", "mkrlwe/params.go: Alpha, Beta"]}
{"id": "C48", "title": "Floating-point quotient is off by at most one", "statement": "For all residues below their primes (at most 32 of them), the correction index v computed with rounded double division and addition differs from the exact floor by at most one and never exceeds the table length.", "quantifier": "all residue vectors, any rounding with relative error 2^-53", "why_tests_cant": "floating-point corner cases", "anchors": ["mkrlwe/basis_extension.go: reconstructRNS, DecomposeAndSplit"]}
{"id": "C49", "title": "Message encryption round trip for all histories", "statement": "For every message, every set of receiving ids containing the encrypting party, and every earlier use of the encryptor and the decryptor, EncryptMsgNewExpand (and EncryptMsgNew for the singleton set) yields a ciphertext of maximal level and default scale, and Decrypt with all the keys returns the decoding of the encoded polynomial plus an error of at most (2N+1)B per coefficient, provided the coefficients fit the chain of the lowest level the decryptor has seen. EncryptMsgNew refuses id 0.", "quantifier": "all messages, id sets, samples, keys, encryptor and decryptor histories, map orders", "why_tests_cant": "unbounded histories, all random samples", "anchors": ["mkckks/encryptor.go: EncryptMsg, EncryptMsgNew, EncryptMsgNewExpand, EncodeMsgNew", "mkckks/decryptor.go: Decrypt"]}
{"id": "C50", "title": "Key setup of the programs gives every party usable keys", "statement": "genTestParams, run on the CRS of NewParameters with any id set visited in any order and any samples within their bounds, succeeds; the CRS it leaves has an entry for every index the program rotates by; every id gets a secret key, public key, relinearization key and one rotation key per CRS index satisfying the key equations with bounded errors, and no other id gets any; the resulting key sets meet every hypothesis of the evaluator theorems for all rotations.", "quantifier": "all id sets, all visit orders, all CRS samples, secrets and errors within their bounds, all ring degrees 2^logN", "why_tests_cant": "all samples and orders, all rotation amounts reached through the power-of-two chain", "anchors": ["lr/lr.go: genTestParams", "lr/lr_minibatch.go: genTestParams", "mkrlwe/params.go: AddCRS", "mkrlwe/keygen.go: GenKeyPair, GenRelinearizationKey, GenRotationKey, GenDefaultRotationKeys"]}
{"id": "C51", "title": "main of lr.go runs to its end and prints the plain training and prediction", "statement": "From the parsed data on, main of lr.go never panics: for all data of the expected shape, all keys, samples and map orders, training and inference stay within the modulus chain of the shipped parameters (levels 16, 12, 8, 4 for the four printed iterates, 1 for the result), every decryption uses all moduli of its ciphertext, the printed numbers are decodings of polynomials whose slots hold the Nesterov iterates computed in the clear and the result holds the prediction computed in the clear, up to explicit error bounds; and the printed verdict equals the verdict of the clear prediction unless that is within the error of 1/2.", "quantifier": "all data, labels, secrets, errors and CRS samples within their bounds, all map iteration orders, any encoder of stated accuracy; both for the shipped literals and for every parameter set meeting the level and scale conditions", "why_tests_cant": "needs all keys, data sets and iteration orders, and compares against real arithmetic", "anchors": ["lr/lr.go: main", "lr/lr.go: genTestParams", "mkckks/evaluator.go", "mkckks/encryptor.go: EncryptMsgNew, EncryptMsgNewExpand", "mkckks/decryptor.go: Decrypt"]}
{"id": "C52", "title": "main of lr_minibatch.go runs to its end and prints the plain minibatch training and prediction", "statement": "From the parsed data on, main of lr_minibatch.go never panics: for all data of the expected shape, all keys, samples and map orders, packing the batches, encrypting every ciphertext of every batch, the two fresh encryptions of zero in every iteration, training and inference all succeed within the modulus chain; the printed numbers are decodings of polynomials whose slots hold the Nesterov iterates computed in the clear, where iteration a uses exactly the records of batch a mod numBatch (with the shipped literals: records 512a to 512a+511), the result holds the clear prediction, up to explicit error bounds, and the printed verdict equals the verdict of the clear prediction unless that is within the error of 1/2.", "quantifier": "all data, labels, secrets, errors and CRS samples within their bounds, all map iteration orders, any encoder of stated accuracy, any batch shape filling the slots; and the shipped literals", "why_tests_cant": "needs all keys, data sets, batch shapes and iteration orders, and compares against real arithmetic", "anchors": ["lr/lr_minibatch.go: main", "lr/lr_minibatch.go: genTestParams", "mkckks/evaluator.go", "mkckks/encryptor.go", "mkckks/decryptor.go: Decrypt"]}
{"id": "C53", "title": "Normalisation of the toy data is standardisation over the training records", "statement": "The normalisation loop of the toy programs replaces, in every selected column (not 1, 3, 5 and below 17) of every one of the numData records, the entry by (entry - mean)/std with mean and std of the first pop records, and changes nothing else; over these records every normalised column that is not constant has mean 0, sum of squares equal to the divisor under the root (batchSize or numTrain-1) and no entry above its root; an affine change of units of a column (positive factor) does not change the result; it panics exactly if a record or feature it reads is missing.", "quantifier": "all tables of any shape, all column selections, all population sizes and divisors", "why_tests_cant": "statement about all real tables; invariance under all changes of units; exact panic condition", "anchors": ["lr/lr_toy.go: main (129-152)", "lr/lr_minibatch_toy.go: main (133-156)"]}
{"id": "C54", "title": "main of lr_toy.go runs to its end with the plain prediction on the normalised data", "statement": "From the parsed data on, main of lr_toy.go never panics: for all data whose normalised columns vary over the batch, all keys, samples and map orders; the five printed slices are entries of the packed normalised table up to encryption error, the result holds the prediction computed in the clear from the normalised data up to an explicit error at level 9 (shipped literals), and the verdict equals the clear verdict unless the clear prediction is within the error of 1/2.", "quantifier": "all data, labels, secrets, errors and CRS samples within their bounds, all map iteration orders, any encoder of stated accuracy; the shipped literals and every parameter set meeting the level and scale conditions", "why_tests_cant": "needs all keys, data sets and iteration orders, and compares against real arithmetic", "anchors": ["lr/lr_toy.go: main", "lr/lr_toy.go: genTestParams", "mkckks/decryptor.go: Decrypt"]}
{"id": "C55", "title": "main of lr_minibatch_toy.go classifies every record as the plain model does", "statement": "From the parsed data on, main of lr_minibatch_toy.go never panics: training in minibatches on the normalised data (iteration a on records 128a to 128a+127) prints the clear Nesterov iterates up to explicit errors, and the inference loop over all numData records, which reuses encryptor, evaluator and decryptor, yields for every record i a result holding the clear prediction for record i up to an explicit error; the printed count is the number of results agreeing with the label, and equals the count of the clear model if no clear prediction is within its error of 1/2.", "quantifier": "all data, labels, secrets, errors and CRS samples within their bounds, all map iteration orders, any number of records, any encoder of stated accuracy; and the shipped literals", "why_tests_cant": "needs all keys, data sets and iteration orders, loops of any length over stateful objects", "anchors": ["lr/lr_minibatch_toy.go: main", "lr/lr_minibatch_toy.go: genTestParams", "mkckks/encryptor.go", "mkckks/decryptor.go: Decrypt"]}
{"id": "C56", "title": "The error bounds of lr.go as numbers", "statement": "For any ring degree, moduli, scale, data bound and number of iterations, the explicit error bounds of C51 are at most rational numbers obtained by running the same program on bounds (numHE), which the kernel can evaluate. With the moduli, scale, hyperparameters, four iterations and three parties of lr.go at ring degree 32 (two training records of seven features, all at most 1 in absolute value), main never panics, every printed weight is within 1/400 (1/250 for the momentum vector) of the plain Nesterov iterate and the prediction within 14/1000 of the plain prediction, plus the decoding error of the encoder; so the record is judged as the plain model judges it unless the plain prediction is that close to 1/2.", "quantifier": "all data, labels, keys, errors and CRS samples within their bounds, all map iteration orders, any encoder whose error, with the float64 rounding of the constants, is at most 2^-32; the general theorem for every parameter set", "why_tests_cant": "a worst-case bound over all keys, noise samples and data sets cannot be observed by sampling", "anchors": ["lr/lr.go: main", "mkckks/evaluator.go: MulRelinNew, RotateNew, RescaleNew", "mkrlwe/keyswitch.go: ExternalProduct"]}
{"id": "C57", "title": "Client programs on shared memory behave as on values", "statement": "Ciphertexts are pointers to maps of pointers to polynomials; AddNew, SubNew, MulRelinNew, MulPtxtNew, RotateNew, ConjugateNew, RescaleNew, Rescale, MultByConst, DropLevel(New), Encrypt*, Decrypt, PartialDecrypt, HoistedForm, RotateHoistedNew, MulRelinHoistedNew, CopyNew, Copy, PadCiphertext and SetScalingFactor read and write them through pointers, reuse the evaluator's scratch ciphertext and compare pointers. For every client program that calls these functions in any order on any of its ciphertexts, the same one twice or an input as output included, the run on memory panics exactly when the run on values does (with the same panic), the ciphertexts hold exactly the values computed by the value model, no two ciphertexts of the client ever share a map or polynomial, and no call changes a ciphertext other than the one it is documented to write. The only exception is a public key with the reserved id \"0\", for which Encrypt puts both masks into one polynomial.", "quantifier": "every client program (an arbitrary function of everything it can see), every length, every initial memory, all map iteration orders, all keys, messages and samples", "why_tests_cant": "aliasing bugs show only for particular sequences of calls; the theorem covers all sequences and all sharing patterns that can arise", "anchors": ["mkckks/evaluator.go: evaluateInPlace, AddNew, SubNew, MultByConst, Rescale, RescaleNew, MulPtxtNew, MulRelinNew, RotateNew, ConjugateNew, HoistedForm, DropLevel", "mkrlwe/keyswitch.go: MulAndRelin, Rotate, Conjugate", "mkrlwe/elements.go: CopyNew, Copy, PadCiphertext, NewCiphertext", "mkrlwe/encryptor.go: Encrypt", "mkrlwe/decryptor.go: PartialDecrypt, Decrypt", "mkckks/encryptor.go", "mkckks/decryptor.go"]}
{"id": "C58", "title": "The four main programs on shared memory print what they print on values", "statement": "In lr.go, lr_toy.go, lr_minibatch.go and lr_minibatch_toy.go every ciphertext is a pointer, SumRowVec may return its argument itself, MulRelinNew decides by comparing pointers whether it squares, and all operations share the evaluator's scratch ciphertext. Started on any memory, each main function prints exactly what the program on values prints (C51, C52, C54, C55), or panics with the same panic. In particular no step reads a ciphertext that another step has overwritten, and two operands of a product are the same object exactly where the value program squares.", "quantifier": "every initial memory, all data, labels, hyperparameters, shapes and numbers of iterations, all samples, all map iteration orders, all moduli", "why_tests_cant": "a run exercises one iteration order and one set of sizes (an aliased result appears only for numRow or numCol 1); the theorem covers all", "anchors": ["lr/lr.go: main, SumRowVec, SumColVec", "lr/lr_toy.go: main", "lr/lr_minibatch.go: main", "lr/lr_minibatch_toy.go: main", "mkckks/evaluator.go: MulRelinNew, MulPtxtNew, AddNew, RotateNew"]}
{"id": "C59", "title": "ModDownQPtoQNTT divides by P inside the transform domain and destroys its input; extenders are interchangeable with their shallow copies", "statement": "On the transforms of an integer polynomial x modulo the q_i and p_j, ModDownQPtoQNTT never panics and its row i is reduced and is the transform of floor(x/P)+d with d in {-1,0,1} for every coefficient, 0 unless x mod P is within P/2^42 of 0 or P (the documentation says rounded); lazily reduced intermediate words never wrap. p1P is left in coefficient form. For every table, operand, level and every content of the work arrays and pools, ModDownQPtoQ and ModDownQPtoP return (or panic) the same: a ShallowCopy, which has pools of its own, behaves like the original.", "quantifier": "all moduli, levels, ring degrees, integer polynomials, work-array contents; all lazy transforms meeting the contract", "why_tests_cant": "the functions have no caller, and the wrap-around and quotient errors occur only for particular residues near the ends of the range", "anchors": ["mkrlwe/basis_extension.go: ModDownQPtoQNTT, ShallowCopy, ModUpQtoP, ModUpPtoQ, ModDownQPtoQ, ModDownQPtoP"]}
{"id": "C60", "title": "Uncalled helpers: big.Float scaling, scaleDown, StandardDeviation, key distribution", "statement": "scaleUpVecExactBigFloat stores words congruent to the scaled value rounded to the nearest integer up to rounding in prec bits, but for every negative value the word is in [q,2q), not reduced, and entries past the vector are not cleared; it panics on the empty vector. scaleDown divides by n, not by n^2 as documented, and inverts scaleUpExact up to 1/n and float errors. StandardDeviation subtracts the mean (2n^2 s^2 = scale^2 times the sum of squared differences of all pairs) and is NaN on the empty vector; in float64 it is within (n+3) B |scale| / 2^50 of the exact value for n entries up to B, and on equal entries it need not be zero. GenSecretKey samples -1,0,1 with probabilities 1/4,1/2,1/4, not 1/3 each as documented.", "quantifier": "all values, scales, moduli below 2^63, precisions, vectors", "why_tests_cant": "the functions are dead code without tests; the unreduced words and the wrong comment are invisible modulo q", "anchors": ["mkckks/utils.go: StandardDeviation, scaleUpVecExactBigFloat, scaleDown, scaleUpExact", "mkrlwe/keygen.go: GenSecretKey, GenSecretKeyWithDistrib"]}
{"id": "C61", "title": "The error bounds of lr_minibatch.go and the toy programs as numbers", "statement": "For any ring degree, moduli, scale, batch shape, data bound and number of iterations, the error bounds of C52, C54 and C55 are at most rational numbers obtained by running the same program on bounds. With the moduli, scale and four parties of the source at ring degree 32: lr_minibatch.go (two batches of four records spread over two ciphertexts each, four iterations, features at most 1) never panics, prints weights within 1/200 (1/100 for the momentum vector) of the plain minibatch iterates and predicts within 3/100; lr_minibatch_toy.go (two batches of four records, two iterations, normalised features at most 2) prints weights within 1/3000 and predicts every record within 1/200, plus the decoding error; verdicts and the count of correct records are those of the plain model unless a plain prediction comes this close to 1/2.", "quantifier": "all data, labels, keys, errors and CRS samples within their bounds, all map iteration orders, any encoder whose error, with the float64 rounding of the constants, is at most 2^-32; the general theorems for every parameter set", "why_tests_cant": "a worst-case bound over all keys, noise samples and data sets cannot be observed by sampling", "anchors": ["lr/lr_minibatch.go: main", "lr/lr_toy.go: main", "lr/lr_minibatch_toy.go: main"]}
{"id": "C62", "title": "The constants of the training programs as float64 computes them", "statement": "const1 to const9 of main, computed in float64 from hyperparameters that were themselves rounded to float64, differ from their formulas by a few units in the last place: at most 5/2^53 relative for -gamma/batchSize*c3 and c1/c3, 1/2^53 for eta, c3 and c0; for the constants with a subtraction (1-eta, c0-y), where cancellation makes a relative bound false, at most 9/2^53 of the product of the summed magnitudes (1+|eta|)|gamma|/batchSize (|c0|+|y|). With hyperparameters whose constants are at most M the error is at most M^2/2^47, and C51, C52, C54, C55, C56, C58 and C61 hold for the programs computing their constants this way, the encoder error being enlarged by this amount.", "quantifier": "every rounding function with relative error 2^-53, all hyperparameters, labels, slot counts and iterations", "why_tests_cant": "the bound holds for every rounding behaviour and all hyperparameters; a test observes one rounding of one set of constants", "anchors": ["lr/lr.go: main 171-241", "lr/lr_toy.go: main", "lr/lr_minibatch.go: main", "lr/lr_minibatch_toy.go: main"]}
{"id": "C63", "title": "The normalisation of the toy programs in float64 stays near the standard scores", "statement": "With every addition, subtraction, division, square and square root rounded to float64 as the loop computes them, the normalisation of lr_toy.go and lr_minibatch_toy.go succeeds, divides by no zero, and replaces every selected entry by a real number within (pop+2)*kappa^3/2^45 of its exact standard score, changing nothing else, provided the selected columns vary, their entries are within kappa standard deviations of zero, and (pop+2)*kappa^2 <= 2^46; C54 and C55 hold for the programs that normalise this way (shipped literals: error 514*kappa^3/2^45, kappa <= 4000).", "quantifier": "every rounding function and square root with relative error 2^-53, all tables, column selections, population sizes and divisors (at least half the population)", "why_tests_cant": "worst case over all tables and rounding behaviours; a test sees one table and one rounding", "anchors": ["lr/lr_toy.go: main (129-152)", "lr/lr_minibatch_toy.go: main (133-156)"]}
{"id": "C64", "title": "Counts computed through float64 are the exact integers", "statement": "int(math.Ceil(float64(a)/float64(b))), as Beta, NewParameters, NewDecomposer and the minibatch programs compute it, is the ceiling of the exact quotient for all a < 2^53 and 0 < b <= 2^53. The batch shape of the minibatch programs (logslotsPerData, slotsPerData, numDataPerCt, realnumDataPerCt, numCtPerBatch through math.Log2, math.Ceil and math.Pow) is 2^ceil(log2 numFeature), numSlots/slotsPerData, their minimum with batchSize, and the ceiling of batchSize/numDataPerCt, whenever numSlots = 2^k with k <= 39, 1 <= numFeature <= numSlots and batchSize < 2^53: in particular no feature count just above a power of two is rounded down and none just below is rounded up.", "quantifier": "every rounding with relative error 2^-53; every logarithm exact on powers of two and accurate to 2^-40; all sizes in the stated ranges", "why_tests_cant": "rounding near powers of two and near integral quotients must be excluded for all operands", "anchors": ["mkrlwe/params.go: Beta", "mkrlwe/params.go: NewParameters", "mkrlwe/basis_extension.go: NewDecomposer", "lr/lr_minibatch.go: main (130-137)", "lr/lr_minibatch_toy.go: main (158-165)"]}
{"id": "C65", "title": "What the norm tests of mkrlwe measure, and when they must pass", "statement": "log2OfInnerSum returns the bit length of the sum of the absolute values of the coefficients, reduced modulo the product of the level's moduli, of the small integer polynomial whose residues it is given. The assertions of PKGen and SWKGen hold for all samples within the samplers' cut-off. In RLKGen the assertion on b always holds, those on d and v hold for a slack of 6 bits but with the 5 bits of the test fail for some admissible samples (d and v contain two independent errors). Encrypt/Pk measures u*e + e0 + e1*s: it always passes when 19(2N+1) < 2^slack, and for N >= 512 some admissible samples make it fail with 12 and with 9 bits. ExternalProduct passes for every sample when beta*N*D*19 <= 1021*P, D twice the largest digit modulus.", "quantifier": "all parameter sets with moduli above the stated sizes, all keys, all randomness within the samplers' bounds, all pool contents", "why_tests_cant": "the tests run on fresh samples; whether an assertion can ever fail needs all samples", "anchors": ["mkrlwe/mkrlwe_test.go: log2OfInnerSum", "mkrlwe/mkrlwe_test.go: testGenKeyPair", "mkrlwe/mkrlwe_test.go: testSwitchKeyGen", "mkrlwe/mkrlwe_test.go: testRelinKeyGen", "mkrlwe/mkrlwe_test.go: testEncryptor", "mkrlwe/mkrlwe_test.go: testExternalProduct"]}
{"id": "C66", "title": "The outputs of the programs do not depend on map iteration order", "statement": "The keys of a party are the same whatever the order in which genTestParams visits the parties. With the same samples, every run of main of lr.go, lr_toy.go, lr_minibatch.go and lr_minibatch_toy.go on data within the stated bounds ends without a panic and prints exactly the same numbers, results and verdicts, whatever the orders in which key generation, expansion of encryptions, every homomorphic operation and every decryption visit the maps of parties.", "quantifier": "all data, labels, samples and keys within the stated bounds; for every call that visits a map an arbitrary order, in both runs", "why_tests_cant": "Go chooses iteration orders at random; a test sees a few of them and compares approximate results, so an order-dependent rounding or a pool left in an order-dependent state would pass unnoticed", "anchors": ["lr/lr.go: main", "lr/lr_toy.go: main", "lr/lr_minibatch.go: main", "lr/lr_minibatch_toy.go: main", "mkckks/evaluator.go: MulRelinNew", "mkckks/encryptor.go: EncryptMsgNewExpand", "mkrlwe/decryptor.go: PartialDecrypt"]}
{"id": "C67", "title": "Double precision's limited exponent range does not matter to the programs", "statement": "Take any rounding that has IEEE-754's guarantees on the normal range of float64 only, with arbitrary results for subnormal numbers and overflow. For moduli and scale of at most 64 bits, hyperparameters that are zero or between 2^-100 and 2^100 (with 1-eta, c0, c0-1 zero or at least 2^-40) and, for the toy programs, tables of multiples of 2^-100 of magnitude at most 2^100, nothing that the programs round leaves the normal range: main of lr.go, lr_toy.go, lr_minibatch.go and lr_minibatch_toy.go print exactly what they print with unbounded exponents, so the accuracy theorems hold for them. The shipped hyperparameters and moduli meet the conditions.", "quantifier": "all such roundings, data, labels, samples, keys within the stated bounds, all iteration orders", "why_tests_cant": "a test sees the scales and constants of one run; it cannot show that no admissible data, hyperparameters or drift of the scales overflows or loses precision to underflow", "anchors": ["mkckks/evaluator.go: Rescale", "mkckks/evaluator.go: MulRelinNew", "mkckks/evaluator.go: AddNew", "lr/lr.go: main", "lr/lr_toy.go: main", "lr/lr_minibatch.go: main", "lr/lr_minibatch_toy.go: main"]}
{"id": "C68", "title": "The remaining norm tests of mkrlwe: decryption, decomposition, Hadamard product", "statement": "The single-key subtests of testDecryptor measure u*e + e0 + e1*s, for both NTT settings and every visiting order, and so give the same verdict as Encrypt/Pk with the same samples: they pass whenever 19(2N+1) < 2^slack, and for N >= 512 some admissible samples make them fail with the 9 bits of the test. The multi-key subtest measures the two fresh noises and their sum; with 9 and 10 bits all three assertions can fail for N >= 512. testDecompose passes for every sample at every level, with at least Beta(level) digits, when beta*N*D*19 <= 1021*P. testHadamardProduct measures the quotient by P of sum_k d_k*(d_k*e_k), d_k the digits of c0: it passes for every sample if beta*N^2*D^2*19 + 2P <= B*P and B < 2^(slack+logN), and if 12P(1024N+2) <= 19(B0-1)^2(N^2-4), B0 the product of the first block, there are a reference string and samples which make the assertion with 10 bits fail.", "quantifier": "all parameter sets with moduli above the stated sizes, all keys, all randomness within the samplers' bounds, all map iteration orders, all pool contents", "why_tests_cant": "the tests run on fresh samples at one parameter set; whether an assertion can ever fail needs all samples", "anchors": ["mkrlwe/mkrlwe_test.go: testDecryptor", "mkrlwe/mkrlwe_test.go: testDecompose", "mkrlwe/mkrlwe_test.go: testHadamardProduct"]}
{"id": "C69", "title": "Key generation on memory: keys share nothing with each other, the pools or the reference string, and stay as they are", "statement": "With keys, reference string and the generator's pools as memory cells written in place as the Go code does, every call of GenSecretKey, GenPublicKey, GenKeyPair, GenRelinearizationKey, GenRotationKey, GenConjugationKey, GenDefaultRotationKeys, AddCRS and CopyNew returns a key in newly allocated cells that reads as the key of the value model (or panics as that does), writes no cell that existed before except the pools, and does not depend on what earlier calls left in the pools. So in every sequence of calls after NewParameters and NewKeyGenerator all keys ever returned are pairwise disjoint and disjoint from the pools and from the reference string, keep their value whatever is generated later, and are the keys the key equations (C34) speak of; AddCRS for an index in use gives a new object and leaves the old one alone.", "quantifier": "all parameter sets, all initial memories, all sequences of generator calls, all samples, all pool contents", "why_tests_cant": "a test sees one order of calls and compares values right after generation; aliasing shows only when a later call overwrites an earlier key", "anchors": ["mkrlwe/keygen.go: GenSecretKey", "mkrlwe/keygen.go: GenPublicKey", "mkrlwe/keygen.go: GenRelinearizationKey", "mkrlwe/keygen.go: GenRotationKey", "mkrlwe/keygen.go: GenConjugationKey", "mkrlwe/keygen.go: GenSwitchingKey", "mkrlwe/params.go: AddCRS", "mkrlwe/keys.go: CopyNew"]}
{"id": "C70", "title": "Key switching on memory: scratch, keys, operands, hoisted forms and outputs do not disturb each other", "statement": "With the key switcher's nine scratch objects, the keys, the reference string, the hoisting pools, hoisted forms and the components of ciphertexts as memory cells read and written in place in the order of the Go code, MulAndRelin, MulAndRelinHoisted, Rotate, RotateHoisted and Conjugate leave in scratch and output what the value model computes (or panic as it does) and write no other cell, provided only that the output's components are distinct cells, not scratch, and that operands, keys and hoisted forms are neither scratch nor output; operands and hoisted forms may coincide. In every session after NewParameters, NewKeyGenerator and NewKeySwitcher, with key generation, AddRelinearizationKey/AddRotationKey/AddConjugationKey, new ciphertexts, HoistedForm, MulRelinNew's use of the two hoisting pools and the five operations in any order, this proviso always holds: the session panics exactly when the session on values does, all results agree, and every key, ciphertext and hoisted form obtained earlier keeps its contents.", "quantifier": "all parameter sets, all initial memories, all sequences of calls, all operands (equal ones included), all samples, all map iteration orders, all earlier contents of the scratch", "why_tests_cant": "reuse of a scratch polynomial that is still needed shows only for particular operand combinations and orders of calls; a test checks a few results and never that all other objects are unchanged", "anchors": ["mkrlwe/keyswitch.go: MulAndRelin", "mkrlwe/keyswitch.go: Rotate", "mkrlwe/keyswitch.go: Conjugate", "mkrlwe/keyswitch.go: ExternalProduct", "mkrlwe/keyswitch.go: Decompose", "mkrlwe/keyswitch_hoisted.go: MulAndRelinHoisted", "mkrlwe/keyswitch_hoisted.go: RotateHoisted", "mkrlwe/keys.go: AddRelinearizationKey", "mkckks/evaluator.go: MulRelinNew", "mkckks/evaluator.go: HoistedForm"]}
{"id": "C71", "title": "Encryption and decryption on memory: scratch pools, keys and ciphertexts do not disturb each other, and every session decrypts what it encrypted", "statement": "With the encryptor's scratch polynomial and plaintext pool, the decryptor's plaintext pool, the keys and the components of ciphertexts as memory cells read and written in place in the order of the Go code, Encrypt, EncryptMsgNewExpand, CopyNew, PartialDecrypt (on a copy) and Decrypt leave what the value model computes (or panic as it does), and write no cell that existed before except the output, the encryptor's two pools, respectively the decryptor's pool. In every session after NewParameters, NewKeyGenerator, NewKeySwitcher, NewEncryptor and NewDecryptor, mixing these with key generation and key switching in any order, decryption of any ciphertext whose parties all have their secret key in the set succeeds and hands its phase to the decoder, at the levels up to that of the decryptor's pool. In particular, if a session with ternary secrets and errors up to B encrypts with one of its public keys, then does anything else, and then decrypts this ciphertext, the plaintext is the encoded one plus a noise of at most (2N+1)B, provided the secret keys have distinct ids, and the set holds one for every id of the ciphertext.", "quantifier": "all parameter sets, all initial memories, all sequences of calls before, between and after, all plaintexts and levels, all samples within the bounds, all id sets without the reserved id 0, all map iteration orders", "why_tests_cant": "the tests decrypt right after encrypting; a pool shared with a key or a ciphertext, or a copy that is not deep, shows only when other calls come in between", "anchors": ["mkrlwe/encryptor.go: Encrypt", "mkckks/encryptor.go: EncryptMsgNewExpand", "mkckks/encryptor.go: EncryptMsg", "mkrlwe/elements.go: CopyNew", "mkrlwe/decryptor.go: PartialDecrypt", "mkrlwe/decryptor.go: Decrypt", "mkckks/decryptor.go: Decrypt", "mkrlwe/keys.go: AddSecretKey"]}
{"id": "C72", "title": "What the tests of mkckks establish: verdicts of the tests, admissible samples that fail, and a rotation test that accepts any rotation", "statement": "The tests of mkckks run without panic on keys made by genTestParams. testEncAndDec passes exactly if in every slot the real part of the decoding of (encoded message plus u*e + e0 + e1*s) is within 2^(logSlots+8)/scale of the message; it passes if the noise is below that in all slots, and for every ring degree of at least 512 there are samples within the samplers' bounds for which it fails - in particular with PN15QP880, whatever the reference string and the secrets. testEvaluatorAdd, Sub, Mul, Rescale, Rot, Conj, MulHoisted, RotHoisted and MulPtxt pass if the noise of encryption, key switching, rounding and of the float64 modulus is below their tolerance; testEvaluatorRotHoisted panics for two slots. testEvaluatorRot encrypts the same constant in all slots, so it passes as well if the rotation is left out or made by any other amount; testEvaluatorConj notices a missing conjugation.", "quantifier": "all parameter sets, keys, users, draws in the unit interval, map iteration orders, states of encryptor, decryptor and evaluator, rotation amounts; samples within the stated noise bounds", "why_tests_cant": "what a test accepts or rejects over all samples and over all wrong programs is a statement about the test, not one that running it can establish", "anchors": ["mkckks/mkckks_test.go: genTestParams", "mkckks/mkckks_test.go: newTestVectors", "mkckks/mkckks_test.go: testEncAndDec", "mkckks/mkckks_test.go: testEvaluatorAdd", "mkckks/mkckks_test.go: testEvaluatorSub", "mkckks/mkckks_test.go: testEvaluatorMul", "mkckks/mkckks_test.go: testEvaluatorRot", "mkckks/mkckks_test.go: testEvaluatorConj", "mkckks/mkckks_test.go: testEvaluatorRescale", "mkckks/mkckks_test.go: testEvaluatorMulHoisted", "mkckks/mkckks_test.go: testEvaluatorRotHoisted", "mkckks/mkckks_test.go: testEvaluatorMulPtxt"]}
{"id": "C73", "title": "The whole of TestCKKS and of the benchmarks: no panic for any number of users, what is computed, and exactly which keys rotation and conjugation need", "statement": "The users of genTestParams are as many as the flag -n says, pairwise distinct, and none is called 0. For every flag -n, every order in which genTestParams visits the users, all draws and all map iteration orders the body of TestCKKS (encryption and decryption of all users, then products with 2, 4, 8, ... users on the same encryptor, decryptor, evaluator and keys) runs to its end without panic, its verdict is that of testEncAndDec and of all the products (none is skipped), it is positive if the noise is below the tolerances, and negative for some admissible samples at PN15QP880; BenchmarkMKCKKS runs to its end for every number of iterations. Both at the two shipped parameter sets with no further hypothesis on the noise. With n users every product of benchMulAndRelin and benchMulAndRelinHoisted encrypts the constant 2(n^2-1)i (so zero for one user, and the hoisted variant panics there), every square of benchSquareHoisted -2(n+1)^2 i, up to an explicit error, and independently of how many iterations have run before. RotateNew returns if and only if every participant has the rotation keys of the indices used (the index itself if the reference string has it, else its set bits) and the reference string has them; RotateHoistedNew if and only if the index is a multiple of the number of slots or every participant has exactly this key; ConjugateNew if and only if the ciphertext is at the highest level and every participant has a conjugation key. Hence testEvaluatorRot, testEvaluatorRotHoisted, testEvaluatorConj and benchRotate panic on the keys that genTestParams makes.", "quantifier": "all parameter sets, numbers of users and of iterations, samples within the samplers' bounds, draws, map iteration orders; for the keys all well-formed ciphertexts, rotation amounts, key sets and reference strings", "why_tests_cant": "a run of the test or the benchmark is one number of users, one sample and one iteration order; that the state left by one product does not spoil a later one, and that a missing key is always noticed, needs all of them", "anchors": ["mkckks/mkckks_test.go: TestCKKS", "mkckks/mkckks_test.go: genTestParams", "mkckks/mkckks_benchmark_test.go: BenchmarkMKCKKS", "mkckks/mkckks_benchmark_test.go: benchMulAndRelin", "mkckks/mkckks_benchmark_test.go: benchMulAndRelinHoisted", "mkckks/mkckks_benchmark_test.go: benchSquareHoisted", "mkckks/mkckks_benchmark_test.go: benchRotate", "mkckks/evaluator.go: RotateNew", "mkckks/evaluator.go: RotateHoistedNew", "mkckks/evaluator.go: ConjugateNew"]}
{"id": "C74", "title": "TestMKRLWE as a whole: no panic, which inequalities on the samples decide it, which parameter sets it tests", "statement": "For every list of parameter sets, all samples within the samplers' bounds, all contents of the pools and all visiting orders, TestMKRLWE does not panic, and its verdict is the conjunction of the verdicts of the parameter sets with at least two special primes; the sets with fewer are skipped, so the verdict is that of the list without them. For one set the verdict is positive if and only if the sums of the absolute coefficients of explicit noises are below powers of two: the differences of the errors of the relinearization key and of the gadget encryptions (2^(5+LogN)), the noises of two encryptions (2^(12+LogN), 2^(9+LogN)), of three decryptions with one key pair (2^(9+LogN)), of the two parties of the last test and of their sum (2^(9+LogN), 2^(10+LogN)), and of the Hadamard product (2^(10+2LogN)); the tests of key pairs, switching keys, decomposition, external products and of the part b of the relinearization key never fail. Whatever the other samples are, some admissible errors make it fail; bounds on the noises under which it passes are given.", "quantifier": "all lists of parameter sets, reference strings, samples within the bounds, pool contents and map orders", "why_tests_cant": "It is about the test itself: a run draws one value of every sample and visits each map in one order, and cannot show which samples would make it fail or that skipped sets are never looked at.", "anchors": ["mkrlwe/mkrlwe_test.go:53-89 TestMKRLWE", "mkrlwe/mkrlwe_test.go:362-454 testDecryptor", "mkrlwe/mkrlwe_test.go:287-360 testRelinKeyGen", "mkrlwe/mkrlwe_test.go:612-679 testHadamardProduct"]}
{"id": "C75", "title": "The first training iteration is lost in all four programs", "statement": "In lr.go, lr_toy.go, lr_minibatch.go and lr_minibatch_toy.go eta[0] is 1 and beta and v start from zero, so after the first iteration v is zero again. In lr.go and lr_toy.go, which use the same records in every iteration, the second iteration computes beta of the first one again, and afterwards beta and v are one gradient step: lr.go decrypts (up to the noise) b, 0 and then b, b, and lr_toy.go, which runs two iterations, predicts with beta_c = 3/512 sum (y_d - 1/2) z_{d,c}. In lr_minibatch.go beta after two iterations does not depend on the first batch. In lr_minibatch_toy.go, where also eta[1] = 0, the model does not depend on the records of the first batch at all: the 2000 results are (up to the noise) the predictions of two steps of plain gradient descent on the records 128-255 and 256-383, so that of the 512 records trained on 256 count only for the normalisation.", "quantifier": "all data and labels, parties' keys, encryption randomness, map orders, encoders and float64 roundings as in C51, C52, C54, C55; the general laws for all learning rates, weights with eta[0] = 1, batches and numbers of iterations", "why_tests_cant": "The programs have no tests; a run prints two slots of beta and v and cannot show that a batch never has an influence.", "anchors": ["lr/lr.go:21-39 eta", "lr/lr.go:240-320 main", "lr/lr_toy.go:21-39 eta", "lr/lr_minibatch.go:21-36 eta", "lr/lr_minibatch_toy.go:21-40 eta", "lr/lr_minibatch_toy.go:310-390 main"]}
{"id": "C76", "title": "The momentum weights: Nesterov's in the toy programs, the sequence lambda itself in lr.go and lr_minibatch.go", "statement": "With Nesterov's sequence lambda_0 = 0, lambda_{t+1} = (1 + sqrt(1 + 4 lambda_t^2))/2 the weights eta[t] of lr_toy.go and lr_minibatch_toy.go are (1 - lambda_t)/lambda_{t+1} to five decimals (the first two exactly), while those of lr.go and lr_minibatch.go are lambda_{t+1} to five decimals and differ from the weights by more than 1.6 from iteration 1 on. So the toy programs extrapolate, v = beta' + mu (beta' - beta) with 0 <= mu < 1, and the other two move v back behind the old iterate, v = beta - nu (beta' - beta) with nu > 0.6.", "quantifier": "all iterations, gradients and states; every step of the four programs", "why_tests_cant": "No test looks at the trained model; a training with the wrong weights still runs and prints numbers.", "anchors": ["lr/lr.go:32 eta", "lr/lr_minibatch.go:32 eta", "lr/lr_toy.go:32 eta", "lr/lr_minibatch_toy.go:34 eta"]}
{"id": "C77", "title": "The toy programs on the data they are shipped with", "statement": "readData reads lr/toyData.csv (2000 records, 20 features and a label, transcribed into the model) without error: the integer columns and the labels exactly, clock_speed and m_dep correctly rounded. In each of the fourteen columns that are normalised the standard deviation of the first 512 records is at least 1/4 and no entry of the file is further than 3.32 standard deviations from the mean, so lr_toy.go and lr_minibatch_toy.go, run on this file with their own parameters, never panic; the table they train on is within 10^-8 of the exact standard scores; correct compares with price_range = 0; and (up to the computed noise) lr_toy.go decrypts the prediction for record 1935 after one gradient step on records 0-511, lr_minibatch_toy.go the predictions for all 2000 records after two steps on the records 128-255 and 256-383.", "quantifier": "all parties' keys, encryption randomness, map orders, encoders, float64 roundings with relative error 2^-53 and square roots accurate to 2^-53, and all parsers that round decimals correctly", "why_tests_cant": "The programs have no tests, and one run shows one choice of keys, noise and map order.", "anchors": ["lr/toyData.csv", "lr/lr_toy.go:75-449 main", "lr/lr_toy.go:529-561 readData", "lr/lr_minibatch_toy.go:77-493 main", "lr/lr_minibatch_toy.go:569-601 readData"]}
{"id": "C78", "title": "What the toy programs compute from the data they are shipped with", "statement": "On lr/toyData.csv the plain model behind lr_toy.go (one gradient step on the standard scores of the records 0-511) predicts 0.35082 for record 1935, which is not of class 0, and the one behind lr_minibatch_toy.go (steps on the records 128-255 and 256-383) classifies 1756 of the 2000 records (500 of them of class 0) correctly, with no prediction within 4*10^-4 of the threshold 1/2. So lr_toy.go reports its prediction as correct unless the noise in the decrypted slot exceeds 0.149, and the count printed by lr_minibatch_toy.go differs from 1756 at most by the number of records whose noise is 4*10^-4 or more.", "quantifier": "all parties' keys, encryption randomness, map orders, encoders, float64 roundings, square roots and correctly rounding parsers, as in C77", "why_tests_cant": "The programs have no tests; a run prints one count for one choice of keys and noise and does not say what the count would be without noise.", "anchors": ["lr/toyData.csv", "lr/lr_toy.go:75-449 main", "lr/lr_minibatch_toy.go:77-493 main"]}
{"id": "C79", "title": "What lr.go and lr_minibatch.go compute from the data they are shipped with", "statement": "lr.go and lr_minibatch.go on lr/data.csv do not panic, and the numbers they print in iterations 1-4 are decoded from polynomials holding beta and v of the plain training on the records 0-2047 (lr.go) and on four batches of 512 (lr_minibatch.go), which are within 10^-7 of the tables lrB, lrV, mbB, mbV. Their single predictions are 0.55564 (record 1935) and 0.62884 (record 1950), both records are of class 0, so they report them as correct unless the noise in the decrypted slot exceeds 0.0556 and 0.1288. Over the whole file the trained plain models would be right for only 5112 and 5115 of the 10000 records, while 9661 records are of class 0.", "quantifier": "all parties' keys, encryption randomness, map orders, encoders within the stated bounds, float64 roundings and correctly rounding parsers", "why_tests_cant": "The programs have no tests; a run prints one decrypted prediction for one choice of keys and noise, and tests one record only, so that the accuracy of the model never shows.", "anchors": ["lr/data.csv", "lr/lr.go:75-422 main", "lr/lr.go:502-534 readData", "lr/lr_minibatch.go:75-465 main", "lr/lr_minibatch.go:541-573 readData"]}
