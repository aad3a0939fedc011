# Formal model of share_to_gain (multi-key CKKS + encrypted logistic regression)

Everything lives in the Lake project `lean/`; `Verif.lean` imports all modules.  Modules directly
under `Verif/` translate `/repo` function by function (each definition cites file and lines) or hold
closed forms of those functions; `Verif/Props/` holds specifications, property theorems and concrete
cases.  Theorems are named after the property they prove (`C21_MulRelinNew` belongs to C21).  Namespaces: `MK`,
`MK.Word` (words), `MK.Lr` (programs), `MK.Utils`.

Contents: 1 conventions, 2 trusted base, 3 coverage of `/repo`, 4 properties, 5 findings, 6 module
map, 7 mutation testing.

## 1. Modelling conventions

* **Panics.** `Go α = Except Panic α`; explicit `panic`, nil dereference and index out of range are
  error values.  "Never panics" means the result is `ok`.  A loop that does not end is `none`.
* **Maps.** `GoMap K V` is an association list with distinct keys.  A `range` loop takes an explicit
  visiting order; the evaluator takes a schedule `Sched π` that yields one permutation per loop.
  Theorems quantify over all of them.
* **Polynomials.** A `ring.Poly` is a family of rows `Fin N → ZMod (q i)`, a length (level + 1) and
  the `IsNTT` flag.  `...Lvl` operations change only the rows up to the level and leave stale data above
  it.  `MForm` multiplies by `2^64`, Montgomery products divide by `2^64`; forgetting one is
  visible in the model.
* **Ring.** `Nega N A` is `A[X]/(X^N+1)` as coefficient vectors with the explicit negacyclic
  convolution (and an embedding into `AdjoinRoot (X^N+1)`).  The NTT is a ring isomorphism from
  `Nega N (ZMod q)` to the pointwise ring, a field of the parameter set `Ctx`; `NttInst.lean`
  constructs one by evaluation at roots, so `Ctx` is inhabited, also at the shipped parameters.
* **Values.** Go slices and pointers are values in most of the model; where the code relies on aliasing (an
  output that is also an input, a pool that is an operand of the next call) the value model passes the
  written value on explicitly.
* **Memory.** `Heap*.lean` models the same functions on a memory: a ciphertext is a pointer to a map of
  pointers to polynomials, the evaluator's pools are pointers, pointer comparisons are modelled as they
  stand.  C57 proves that the value model is what the pointer program computes, for every sequence of calls, and
  that no call changes another ciphertext; C58 proves it for the four main programs.
  Plaintexts, hoisted forms and the scratch of key switcher, encryptor and decryptor are not in that memory:
  no function makes a ciphertext component point into them (checked by reading).
  `KeyMem.lean` is a second memory, of the polynomials of keys, reference string and generator pools: C69 proves the value
  model of key generation from it.  `KsMem.lean` adds the scratch of the key switcher, the hoisting pools, hoisted forms
  and ciphertext components to that memory; C70 proves the value model of key switching from it, for sessions mixing both.
  `EncMem.lean` adds the scratch of encryptor and decryptor (C71).
* **Scratch pools** of key switcher, key generator, encryptor, decryptor, evaluator and relinearization key set are
  explicit state with arbitrary content, so a theorem about a result holds after every earlier history
  (C28, C43, C49).
* **Randomness** is an argument: all samples are universally quantified, with the norm bounds of the
  samplers where they matter.
* **Phase.** `Ct.phase s i` is the sum over the parties of component × secret at modulus `i`, plus component
  `"0"`.  `Carries ct s m ε L` says that the phase is an integer polynomial `m + e` with `‖e‖∞ ≤ ε`
  at every modulus up to level `L`; evaluator theorems map `Carries` of the operands to `Carries` of the result.
* **Slots.** Slot `j` of `m` is `m(ψ^(5^j))`, `ψ = exp(iπ/N)`.  `..._slots` theorems bound the
  distance of the slots.
* **float64.** A float is the rational it represents; every operation is the exact operation followed by
  a rounding function `Fl` with relative error `2^-53`, exact on integers up to `2^53` and odd.
  Used for scales, constants of `MultByConst`, the quotient of the basis extension, the constants that
  the programs of `lr/` encode (C62; `Fl.cx` is the rounding on the complex numbers that stand for them) and
  the normalisation of the toy programs (C63; `Fl.re` on reals, `math.Sqrt` a parameter with relative error
  `2^-53`, `SqrtOk`).  `Fl.Ok` has the relative error on all rationals (unbounded exponents); C67 transfers
  the results to roundings that have it on the normal range of float64 only (`Fl.Ieee`).  NaN and infinities
  are not modelled: theorems assume that no computed standard deviation is zero, or prove it (C63).  The numbers read from the data files and the
  inside of the encoder are complex numbers.
* **Words.** `Word*.lean` models `basis_extension.go` on naturals modulo `2^64`, instruction by
  instruction.  The code is unrolled over eight coefficients; the lanes are identical, so the model is
  one lane: the *column* of words one coefficient has in the rows.  `N` is a multiple of 8 in lattigo.
* **Programs.** The programs of `lr/` use only AddNew, SubNew, MulRelinNew/MulRelinHoisted, MulPtxtNew,
  RotateNew; they are written once for any implementation `HE M C P` of these operations in any monad.
  `realHE` is the modelled evaluator; `boundHE` tracks slots, level, scale and error bound; `metaHE` level and
  scale drift; `slotsHE` exact slot arithmetic.  `LrSim.lean` proves that related implementations give
  related runs; `realHE → boundHE → metaHE/slotsHE` turns a theorem on slot vectors into one on ciphertexts.

## 2. Trusted base

* The Lean 4.33.0 kernel and Mathlib.  No own axioms, no `sorry`, no `native_decide`/`bv_decide`.
  Axioms reported by `#print axioms` for the theorems of MANIFEST.json:
  * none: `C02_add_zero_panics`;
  * `propext`: `C05_del_unknown_party`, `Utils.C45_interfaceMod_uint64`, `Utils.C45_interfaceMod_other`;
  * `propext`, `Quot.sound`: `C04_keyset_history`, `C05_rotation_keyset_history`, `C06_relin_keyset_history`,
    `C06_del_keeps_pool`, `Lr.C40_overfull`, `Utils.C45_interfaceMod_big`, `Utils.C45_genBigIntChain`;
  * `propext`, `Classical.choice`, `Quot.sound`: all others.
* That the model says what `/repo` does, by reading; each definition cites its lines.
* **lattigo v2.3.0** is not in the sandbox.  Contracts used:
  * `ring`: Add/Sub/Neg/MulCoeffsMontgomery(AndAdd/AndSub)/MForm/InvMForm/NTT/InvNTT `Lvl` variants as
    in `Ring.lean`; `NTTLvl` does not touch `IsNTT`; lazily reduced representatives are identified with reduced
    ones and NTT accepts any 64-bit representatives; `Poly.Copy` copies the common rows and the flag,
    `CopyValuesLvl` rows only; `Permute` acts on all moduli; `DivRoundByLastModulus` rounds to nearest and leaves its input unchanged;
    `MForm`, `ModExp`, `ModexpMontgomery`, `MRedParams` (`MRed`, `CRed` are modelled); Galois elements
    `5^k mod 2N`, inverse, `2N-1`; `ExtendBasisSmallNormAndCenter` = centred lift of row 0.
  * `rlwe`/`ring` samplers: any output within the stated bounds (Gaussian cut at 6σ: 19).
  * The basis extender inside `ExternalProduct` is lattigo's `FastBasisExtender` with `ModDownQPtoQNTT`; the model uses
    division by `P` up to a bounded error, which C32 proves for the copy of that algorithm in `/repo`.
  * `ckks.Encoder`: `Encode` clears `IsNTT` and stores one integer polynomial modulo each `q_i`;
    `Decode` is a function of the centred lift modulo the product of the level's moduli.  C43/C49 leave the two
    functions arbitrary; C51/C52 ask `Encoder.Accurate` (encoding and decoding are near-inverse on
    slots), met by `stdEncoder` (`Props/Canon.lean`).
* The two data files: `ToyCsv.lean` and `DataCsv.lean` hold their records as numbers. That the rows rendered from them are the files
  byte for byte was checked by evaluation outside the proofs. `encoding/csv` is taken to split these lines at the commas, and
  `strconv.ParseFloat` to round correctly (`ParsesDecimals`, `ParsesLong`).
* Not modelled: serialisation, timing, printing of fixed texts, opening files (`readData` starts at the
  parsed CSV records), memory reclamation, concurrency (there is none), security.

## 3. Coverage of `/repo`

Modelled: every function of mkrlwe (`idset.go`, `elements.go`, `keys.go`, `params.go`, `keygen.go`, `encryptor.go`,
`decryptor.go`, `keyswitch.go`, `keyswitch_hoisted.go`, `basis_extension.go`) and mkckks (`params.go`, `keys.go`,
`elements.go`, `encryptor.go`, `decryptor.go`, `evaluator.go`, `utils.go`) except those below; `lr/`: readData,
genTestParams, SumRowVec, SumColVec, main of the four programs; the tests of mkrlwe, all of `mkckks_test.go` and
`mkckks_benchmark_test.go` (the bodies of the loops over the parameter sets).

Not modelled or only in part: constructors that only allocate (`NewSecretKey`, `NewMessage`, …) and accessors; the samplers (the sampled polynomial is an arbitrary argument; the ternary distribution enters only
C60); the fields of `ShallowCopy` beyond "same tables, own pools"; printing
formats; the rounding inside the tests of mkckks.

## 4. Properties

Proved means: for all inputs, states, orders and samples satisfying the theorem's stated hypotheses.
Concrete cases (`example`) that meet the hypotheses stand beside the theorems or in the `Ex*.lean` module
of the same group.

| id | model | what is proved and how |
|---|---|---|
| C01–C03 | `IDSet` | result of any call history = last Add/Remove; set operations for any iteration order; induction on histories |
| C04–C06 | `Keys`, `Evaluator` | last registration wins; map keyed by (party, index); pools exist for every key ever registered; `MulRelinNew` panics iff a key is missing |
| C07 | `Ct` | participants, copy and padding |
| C08–C10 | `EncDec` | noise of `Encrypt` for every plaintext/ciphertext form and level (a plaintext below the ciphertext's level truncates only `"0"` and the key's party: `Ragged`); `Decrypt` is the phase, panics iff a key is missing; any order of partial decryptions |
| C11–C14 | `Evaluator` | AddNew/SubNew on phases with the integer scale alignment the code performs; metadata; exact conditions under which scales agree, and the error otherwise |
| C15 | `Evaluator` | DropLevel on phases; panics |
| C16 *partial* | `Evaluator` | real and integer constants; the complex case is wrong on coefficient-form ciphertexts (`C16_complex_wrong`), the law that holds is `C16_complex_partial` |
| C17–C18 | `Evaluator` | how many moduli are dropped, errors, panics, scale with float rounding; error of division |
| C19 *partial* | `Evaluator` | false as documented: with nothing to drop the result is zero (`C19_RescaleNew_loses_input`); proved otherwise |
| C20 | `Evaluator` | MulPtxtNew on phases and slots |
| C21–C23 | `KeySwitch`, `Evaluator` | product law with explicit noise; squaring; hoisted = plain; closed form `mulOut` without scratch or orders; `EvMulPlain`: the unexported `mulRelin`, which nothing calls, computes the same product |
| C24–C27 | `KeySwitch`, `Evaluator` | rotation by any integer from the power-of-two keys; missing keys; conjugation, and its panic below the top level |
| C28 | all pools | every reachable evaluator/key-set state gives the same result |
| C29–C30 | `Gadget`, `KeySwitch` | digits recompose; external product noise |
| C31–C33 (*C33 partial*) | `Word` | words are residues of the lift; ModDown is floor, not rounding; ModDownQPtoP is right only for equal levels; the law for all levels |
| C34–C35 | `KeyGen` | equations of all generated keys; index handling incl. panics |
| C36–C37 | `Permute`, `Slots` | permutation loop = automorphism (also on words); automorphism = slot rotation/conjugation |
| C38–C41 | `Lr` | row/column sums, Nesterov step with cubic sigmoid, packing (each record exactly once), inference; exact slot arithmetic over any field, any shape, any number of iterations |
| C42 | `LrEval`, `LrRun` | on the modelled evaluator, training and inference never run out of levels, each product is rescaled once, results carry the exact slot values up to an explicit error |
| C43, C49 | `CDec` | message encryption and decryption after any history; the shrinking pool of `Decryptor` |
| C44–C46 | `Utils` | bit reversal (and non-termination off powers of two), integer helpers, CSV loading |
| C47–C48 | `Word` | decomposer tables in range; words are residues of the digit used by C29; float quotient off by at most one |
| C50 | `LrSetup`, `Props/LrSetupDirect` | keys of `genTestParams` satisfy every hypothesis of the evaluator theorems; every amount the programs rotate by has its own key |
| C51 | `LrMain` | main of lr.go from data to printed results: no panic, each printed number is the plain one up to an explicit error; same at the shipped parameters |
| C52 | `MbMain` | the same for lr_minibatch.go |
| C53 | `Toy` | normalisation of the toy programs: entries, mean 0 and variance 1, independence of units, panics; loop invariants |
| C54, C55 | `Toy` | as C51, C52 for lr_toy.go and lr_minibatch_toy.go; the inference loop over all records by induction |
| C56 | `Props/LrNum`, `Props/Small` | the bounds of C51 dominated by rationals (`numHE`, same simulation argument), evaluated by the kernel for lr.go's moduli at degree 32: predictions within 0.014 |
| C61 | `Props/MbNum`, `Props/SmallMb`, `Props/ToyNum`, `Props/SmallToy` | as C56 for the other three programs: the bounds of C52, C54, C55 dominated by rationals; evaluated at degree 32 for lr_minibatch.go (predictions within 0.03) and lr_minibatch_toy.go (within 0.005), and at degree 512 for lr_toy.go, which prints slots up to 210 (one iteration, within 0.1) |
| C62 | `Props/FlConst`, `Props/LrMain` | the constants of main with every rounding; accumulated errors by `App k b x x'` (`k` roundings, relative to the bound `b` of `x`), closed under rounding, negation, subtraction, products, inverses; `RunOk.encoder` leaves room for them, so the theorems on the mains hold for the rounded constants |
| C63 | `Props/FlNorm` | normalisation with every rounding; `App` for sums of any length, then the square root and the quotient; used by `C54_shipped`, `C55_shipped`, whose data are the computed scores |
| C64 | `FlInt`, `Props/FlInt` | `Beta`, the table sizes of `NewDecomposer` and the batch shape as float64 computes them (`math.Ceil` of quotients, `math.Log2`, `math.Pow`) equal the natural numbers that the model uses; `Log2` and `Pow` by a contract (`FMath.Ok`) |
| C65 | `Test`, `Props/Test`, `Props/ExTest` | the mkrlwe tests as functions of their samples; the norm by induction over coefficients and CRT; each verdict as a function of the errors, then bounds or an explicit bad sample |
| C66 | `Props/Exact`, `Props/DetKeys`, `Props/Det`, `Props/ExDet` | exact operations on residues that mention no order (`exactHE`: components as functions of party and modulus, closed forms of products and rotations); `realHE` simulates it for every schedule, so all runs equal the one run of `exactHE`; keys, encryptions and decryptions likewise |
| C67 | `Props/Ieee`, `Props/IeeeNorm`, `Props/IeeeMain`, `Props/ExIeee` | ranges of everything the programs round: scales from `metaHE` (levels and drift), constants from the hyperparameters, the normalisation by multiples of powers of two; `exactHE` with checked scales (`guardHE`) simulates both roundings, so both runs equal it; `Fl.ieee` (subnormals, overflow) as instance |
| C68 | `TestMore`, `TestParams`, `Props/TestMore`, `Props/ExTestMore` | as C65; decryption through the laws of `Decrypt`; the Hadamard product by the law of two products with the key, digits of a constant polynomial and the cube of `1+X+…+X^(N-1)` for the bad sample; instances at the parameter sets written in the test files |
| C69 | `KeyMem`, `Props/KeyMem`, `Props/KeyMemRun`, `Props/ExKeyMem` | every function writes whole objects or its temporaries (`setObj`), which gives its result and its frame; results do not depend on pools; induction over the calls with the invariant that all objects are different |
| C70 | `KsMem`, `KsMemSim`, `KsMemRel`, `KsMemRun`, `Props/KsMem`, `Props/KsMemRun`, `Props/ExKsMem` | `KsMemSim`: each block of statements as one assignment to its outputs; `KsMemRel`: a relation (scratch, output, frame) kept by each step; a client with invariant `EState.Ok`, induction over commands |
| C71 | `EncMem`, `KsMemRun`, `Props/EncMem`, `Props/EncMemRun`, `Props/ExEncMem` | as C70, each function with a relation and a frame; `encryptV` reads and writes components through the map and equals `Encrypt` of `EncDec` unless the key has the reserved id; the commands of C70's client are extended; the round trip from the laws of C08 and C09, with an invariant on keys and the decryptor's pool |
| C72 | `CTest`, `Props/CTest`, `Props/CTestMore`, `Props/ExCTest`, `Props/ExCTestMore` | the tests as programs returning a verdict; vectors by C08 with explicit noise (`C08_encrypt_phase`), sums with the aliasing of `msg` and `msgList[0]`, decryption by C43; the assertions on logarithms turned into bounds on slots; failing samples are constant blocks of length N/6, whose product has a large slot 0; the rotation test is `testRotWith rotate`, true for every `rotate` that keeps constant slots; hoisted product and rotation have the same components as the plain ones (C23), the product with the modulus in the rescaling test is C16 with the `float64` of the modulus |
| C73 | `CBench`, `Props/Missing`, `Props/CBench`, `Props/TestAll`, `Props/ExCBench` | never returning as `Go.Post x False`, pushed through the loops (`rotBits_never`), converses from C24, C26, C27; benchmarks and TestCKKS with all states threaded, induction over the iterations and over the doubled number of users with the invariant of C72 (pools, keys, level of the decryptor's pool); the verdict is the conjunction of the tests' verdicts: passing iff the encryption test passes and every slot of every product decodes near its target (`C73_TestCKKS_verdict`), and an encoder off by more than the tolerance makes it fail (`C73_TestCKKS_sees`) |
| C74 | `TestRlwe`, `Props/TestRlwe`, `Props/ExTestRlwe` | the tests of C65 and C68 in the order of `TestMKRLWE`, the three decryptions of `testDecryptor` on one key pair; verdict as the conjunction of the single verdicts with the reductions modulo the products of the moduli dropped; induction over the list of parameter sets |
| C75 | `Props/FirstStep`, `Props/ExFirstStep` | two steps of `nesterovRun` from zero evaluated for `eta 0 = 1` (`run_one`, `run_two`), induction for the later ones; put into C51, C52, C54, C55 |
| C76 | `Props/FirstStep`, `Props/ExFirstStep` | Nesterov's sequence defined over the reals, enclosed by squaring; the four literals of each program compared |
| C77 | `ToyCsv` (the file), `Props/ToyCsv`, `Props/ToyCsvStd`, `Props/ToyCsvRun`, `Props/ExToyCsv` | sums and sums of squares of the columns by kernel computation on the 2000 records (`decide +kernel` over the whole file), deviations enclosed by squaring; the file meets `ToyData`, the hypothesis of C54, C55 and C75; standard scores against normalised entries by perturbation of mean and deviation |
| C78 | `Props/ToyCsvFix`, `Props/ToyCsvPlain`, `Props/ToyCsvResult`, `Props/ExToyCsv` | tables of the training in integers (scores times 10^16, weights times 10^10) checked by the kernel against all records of the file; perturbation bounds carry them to the reals: a first step moves by 3/2 of the error of the scores, the cubic is Lipschitz with 0.15 on [-7, 7]; put into C77 |
| C79 | `DataCsv` (the file), `Props/DataCsv`, `Props/DataCsvFix`, `Props/DataCsvPlain`, `Props/DataCsvRun`, `Props/ExDataCsv` | tables of `beta` and `v` (times 10^15) for the four iterations, each step checked by the kernel against the sum over all records it uses; an iteration enlarges the error of the entries at most 100 times; the signs of all 10000 inner products and the counts by kernel computation in ten blocks, no inner product being nearer to 0 than the errors; put into C51 and C52 |
| C57 | `Props/Heap` | relational logic `Sim` between the pointer program and the value program: each function is proved with a frame (which addresses it may write), then by induction over the calls with the invariant that the client's ciphertexts and the pools share nothing |
| C58 | `Props/HeapLr`, `Props/ExHeapLr` | the four mains on the memory (`HeapLr`), proved equal to the mains on values by a relation indexed by the memory (`KSim`, `RC`): ciphertexts keep their value through every later operation, new objects differ from older ones |
| C59 | `Props/Helpers`, `Props/ExHelpers` | `ModDownQPtoQNTT` on rows of words around an arbitrary pair of lazy linear transforms; columns by C31/C32, rows by linearity; independence of the work arrays by running the program twice in lockstep (`Agree`) for arbitrary tables, panics included |
| C60 | `Props/Helpers`, `Props/StdDev`, `Props/ExHelpers` | `scaleUpVecExactBigFloat`, `scaleDown`, `StandardDeviation`, `ternary`; error analysis over the rationals, pairwise-difference formula for the variance; float64 by `App` for the two sums and by quadratic means of close vectors, so that no lower bound on the deviation is needed |

`Shipped.lean` is the parameter set `PN15QP880`: primality of its 23 moduli from Lucas certificates
evaluated by the kernel, roots of unity, and the inequalities between moduli and scale that C42
needs.  The error terms of C42 and C51 to C55 are worst case; at the shipped parameters the worst-case
relinearization noise exceeds the scale (finding 32), so there the theorems say that the programs do not panic,
use levels and scales as intended, and err by at most the (large) explicit bound.  C56 evaluates the bounds: with
the same moduli they are small at degree 32 (0.014 on the prediction; 0.09 at 64, 0.9 at 128).

## 5. Findings about the code

Where the code contradicts its documentation, the theorem states what the code does, and a witness or
theorem refutes the documented claim.

1. `RescaleNew` with nothing to rescale returns an all-zero ciphertext (C19).
2. The `Rescale` loop panics (index -1) when the scale is too large for the chain (C17).
3. `Decryptor.ptxtPool` shrinks with the lowest level seen, so `Decrypt` depends on history (C43);
   harmless in `lr/`, where levels only decrease between decryptions or values are small.
4. `GenKeyPairSparse` dereferences nil (C35).
5. `GenRotationKey` checks the CRS before normalising a negative index (C35).
6. `ModDownQPtoP` uses the inverse table of the wrong level (C33).
7. `ModDownQPtoQ` is documented as rounded but takes the floor (C32).
8. `multSum`: results are below 3p only if the source primes sum to at most 2^64 (C31).
9. `DecomposeAndSplit` panics if gamma does not divide PCount (C47).
10. Add/Sub with scale ratio in (1,2) leaves the operands unaligned (C14).
11. `MultByConst`: complex constants are right only in the NTT domain; `uint64` goes through float64;
    `scaleUpExact` may return q, and is off by one for odd integers in [2^52, 2^53) (C16, C45).
12. `interfaceMod` does not reduce positive int64; negative multiples give q (C45).
13. The documented output domain of `mkrlwe.Decrypt` is wrong.
14. `Encrypt` below the ciphertext's level truncates only two components (C08).
15. `mulRelin` and `MulPtxtNew` ignore the error of `Rescale` at level 0.
16. The coefficient permutation writes q for a negated zero (C36).
17. `DelRelinearizationKey` leaves the hoisting pool (C06).
18. `Copy`, `PartialDecrypt`, `DropLevel` panic on mismatched arguments (C07, C10, C15).
19. The rotation list of `lr/` affects performance only (C25).
20. The second key check of `MulAndRelin` is vacuous.
21. The repository's `FastBasisExtender` is unused; `ExternalProduct` uses lattigo's.
22. `MulRelinNew` hoists at the operands' levels (more digits than needed; harmless, C21).
23. `Conjugate` panics below the maximum level (C27).
24. Unsupported constant types multiply by 0 silently; a scale ratio of 2^63 or more is mis-scaled.
25. 8-lane unsafe reads assume that N is a multiple of 8.
26. A minibatch size above the row count and not a multiple of it over-fills batches (C40_overfull).
27. The mask literal 2^3 of lr_minibatch.go is right only for 5 to 8 features (C40_mask_width).
28. const6/const7 lack an assignment; harmless by aliasing.
29. The bit-reversal helpers loop forever for N not a power of two (C44_not_power).
30. `scaleUpVecExact` at n·|v| = 2^64 (excluded in C45).
31. The helpers of mkckks/utils.go except `scaleUpExact` are dead code.
32. The first modulus is 2^55 although the comment says 50; the worst-case relinearization noise at
    the shipped parameters exceeds the scale.
33. 512 is both in the rotation list and a power of two: its CRS entry is replaced and the key made
    twice; harmless because keys are generated after the last replacement (C50).
34. The toy programs divide by a standard deviation that is 0 for a column constant over the training
    records (NaN in every ciphertext); lr_toy.go divides by `batchSize`, lr_minibatch_toy.go by
    `numTrain - 1` under the root (C53).
35. lr_minibatch_toy.go declares `numIter = 4` but trains 3 iterations (literal), so its last quarter of the
    training records is never used (C55_shipped).
36. `Encrypt` with a public key of id "0" writes the masks of both components to one polynomial, so the
    result does not depend on the half of the key that contains the secret; only `EncryptMsgNew` rejects
    that id (C57_reserved_id).
37. The branch `ctOut == c0` of `evaluateInPlace` (never taken by the exported functions) visits only the ids of
    `ctOut`, so components of parties of `c1` alone would be dropped; `Copy` does not copy the scale.
38. `ModDownQPtoQNTT` transforms `p1P` in place, so its P part is no longer what the caller passed; it floors
    although documented as rounding (C59).
39. `scaleUpVecExactBigFloat` adds Q after a Euclidean `Mod`, so every negative value gives a word in [Q, 2Q)
    (C60); it does not clear the entries past the vector, as `scaleUpVecExact` does, and panics on no values.
40. Comments contradicting the code: `scaleDown` ("divides by n^2", divides by n), `GenSecretKey` and
    `GenKeyPair` ("[1/3, 1/3, 1/3]", p = 1/2), `GenSecretKeyWithDistrib` ("(p-1)/2" is negative),
    `StandardDeviation` ("we assume that the error is centered", subtracts the mean) (C60).  In float64 its value on equal
    entries need not be 0, as for three times 0.1 (`C60_StandardDeviation_equal`).
41. Tests: `RLKGen` allows 5 bits above `LogN`, but `d` and `v` contain two errors of up to 19, so admissible samples
    exceed it; `Encrypt/Pk` can fail for N ≥ 512 with both its bounds (12 and 9); the subtests named `MinLevel`
    run at `MaxLevel()`; `DecomposeMaxLevel` runs at `levelQ-1`; `log2OfInnerSum` overwrites `smallNorm` (C65).
42. All assertions of `testDecryptor` (9 bits above `LogN`, 10 for the sum of two parties) can fail for N ≥ 512;
    `testDecompose` cannot fail at the sizes stated, its `MaxLevel` case only has extra zero digits
    (`Beta(levelQ)` digits at `levelQ-1`); the bound `10 + 2 LogN` of `HadamardProduct` always holds at `PN16QP1761`
    (the set commented out) but not when the blocks have the size of the square root of P (C68).
43. `newTestVectors(ctx, id, a, b)` is called with `a = b` in the tests of the evaluator, so all slots hold the same number,
    and `testEvaluatorRot` (and `RotHoisted`) accept every rotation amount, also none; the sum starts from
    `ctList[0]` and adds it again, on both sides of the comparison, so `n` users give `(n+1) z` (C72).
44. The assertion of `testEncAndDec` (8 bits above `LogSlots`) can fail for N ≥ 512, with `PN15QP880` for every CRS and
    all secrets; it compares real parts only. `TestCKKS` runs only `testEncAndDec` and `testEvaluatorMul`;
    `testEvaluatorAdd`, `Sub` and `Rescale` are never called, the others are commented out, as are the
    rotation and conjugation keys they need (C72).
45. If the commented-out tests and benchmarks (`testEvaluatorRot`, `RotHoisted`, `Conj`, `benchRotate`) were called, they
    would panic, since `genTestParams` makes no rotation and no conjugation keys (C73).
46. In the benchmarks `ct0` and `ct1` start from `ctList[0]`, which the loops add and subtract again, and all messages
    are the constant `-1+i`: the operands are `(n+1)z` and `(1-n)z`, so with one user the second is an encryption of zero;
    `benchMulAndRelinHoisted` starts from `ctList[1]` and panics there with one user (C73).
47. The first product of `TestCKKS` lowers the level of the decryptor's pool; it is never raised again, but all later
    decryptions are at that level, so nothing is lost (C73). Decrypting a fresh ciphertext with that decryptor afterwards would
    use one modulus less.
48. `TestMKRLWE` passes silently over parameter sets with fewer than two special primes (`continue` instead of `t.Skip`): a list of
    such sets passes whatever the code does (C74).
49. All four programs start from `beta = v = 0` with `eta[0] = 1`: the first iteration leaves `v = 0` and is lost. lr.go and
    lr_toy.go compute the same `beta` twice (lr_toy.go, with its two iterations, makes one gradient step); lr_minibatch_toy.go
    never uses its first batch, nor its last (its loop stops after three of the four batches) (C75).
50. The weights of lr.go and lr_minibatch.go are Nesterov's `λ_{t+1}` instead of `(1 - λ_t)/λ_{t+1}` (which lr_toy.go and
    lr_minibatch_toy.go have): their momentum points backwards (C76).
51. On the shipped data lr_minibatch_toy.go without noise classifies 1756 of 2000 records correctly; always answering "not class 0"
    is correct for 1500 (C78).
52. On the shipped data lr.go and lr_minibatch.go without noise would classify 5112 and 5115 of 10000 records correctly, always
    answering "class 0" 9661. They train on the first 2048 records of a file that is not shuffled, with backward momentum (50), and
    test a single record (1935, 1950) out of those they trained on, so what they print does not show it (C79).

## 6. Module map

* Runtime and algebra: `Go`, `Nega`, `Auto`, `Ring`, `NttInst`, `Float`.
* mkrlwe: `IDSet`, `Keys`, `Ct`, `EncDec`, `KeyGen`, `Gadget`, `Permute`, `KeySwitch`; closed
  forms `KeySwitchSpec`, `MulSpec`, `MulNoise`, `RotSpec`; words `Word`, `WordSpec`, `WordFloat`, `WordRun`.
* mkckks: `Evaluator`, `CDec`, `Utils`, `Helpers`, `StdDev` (uncalled functions), `FlInt` (counts through float64); closed forms `EvalSpec`, `RescaleSpec`.
* Memory: `Heap` (model), `HeapSim` (the relation `Sim` between pointer and value programs, frames),
  `HeapEval`, `HeapKs`, `HeapKsSim`, `HeapEnc`, `HeapConst` (each function), `HeapClient` (client programs),
  `HeapLr`, `HeapLrSim` (the programs of `lr/`); `KeyMem` (key generation), `KsMem*` (key switching), `EncMem` (encryption, decryption).
* lr: `Lr`, `LrSpec`, `LrSim`, `LrEval`, `LrSetup`, `LrMain`, `MbMain`, `Toy`, `Shipped`; `ToyCsv` (contents of lr/toyData.csv; one number per
  record, groups of four digits; the rows rendered from it were compared with the file byte for byte, 122403 bytes); `DataCsv` (contents of lr/data.csv, compared
  in the same way, 1383131 bytes).
* Tests of mkrlwe: `Test`, `TestMore`, `TestRlwe` (the whole of `TestMKRLWE`); of mkckks: `CTest`, `CBench`; the parameter sets of the test files `TestParams`.
* Properties: `Props/` by group; concrete cases `Props/Ex*` (`exCtx`: N = 4, moduli 17, 41, 73, 97;
  `Ex8`: N = 8, two primes per digit; `ExMain`, `ExToy`, `ExDet`, `ExIeee`: the shipped parameters; `ExCover*`: theorems no other module instantiates;
  `Small*`: the shipped moduli at N = 32 and 512).

## 7. Mutation testing

`seeded/LOG.jsonl` has one line per attempt: a realistic bug put into a definition of the model in a
scratch copy; every proof that then fails is replaced by `sorry`, and the theorems of MANIFEST.json that
depend on a failed proof are listed (`theorems_failed`; `proofs_broken` are the proofs that failed directly).
Later attempts stop as soon as a theorem of the targeted claim has failed (in the second round: any theorem), so their lists are not complete.

581 attempts are recorded; in 567 a theorem of MANIFEST.json failed. Of the other 14, some are equivalent to the
original as far as the claims go (`note`); the rest led to tightened or new theorems (`theorems_tightened`, 12 attempts in
all), after which the edit was tried again under another id.
Seven attempts without a verdict are not in the log: the edit did not apply or did not compile, or the run could not replace a
failed proof.
