import Verif.TestRlwe
import Verif.Props.TestMore

/-!
# C74: what `TestMKRLWE` decides (mkrlwe/mkrlwe_test.go 53-89)
-/

noncomputable section

namespace MK

open Finset

variable {C : Ctx}

theorem blockSetProd_mono (hC : C.Good) {L L' : ℕ} (h : L' ≤ L) (k : ℕ) :
    blockSetProd C L' k ≤ blockSetProd C L k := by
  unfold blockSetProd
  refine Finset.prod_le_prod_of_subset_of_one_le' (fun i hi => ?_) fun i _ _ => hC.posQ i
  rw [mem_filter, mem_range] at hi ⊢
  exact ⟨by omega, hi.2⟩

theorem checkAll_decide {n : ℕ} {f : ℕ → Go Bool} {p : ℕ → Prop} [DecidablePred p]
    (h : ∀ i < n, f i = .ok (decide (p i))) : checkAll n f = .ok (decide (∀ i < n, p i)) := by
  induction n with
  | zero => simp [checkAll]
  | succ n ih =>
    unfold checkAll
    rw [ih fun i hi => h i (by omega), h n (by omega)]
    simp only [Go.ok_bind, Go.pure_eq, Nat.forall_lt_succ_right, Bool.decide_and]

theorem absSum_const (N c : ℕ) : absSum (⟨fun _ => (c : ℤ)⟩ : Nega N ℤ) = c * N := by
  unfold absSum
  simp [mul_comm]

/-- What the samplers and the runtime guarantee about the tests of one parameter set: the bounds
of the ternary and of the Gaussian sampler (`DefaultSigma = 3.2`, cut at six sigma), and orders
that visit every key once. -/
structure RlweDraw.Ok (t : RlweDraw C) : Prop where
  kp : t.kp.Ok
  sw : t.sw.x.Ok
  swg : ∀ k, (t.sw.sg k).Bdd 19
  rs : t.rs.Bdd 1
  rr : t.rr.Bdd 1
  esg : ∀ k, (t.esg k).Bdd 19
  erg : ∀ k, (t.erg k).Bdd 19
  eb : ∀ k, (t.eb k).Bdd 19
  ed : ∀ k, (t.ed k).Bdd 19
  ev : ∀ k, (t.ev k).Bdd 19
  enc1 : t.enc1.Ok
  enc2 : t.enc2.Ok
  dec1 : t.dec1.Ok
  dec2 : t.dec2.Ok
  dec3 : t.dec3.Ok
  mk1 : t.mk1.Ok
  mk2 : t.mk2.Ok
  dcMax : t.dcMax.x.Ok
  dcMaxg : ∀ k, (t.dcMax.sg k).Bdd 19
  dcMin : t.dcMin.x.Ok
  dcMing : ∀ k, (t.dcMin.sg k).Bdd 19
  ext : t.ext.x.Ok
  extg : ∀ k, (t.ext.sg k).Bdd 19
  had : t.had.x.Ok
  hadg : ∀ k, (t.had.sg k).Bdd 19
  ids : t.ids.Perm ["user1", "user2"]
  oC : ∀ i < 3, (t.ord i).oC.Perm ["0", "tetsUser1"]
  oI : ∀ i < 3, (t.ord i).oI.Perm ["0", "tetsUser1"]
  oS : ∀ i < 3, (t.ord i).oS.Perm ["tetsUser1"]
  o3 : (t.ord 3).Ok ["0", "user1"]
  o4 : (t.ord 4).Ok ["0", "user2"]
  o5 : (t.ord 5).Ok ["0", "user1", "user2"]

/-- Parameters for which the tests measure what they mean to: `B` bounds the noises, `D` the digits of
the decomposition. -/
structure RlweParams (C : Ctx) (logN B D : ℕ) : Prop where
  good : C.Good
  fits : C.Fits
  deg : C.N = 2 ^ logN
  nQ : 2 ≤ C.nQ
  above : Above C (2 * B + 1)
  B1 : 1023 ≤ B
  B2 : 38 * (2 * C.N + 1) ≤ B
  B3 : 19 * C.betaMax ≤ B
  blk : ∀ k < C.beta C.lq, 2 * blockSetProd C C.lq k ≤ D
  ext : C.beta C.lq * (C.N * (D * 19)) ≤ 1021 * C.P
  had : C.beta C.lq * (C.N * (D * (C.N * (D * 19)))) + 2 * C.P ≤ B * C.P
  prodQ : B * C.N < ∏ i ∈ range C.nQ, C.q i
  prodP : 38 * C.N < ∏ i ∈ range C.nP, C.p i

/-- The reference string holds the entries `0` and `-1`, the former with all rows. -/
def CrsOk (crs : CRS C) : Prop :=
  (∃ a, crs.get? 0 = some a ∧ (a 0).Q.len = C.nQ) ∧ ∃ u, crs.get? (-1) = some u

/-- The noise of `testHadamardProduct`: `P·W = Σ_k d_k·(d_k·e_k) - r` with `|r| ≤ 2P`, where the `d_k` are
the digits of the component `"0"` of the ciphertext. -/
def HadNoise (crs : CRS C) (g : GadgetDraw C) (W : Nega C.N ℤ) : Prop :=
  ∃ (c : (i : ℕ) → Nega C.N (ZMod (C.q i))) (r : Nega C.N ℤ),
    (∃ pk, GenPublicKey crs g.x.e (GenSecretKey g.x.s "tetsUser1") = .ok pk ∧
      ∀ i < C.nQ, c i = Nega.red (C.q i) g.x.u * (C.nttQ.equiv i).symm (pk.value0.Q.row i) +
        Nega.red (C.q i) g.x.e0) ∧ r.Bdd (2 * C.P) ∧
    (C.P : Nega C.N ℤ) * W = ∑ k ∈ range (C.beta C.lq),
      digit C C.lq c k * (digit C C.lq c k * g.sg k) - r

/-- The noise of an encryption of zero with the key pair of `x` and the randomness of `y`. -/
def noiseOf (x y : Samples C) : Nega C.N ℤ := y.u * x.e + y.e0 + y.e1 * x.s

/-- **C74**: the tests of one parameter set never panic, and their verdict is this conjunction of
inequalities on the samples, whatever the pools hold and in whichever order the maps are visited.  The assertions of
`testGenKeyPair`, `testSwitchKeyGen`, `testDecompose` and `testExternalProduct` and those on
the `b` part of the relinearization key do not occur: they hold for all samples. -/
theorem C74_set_verdict {p : RlweSet} {B D : ℕ} (hp : RlweParams p.C p.logN B D) (hcrs : CrsOk p.crs)
    (ht : p.t.Ok) : ∃ (v : Bool) (W : Nega p.C.N ℤ), testSet p = .ok v ∧ HadNoise p.crs p.t.had W ∧
      (v = true ↔
        (∀ k < p.C.betaMax, absSum (p.t.ed k - p.t.esg k) < 2 ^ (5 + p.logN)) ∧
        (∀ k < p.C.betaMax, absSum (p.t.erg k - p.t.ev k) < 2 ^ (5 + p.logN)) ∧
        absSum (noiseOf p.t.enc1 p.t.enc1) < 2 ^ (12 + p.logN) ∧
        absSum (noiseOf p.t.enc2 p.t.enc2) < 2 ^ (9 + p.logN) ∧
        absSum (noiseOf p.t.dec1 p.t.dec1) < 2 ^ (9 + p.logN) ∧
        absSum (noiseOf p.t.dec1 p.t.dec2) < 2 ^ (9 + p.logN) ∧
        absSum (noiseOf p.t.dec1 p.t.dec3) < 2 ^ (9 + p.logN) ∧
        absSum (noiseOf p.t.mk1 p.t.mk1) < 2 ^ (9 + p.logN) ∧
        absSum (noiseOf p.t.mk2 p.t.mk2) < 2 ^ (9 + p.logN) ∧
        absSum (noiseOf p.t.mk1 p.t.mk1 + noiseOf p.t.mk2 p.t.mk2) < 2 ^ (10 + p.logN) ∧
        absSum W < 2 ^ (10 + 2 * p.logN)) := by
  obtain ⟨C, logN, crs, t⟩ := p
  dsimp only at hp hcrs ht ⊢
  obtain ⟨⟨a, ha, halen⟩, u, hu⟩ := hcrs
  have hC := hp.good
  have hF := hp.fits
  have hN := hp.deg
  have hnQ := hC.nQ_pos
  have hb1 := hp.B1
  have hb2 := hp.B2
  have hb3 := hp.B3
  have hlq : C.lq < C.nQ := by show C.nQ - 1 < _; omega
  have ab : ∀ {K : ℕ}, K ≤ 2 * B + 1 → Above C K := fun h => hp.above.mono h
  have sm : ∀ {s : Nega C.N ℤ}, s.Bdd 1 → Small C s := fun h =>
    small_of_above hC hp.above (h.mono (by exact_mod_cast (by omega : 1 ≤ B)))
  have hD' : ∀ L < C.nQ, ∀ k < C.beta L, 2 * blockSetProd C L k ≤ D := fun L hL k hk => by
    have hl : L ≤ C.lq := by show L ≤ C.nQ - 1; omega
    exact (Nat.mul_le_mul_left 2 (blockSetProd_mono hC hl k)).trans
      (hp.blk k (hk.trans_le (beta_mono hl)))
  have hext' : ∀ L < C.nQ, C.beta L * (C.N * (D * 19)) ≤ 1021 * C.P := fun L hL => by
    have hl : L ≤ C.lq := by show L ≤ C.nQ - 1; omega
    exact (Nat.mul_le_mul_right _ (beta_mono hl)).trans hp.ext
  -- dropping the reduction modulo the product
  have dropQ : ∀ {w : Nega C.N ℤ} {b : ℕ} (_ : w.Bdd ((B : ℕ) : ℤ)),
      decide (Nat.size (absSum w % ∏ i ∈ range C.nQ, C.q i) ≤ b) = decide (absSum w < 2 ^ b) :=
    fun {w b} hw => by rw [absSum_lt_prod hw hp.prodQ, decide_eq_decide, Nat.size_le]
  have bB : ∀ {w : Nega C.N ℤ}, w.Bdd ((19 * (2 * C.N + 1) : ℕ) : ℤ) → w.Bdd ((B : ℕ) : ℤ) :=
    fun h => h.mono (by exact_mod_cast (by omega : 19 * (2 * C.N + 1) ≤ B))
  have nb : ∀ {x y : Samples C}, x.Ok → y.Ok → (noiseOf x y).Bdd ((B : ℕ) : ℤ) := fun hx hy =>
    bB (encNoise_bdd hy.u hx.e hy.e0 hy.e1 hx.s)
  -- the single tests
  have hk := C65_PKGen hC hF (ab (by omega)) ha t.kp.s ht.kp.e
  have hs := C65_SWKGen hC hF (ab (by omega)) (t.poolQ 0) (sm ht.sw.s) ht.swg
  have hr : testRelinKeyGen 5 logN crs (t.poolQ 1) (t.poolQ 2) (t.poolQ 3) t.poolQP t.rs t.rr t.esg
      t.erg t.eb t.ed t.ev = .ok (true, decide (∀ k < C.betaMax, absSum (t.ed k - t.esg k) < 2 ^ (5 + logN)),
        decide (∀ k < C.betaMax, absSum (t.erg k - t.ev k) < 2 ^ (5 + logN))) := by
    obtain ⟨xb, xd, xv, x1, d1, v1, e⟩ := testRelin_spec hC (ab (by omega)) ha hu (t.poolQ 1) (t.poolQ 2)
      (t.poolQ 3) t.poolQP (sm ht.rs) (sm ht.rr) ht.esg ht.erg ht.eb ht.ed ht.ev 5 logN
    have chk : ∀ {x : QP C} {w : Nega C.N ℤ}, HoldsQP x w → w.Bdd ((38 : ℕ) : ℤ) →
        checkQP (5 + logN) x = .ok (decide (absSum w < 2 ^ (5 + logN))) := fun {x w} hx hw => by
      rw [checkQP_spec hC hF (B := 38) (ab (by omega)) hx hw, absSum_lt_prod hw hp.prodP,
        absSum_lt_prod hw (lt_of_le_of_lt (Nat.mul_le_mul_right _ (by omega)) hp.prodQ), Bool.and_self]
      simp only [Nat.size_le]
    rw [e, checkAll_pass fun k hk => checkQP_pass hC hF (B := 19) (ab (by omega))
        (x1 k hk) (ht.eb k) (size_le_of_bdd hN (B := 19) (by norm_num) (ht.eb k)),
      checkAll_decide (p := fun k => absSum (t.ed k - t.esg k) < 2 ^ (5 + logN)) fun k hk =>
        chk (d1 k hk) (((ht.ed k).sub (ht.esg k)).mono (by norm_num)),
      checkAll_decide (p := fun k => absSum (t.erg k - t.ev k) < 2 ^ (5 + logN)) fun k hk =>
        chk (v1 k hk) (((ht.erg k).sub (ht.ev k)).mono (by norm_num))]
    rfl
  have he : ∀ {x : Samples C} (_ : x.Ok) (pool : RQ C) (slack : ℕ),
      testEncryptor slack logN crs pool x.s x.e x.u x.e0 x.e1 =
        .ok (decide (absSum (noiseOf x x) < 2 ^ (slack + logN))) := fun {x} hx pool slack => by
    rw [testEncryptor_spec hC hF (by omega) hp.above ha halen pool (sm hx.s) hx.e (nb hx hx) slack logN]
    exact congrArg _ (dropQ (nb hx hx))
  have hd : ∀ (b : Bool) {x y : Samples C} (_ : x.Ok) (_ : y.Ok) (pool : RQ C) {i : ℕ} (_ : i < 3),
      testDecrypt b 9 logN crs pool x.s x.e y.u y.e0 y.e1 (t.ord i).oC (t.ord i).oI (t.ord i).oS =
        .ok (decide (absSum (noiseOf x y) < 2 ^ (9 + logN))) := fun b {x y} hx hy pool {i} hi => by
    rw [C68_Decrypt_verdict hC hF (by omega) hp.above ha halen pool (sm hx.s) hx.e (nb hx hy) b 9 logN
      (ht.oC i hi) (ht.oI i hi) (ht.oS i hi)]
    exact congrArg _ (dropQ (nb hx hy))
  have hm : testDecryptMultikey 9 10 logN crs (t.pool 5) t.dec1.s t.mk1 t.mk2 t.ids (t.ord 3) (t.ord 4)
      (t.ord 5) = .ok (decide (absSum (noiseOf t.mk1 t.mk1) < 2 ^ (9 + logN)),
        decide (absSum (noiseOf t.mk2 t.mk2) < 2 ^ (9 + logN)),
        decide (absSum (noiseOf t.mk1 t.mk1 + noiseOf t.mk2 t.mk2) < 2 ^ (10 + logN))) := by
    have hsum : (noiseOf t.mk1 t.mk1 + noiseOf t.mk2 t.mk2).Bdd ((B : ℕ) : ℤ) :=
      (ht.mk1.bdd.add ht.mk2.bdd).mono (by
        have : ((38 * (2 * C.N + 1) : ℕ) : ℤ) ≤ B := by exact_mod_cast hb2
        push_cast at this ⊢
        linarith)
    rw [C68_Multikey_verdict hC hF (ab (by omega)) ha halen (t.pool 5) ht.mk1 ht.mk2 9 10 logN ht.ids ht.o3
      ht.o4 ht.o5, ← dropQ (nb ht.mk1 ht.mk1), ← dropQ (nb ht.mk2 ht.mk2), ← dropQ hsum]
    rfl
  have hcM := C68_Decompose hN hC hF (ab (by omega)) ha halen (t.pool 6) (t.poolQ 4) t.dcMax.x.u t.dcMax.x.e0
    t.dcMax.x.e1 (sm ht.dcMax.s) ht.dcMax.e ht.dcMaxg (L := C.nQ - 2) (by omega) (n := C.beta (C.nQ - 1))
    (beta_mono (by omega)) (hD' _ (by omega)) (hext' _ (by omega))
  have hcm := C68_Decompose hN hC hF (ab (by omega)) ha halen (t.pool 7) (t.poolQ 5) t.dcMin.x.u t.dcMin.x.e0
    t.dcMin.x.e1 (sm ht.dcMin.s) ht.dcMin.e ht.dcMing (L := 0) (by omega) (n := C.beta 0) le_rfl
    (hD' _ (by omega)) (hext' _ (by omega))
  have hx := C65_ExternalProduct hN hC hF (ab (by omega)) ha halen (t.pool 8) (t.poolQ 6) t.ext.x.u t.ext.x.e0
    t.ext.x.e1 (sm ht.ext.s) ht.ext.e ht.extg hp.blk hp.ext
  obtain ⟨c, W, r, hpk, hrb, hW, hh⟩ := hadamard_spec hC hF (ab (by omega)) ha halen (t.pool 9) (t.poolQ 7)
    t.had.x.u t.had.x.e0 t.had.x.e1 (sm ht.had.s) ht.had.e ht.hadg
  have hWb := hadamard_bdd hC hF ht.hadg hrb hW hp.blk hp.had
  have hh' := hh B hp.above hWb 10 logN
  rw [dropQ hWb] at hh'
  have run : ∃ v : Bool, testSet ⟨C, logN, crs, t⟩ = .ok v ∧ (v = true ↔
        (∀ k < C.betaMax, absSum (t.ed k - t.esg k) < 2 ^ (5 + logN)) ∧
        (∀ k < C.betaMax, absSum (t.erg k - t.ev k) < 2 ^ (5 + logN)) ∧
        absSum (noiseOf t.enc1 t.enc1) < 2 ^ (12 + logN) ∧
        absSum (noiseOf t.enc2 t.enc2) < 2 ^ (9 + logN) ∧
        absSum (noiseOf t.dec1 t.dec1) < 2 ^ (9 + logN) ∧
        absSum (noiseOf t.dec1 t.dec2) < 2 ^ (9 + logN) ∧
        absSum (noiseOf t.dec1 t.dec3) < 2 ^ (9 + logN) ∧
        absSum (noiseOf t.mk1 t.mk1) < 2 ^ (9 + logN) ∧
        absSum (noiseOf t.mk2 t.mk2) < 2 ^ (9 + logN) ∧
        absSum (noiseOf t.mk1 t.mk1 + noiseOf t.mk2 t.mk2) < 2 ^ (10 + logN) ∧
        absSum W < 2 ^ (10 + 2 * logN)) := by
    unfold testSet testDecryptor
    dsimp only
    rw [hk, hs, hr, he ht.enc1, he ht.enc2, hd false ht.dec1 ht.dec1 _ (i := 0) (by norm_num),
      hd true ht.dec1 ht.dec2 _ (i := 1) (by norm_num), hd true ht.dec1 ht.dec3 _ (i := 2) (by norm_num), hm,
      hcM, hcm, hx, hh']
    simp only [Go.ok_bind, Go.pure_eq]
    refine ⟨_, rfl, ?_⟩
    simp only [Bool.and_eq_true, decide_eq_true_eq, and_assoc, true_and, and_true]
  obtain ⟨v, h1, h2⟩ := run
  exact ⟨v, W, h1, ⟨c, r, hpk, hrb, hW⟩, h2⟩

/-- What `TestMKRLWE` needs of a parameter set: nothing if it is skipped. -/
def RlweSet.Ok (p : RlweSet) : Prop :=
  2 ≤ p.C.nP → (∃ B D, RlweParams p.C p.logN B D) ∧ CrsOk p.crs ∧ p.t.Ok

/-- **C74**: `TestMKRLWE` never panics, and passes exactly if the tests of every parameter set with at
least two special primes pass. -/
theorem C74_TestMKRLWE_verdict {ps : List RlweSet} (h : ∀ p ∈ ps, p.Ok) :
    ∃ v : Bool, testMKRLWE ps = .ok v ∧
      (v = true ↔ ∀ p ∈ ps, 2 ≤ p.C.nP → testSet p = .ok true) := by
  induction ps with
  | nil => exact ⟨true, rfl, by simp⟩
  | cons p ps ih =>
    obtain ⟨v, h1, h2⟩ := ih fun q hq => h q (List.mem_cons_of_mem _ hq)
    unfold testMKRLWE
    rw [h1]
    by_cases hp : p.C.nP < 2
    · refine ⟨v, ?_, ?_⟩
      · rw [if_pos hp]
        simp only [Go.ok_bind, Go.pure_eq, Bool.true_and]
      · rw [h2, List.forall_mem_cons]
        exact ⟨fun h => ⟨fun h' => absurd h' (by omega), h⟩, fun h => h.2⟩
    · obtain ⟨⟨B, D, hB⟩, hc, ht⟩ := h p List.mem_cons_self (by omega)
      obtain ⟨w, W, hw, -, -⟩ := C74_set_verdict hB hc ht
      refine ⟨w && v, ?_, ?_⟩
      · rw [if_neg hp, hw]
        rfl
      · rw [List.forall_mem_cons, hw, Bool.and_eq_true, h2]
        refine and_congr_left fun _ => ?_
        constructor
        · rintro rfl _; rfl
        · intro h'
          have := h' (by omega)
          injection this

/-- **C74**: parameter sets with fewer than two special primes are not tested at all. -/
theorem C74_TestMKRLWE_skips (ps : List RlweSet) :
    testMKRLWE ps = testMKRLWE (ps.filter fun p => decide (2 ≤ p.C.nP)) := by
  induction ps with
  | nil => rfl
  | cons p ps ih =>
    by_cases hp : p.C.nP < 2
    · rw [List.filter_cons_of_neg (by simp; omega), ← ih]
      conv_lhs => unfold testMKRLWE
      rw [if_pos hp]
      cases testMKRLWE ps <;> rfl
    · rw [List.filter_cons_of_pos (by simp; omega)]
      unfold testMKRLWE
      rw [ih]

/-- **C74**: the tests of a set pass if the differences of two errors stay within `31`, the noises of the
encryptions within `511`, and the noise of the Hadamard product within its bound. -/
theorem C74_set_passes {p : RlweSet} {B D : ℕ} (hp : RlweParams p.C p.logN B D) (hcrs : CrsOk p.crs)
    (ht : p.t.Ok) (hB : B < 2 ^ (10 + p.logN)) (hd : ∀ k, (p.t.ed k - p.t.esg k).Bdd 31)
    (hv : ∀ k, (p.t.erg k - p.t.ev k).Bdd 31) (h1 : (noiseOf p.t.enc1 p.t.enc1).Bdd 4095)
    (h2 : (noiseOf p.t.enc2 p.t.enc2).Bdd 511) (h3 : (noiseOf p.t.dec1 p.t.dec1).Bdd 511)
    (h4 : (noiseOf p.t.dec1 p.t.dec2).Bdd 511) (h5 : (noiseOf p.t.dec1 p.t.dec3).Bdd 511)
    (h6 : (noiseOf p.t.mk1 p.t.mk1).Bdd 511) (h7 : (noiseOf p.t.mk2 p.t.mk2).Bdd 511) :
    testSet p = .ok true := by
  obtain ⟨v, W, hw, ⟨c, r, -, hr, hW⟩, hv'⟩ := C74_set_verdict hp hcrs ht
  have hWb := hadamard_bdd hp.good hp.fits ht.hadg hr hW hp.blk hp.had
  have sz : ∀ {w : Nega p.C.N ℤ} {b s : ℕ}, w.Bdd ((b : ℕ) : ℤ) → b < 2 ^ s →
      absSum w < 2 ^ (s + p.logN) := fun hw hb => Nat.size_le.mp (size_le_of_bdd hp.deg hb hw)
  rw [hw, hv'.mpr ⟨fun k _ => sz (b := 31) (hd k) (by norm_num), fun k _ => sz (b := 31) (hv k) (by norm_num),
    sz (b := 4095) h1 (by norm_num), sz (b := 511) h2 (by norm_num), sz (b := 511) h3 (by norm_num),
    sz (b := 511) h4 (by norm_num), sz (b := 511) h5 (by norm_num), sz (b := 511) h6 (by norm_num),
    sz (b := 511) h7 (by norm_num),
    sz (b := 1022) ((h6.add h7).mono (by norm_num)) (by norm_num), ?_⟩]
  have := sz hWb hB
  rwa [add_assoc, ← two_mul] at this

/-- **C74**, negative part: whatever the other samples are, some errors of the gadget encryption and of the
relinearization key, within the sampler's bound, make `TestMKRLWE` fail. -/
theorem C74_TestMKRLWE_can_fail {ps qs : List RlweSet} {p : RlweSet} {B D : ℕ} (hP : 2 ≤ p.C.nP)
    (hp : RlweParams p.C p.logN B D) (hcrs : CrsOk p.crs) (ht : p.t.Ok) (hps : ∀ q ∈ ps, q.Ok)
    (hqs : ∀ q ∈ qs, q.Ok) :
    ∃ esg ed : ℕ → Nega p.C.N ℤ, (∀ k, (esg k).Bdd 19) ∧ (∀ k, (ed k).Bdd 19) ∧
      testMKRLWE (ps ++ { p with t := { p.t with esg := esg, ed := ed } } :: qs) = .ok false := by
  have b1 : (⟨fun _ => 19⟩ : Nega p.C.N ℤ).Bdd 19 := fun _ => by show |(19 : ℤ)| ≤ 19; norm_num
  have b2 : (⟨fun _ => -19⟩ : Nega p.C.N ℤ).Bdd 19 := fun _ => by show |(-19 : ℤ)| ≤ 19; norm_num
  refine ⟨fun _ => ⟨fun _ => -19⟩, fun _ => ⟨fun _ => 19⟩, fun _ => b2, fun _ => b1, ?_⟩
  set p' : RlweSet := { p with t := { p.t with esg := fun _ => ⟨fun _ => -19⟩, ed := fun _ => ⟨fun _ => 19⟩ } }
    with hp'
  have ht' : p'.t.Ok := { ht with esg := fun _ => b2, ed := fun _ => b1 }
  obtain ⟨v, h1, h2⟩ := C74_TestMKRLWE_verdict (ps := ps ++ p' :: qs) (by
    intro q hq
    rw [List.mem_append, List.mem_cons] at hq
    rcases hq with hq | rfl | hq
    · exact hps q hq
    · exact fun _ => ⟨⟨B, D, hp⟩, hcrs, ht'⟩
    · exact hqs q hq)
  obtain ⟨w, W, hw, -, hiff⟩ := C74_set_verdict (p := p') hp hcrs ht'
  have hwf : w = false := by
    rw [← Bool.not_eq_true, hiff]
    rintro ⟨h, -⟩
    have h0 := h 0 (beta_pos hp.good.alpha_pos' _)
    have e : absSum ((p'.t.ed 0) - (p'.t.esg 0)) = 38 * p.C.N := by
      have : (p'.t.ed 0) - (p'.t.esg 0) = (⟨fun _ => 38⟩ : Nega p.C.N ℤ) := by ext; rfl
      exact (congrArg absSum this).trans (absSum_const p.C.N 38)
    rw [e, hp.deg, pow_add] at h0
    have : 2 ^ 5 * 2 ^ p.logN ≤ 38 * 2 ^ p.logN := Nat.mul_le_mul_right _ (by norm_num)
    exact absurd h0 (not_lt.mpr this)
  have hvf : v = false := by
    rw [← Bool.not_eq_true, h2]
    intro h
    have := h p' (by simp) hP
    rw [hw, hwf] at this
    injection this with this
    exact Bool.false_ne_true this
  rw [h1, hvf]

end MK
