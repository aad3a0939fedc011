import Verif.Props.ShippedToy

/-!
# C75, C76: the weights `eta` of the four programs

In all four programs `eta[0] = 1` and `beta`, `v` start from zero, so that the first iteration leaves
`v = 0` (C75).  The weights of the toy programs are those of Nesterov's method, those of lr.go and
lr_minibatch.go are the sequence from which Nesterov's weights are computed (C76).
-/

noncomputable section

namespace MK.Lr

open Finset

variable {K : Type} [Field K]

/-- One step of gradient descent from zero with the sigmoid at zero, `c0`: `γ / n Σ (y_d - c0) z_d`. -/
def firstStep (p : Hyper K) (S : Finset ℕ) (Z : ℕ → ℕ → K) (y : ℕ → K) (c : ℕ) : K :=
  p.gamma / p.batchSize * ∑ d ∈ S, (y d - p.c0) * Z d c

theorem gradOn_zero (p : Hyper K) (F : ℕ) (S : Finset ℕ) (Z : ℕ → ℕ → K) (y : ℕ → K) (c : ℕ) :
    (0 : K) - p.gamma / p.batchSize * gradOn p F S Z y (fun _ => 0) c = firstStep p S Z y c := by
  rw [zero_sub, ← mul_neg, firstStep, gradOn, ← sum_neg_distrib]
  congr 1
  refine sum_congr rfl fun d _ => ?_
  simp only [mul_zero, sum_const_zero, sigma3]
  ring

theorem grad_eq_gradOn (p : Hyper K) (F R : ℕ) (Z : ℕ → ℕ → K) (y : ℕ → K) :
    grad p F R Z y = gradOn p F (range R) Z y := rfl

theorem run_one {p : Hyper K} (h0 : p.eta 0 = 1) (F : ℕ) (S : ℕ → Finset ℕ) (Z : ℕ → ℕ → K)
    (y : ℕ → K) :
    nesterovRun p (fun a => gradOn p F (S a) Z y) 1 (fun _ => 0, fun _ => 0) =
      (firstStep p (S 0) Z y, fun _ => 0) := by
  refine Prod.ext (funext fun c => gradOn_zero p F (S 0) Z y c) (funext fun c => ?_)
  show (1 - p.eta 0) * _ + p.eta 0 * 0 = 0
  rw [h0]; ring

theorem run_two {p : Hyper K} (h0 : p.eta 0 = 1) (F : ℕ) (S : ℕ → Finset ℕ) (Z : ℕ → ℕ → K)
    (y : ℕ → K) :
    nesterovRun p (fun a => gradOn p F (S a) Z y) 2 (fun _ => 0, fun _ => 0) =
      (firstStep p (S 1) Z y, fun c => (1 - p.eta 1) * firstStep p (S 1) Z y c +
        p.eta 1 * firstStep p (S 0) Z y c) := by
  have e : nesterovRun p (fun a => gradOn p F (S a) Z y) 2 (fun _ => 0, fun _ => 0) =
      nesterov p (gradOn p F (S 1) Z y) 1
        (nesterovRun p (fun a => gradOn p F (S a) Z y) 1 (fun _ => 0, fun _ => 0)) := rfl
  rw [e, run_one h0]
  have e1 : ∀ c, (0 : K) - p.gamma / p.batchSize * gradOn p F (S 1) Z y (fun _ => 0) c =
      firstStep p (S 1) Z y c := gradOn_zero p F (S 1) Z y
  unfold nesterov
  simp only [e1]

/-- **C75 (whole batch).** If the same records are used in every iteration, `eta[0] = 1` and training starts
from zero, the second iteration computes `beta` of the first one again: after two iterations `beta` and `v`
are one step of gradient descent, and `t` further iterations go on from there. -/
theorem C75_whole_batch {p : Hyper K} (h0 : p.eta 0 = 1) (F R : ℕ) (Z : ℕ → ℕ → K) (y : ℕ → K) :
    let run := fun t => nesterovRun p (fun _ => grad p F R Z y) t (fun _ => 0, fun _ => 0)
    (run 1).2 = (fun _ => 0) ∧ (run 2).1 = (run 1).1 ∧ (run 2).2 = (run 1).1 ∧
      ∀ c, (run 2).1 c = p.gamma / p.batchSize * ∑ d ∈ range R, (y d - p.c0) * Z d c := by
  have e1 := run_one h0 F (fun _ => range R) Z y
  have e2 := run_two h0 F (fun _ => range R) Z y
  simp only [← grad_eq_gradOn] at e1 e2
  refine ⟨?_, ?_, ?_, fun c => ?_⟩
  · show (nesterovRun p _ 1 _).2 = _
    rw [e1]
  · show (nesterovRun p _ 2 _).1 = (nesterovRun p _ 1 _).1
    rw [e1, e2]
  · show (nesterovRun p _ 2 _).2 = (nesterovRun p _ 1 _).1
    rw [e1, e2]
    funext c
    ring
  · show (nesterovRun p _ 2 _).1 c = _
    rw [e2]
    rfl

/-- **C75 (batches).** If `eta[0] = 1`, `beta` after two iterations does not depend on the records of the
first batch; if also `eta[1] = 0`, nothing does after two or more iterations, unless the batch is used again.
Here `Z`, `y` and `Z'`, `y'` may differ on the records of batch 0 only. -/
theorem C75_first_batch {p : Hyper K} (h0 : p.eta 0 = 1) (F : ℕ) (S : ℕ → Finset ℕ)
    {Z Z' : ℕ → ℕ → K} {y y' : ℕ → K} {T : ℕ}
    (hZ : ∀ a, 0 < a → a < T + 2 → ∀ d ∈ S a, (∀ k, Z d k = Z' d k) ∧ y d = y' d) :
    let run := fun (Z : ℕ → ℕ → K) y t =>
      nesterovRun p (fun a => gradOn p F (S a) Z y) t (fun _ => 0, fun _ => 0)
    (run Z y 2).1 = (run Z' y' 2).1 ∧ (p.eta 1 = 0 → run Z y (T + 2) = run Z' y' (T + 2)) := by
  have hg : ∀ a, 0 < a → a < T + 2 → gradOn p F (S a) Z y = gradOn p F (S a) Z' y' := by
    intro a h1 h2
    funext v c
    refine sum_congr rfl fun d hd => ?_
    obtain ⟨g1, g2⟩ := hZ a h1 h2 d hd
    rw [g2, g1 c, sum_congr rfl fun k _ => by rw [g1 k]]
  have hs : firstStep p (S 1) Z y = firstStep p (S 1) Z' y' := by
    funext c
    rw [← gradOn_zero p F, ← gradOn_zero p F, hg 1 (by norm_num) (by omega)]
  refine ⟨?_, fun h1 => ?_⟩
  · show (nesterovRun p _ 2 _).1 = (nesterovRun p _ 2 _).1
    rw [run_two h0, run_two h0, hs]
  · have key : ∀ t ≤ T, nesterovRun p (fun a => gradOn p F (S a) Z y) (t + 2) (fun _ => 0, fun _ => 0) =
        nesterovRun p (fun a => gradOn p F (S a) Z' y') (t + 2) (fun _ => 0, fun _ => 0) := by
      intro t
      induction t with
      | zero =>
        intro _
        rw [run_two h0, run_two h0, hs, h1]
        simp only [zero_mul]
      | succ t ih =>
        intro ht
        show nesterov p (gradOn p F (S (t + 2)) Z y) _ (nesterovRun p _ (t + 2) _) =
          nesterov p (gradOn p F (S (t + 2)) Z' y') _ (nesterovRun p _ (t + 2) _)
        rw [ih (by omega), hg (t + 2) (by omega) (by omega)]
    exact key T le_rfl

/-! ## The four programs -/

/-- **C75 (lr_toy.go).** With its own parameters, for any such data, keys, samples and iteration orders: the
result comes from a polynomial whose slot 0 holds (up to the computed error) the prediction of a single
gradient step, `beta_c = 3/512 Σ (y_d - 1/2) z_{d,c}`, though two iterations are run. -/
theorem C75_lr_toy {E : Encoder pnCtx (List ℂ)} {prm0 : CPar pnCtx} {rnd : MainRand pnCtx}
    {data0 : List (List ℂ)} {labels : List ℂ} {M κ ε δ : ℝ} (h : PnOk E prm0 rnd 1 M ε δ)
    {sq : ℝ → ℝ} (hsq : SqrtOk sq) (hd : ToyData data0 labels 512 M κ) :
    ∃ data, NearNormalised (514 * κ ^ 3 / 2 ^ 45) 512 512 20 2000 toyCols data0 data ∧
    ∃ out, lrToyMain E prm0 sq 15 toyCfg rnd data0 labels = .ok out ∧
      ∃ vr : AVal toyCfg.slotNum,
        mainInferVal (mainPar prm0 15 rnd) toyCfg data labels (2 * 0x80000000080001) 19
          (freshErr pnCtx (2 ^ 38) 19 ε) = some vr ∧ Reads E vr out.result ∧
        let x := ∑ j ∈ range 20, entry data 1935 j *
          (3 / 512 * ∑ d ∈ range 512, (target (· = 0) (labels.getD d 0) - 1 / 2) * entry data d j)
        vr.x 0 = -15 / 10000 * x ^ 3 + 15 / 100 * x + 1 / 2 := by
  obtain ⟨data, hn, out, h1, -, vr, h2, -, h3, h4, -⟩ := C54_shipped h hsq hd
  refine ⟨data, hn, out, h1, vr, h2, h4, ?_⟩
  have hb := (C75_whole_batch (p := toyHyper 512) (by simp [toyHyper, toyEta]) 20 512 (entry data)
    fun i => target (· = 0) (labels.getD i 0)).2.2.2
  simp only at hb ⊢
  rw [h3, sum_congr rfl fun j _ => by rw [hb j]]
  simp [sigma3, toyHyper]

/-- **C75 (lr.go).** With its own parameters: the four numbers printed in the first two iterations come from
polynomials that hold (up to the computed errors) `b, 0` and then `b, b`, where `b` is a single gradient
step: the second iteration repeats the first. -/
theorem C75_lr {E : Encoder pnCtx (List ℂ)} {prm0 : CPar pnCtx} {rnd : MainRand pnCtx}
    {data : List (List ℂ)} {labels : List ℂ} {M ε δ : ℝ} (h : LrOk E prm0 rnd data labels M ε δ) :
    ∃ out, lrMain E prm0 15 lrCfg rnd data labels = .ok out ∧
      let b := fun c => if c < 7 then 3 / 20480 * ∑ d ∈ range 2048,
        (target (· = 0) (labels.getD d 0) - 1 / 2) * entry data d c else 0
      ∃ (vb vv vb' vv' : AVal lrCfg.slotNum) (bd vd bd' vd' : List ℂ),
        out.prints[0]? = some (bd.take 2, vd.take 2) ∧ out.prints[1]? = some (bd'.take 2, vd'.take 2) ∧
        Reads E vb bd ∧ Reads E vv vd ∧ Reads E vb' bd' ∧ Reads E vv' vd' ∧
        Replicated 8 vb.x b ∧ Replicated 8 vv.x (fun _ => 0) ∧ Replicated 8 vb'.x b ∧
        Replicated 8 vv'.x b ∧
        mainTrainVal (mainPar prm0 15 rnd) lrCfg data labels (2 * 0x80000000080001) 19
          (freshErr pnCtx (2 ^ 38) 19 ε) 1 = some (vb, vv) ∧
        mainTrainVal (mainPar prm0 15 rnd) lrCfg data labels (2 * 0x80000000080001) 19
          (freshErr pnCtx (2 ^ 38) 19 ε) 2 = some (vb', vv') := by
  obtain ⟨out, h1, -, hp, -⟩ := C51_shipped h
  refine ⟨out, h1, ?_⟩
  obtain ⟨vb, vv, bd, vd, -, -, r1, r2, t1, s1, s2, p1⟩ := hp 0 (by norm_num)
  obtain ⟨vb', vv', bd', vd', -, -, r3, r4, t2, s3, s4, p2⟩ := hp 1 (by norm_num)
  obtain ⟨e1, e2, e3, e4⟩ := C75_whole_batch (p := lrHyper) (by show ((1 : ℚ) : ℂ) = 1; norm_num) 7 2048
    (entry data) fun i => target (· = 0) (labels.getD i 0)
  have hb : ∀ c, (plainTrain lrCfg data labels 2).1 c = 3 / 20480 * ∑ d ∈ range 2048,
      (target (· = 0) (labels.getD d 0) - 1 / 2) * entry data d c := by
    intro c
    refine (e4 c).trans ?_
    show ((3 / 10 : ℚ) : ℂ) / ((2048 : ℕ) : ℂ) * _ = _
    have : lrHyper.c0 = 1 / 2 := by show ((1 / 2 : ℚ) : ℂ) = _; norm_num
    rw [this, show ((3 / 10 : ℚ) : ℂ) / ((2048 : ℕ) : ℂ) = 3 / 20480 by norm_num]
  have g1 : (plainTrain lrCfg data labels 1).2 = fun _ => 0 := e1
  have g2 : (plainTrain lrCfg data labels 1).1 = (plainTrain lrCfg data labels 2).1 := e2.symm
  have g3 : (plainTrain lrCfg data labels 2).2 = (plainTrain lrCfg data labels 2).1 := e3.trans e2.symm
  simp only [zero_add, Nat.reduceAdd] at r1 r2 r3 r4 t1 t2
  rw [g2] at r1
  rw [g1] at r2
  rw [g3] at r4
  simp only [hb, ite_self] at r1 r2 r3 r4
  exact ⟨vb, vv, vb', vv', bd, vd, bd', vd', p1, p2, s1, s2, s3, s4, r1, r2, r3, r4, t1, t2⟩

theorem neg_step (a b c : ℂ) : -((a - b) * c) = (b - a) * c := by ring

theorem sigma3_toy (n : ℕ) (x : ℂ) : sigma3 (toyHyper n) x = -15 / 10000 * x ^ 3 + 15 / 100 * x + 1 / 2 := by
  simp [sigma3, toyHyper]

/-- Three iterations of lr_minibatch_toy.go are two steps of plain gradient descent. -/
theorem mbToy_run (Z : ℕ → ℕ → ℂ) (y : ℕ → ℂ) :
    let s := fun x : ℂ => -15 / 10000 * x ^ 3 + 15 / 100 * x + 1 / 2
    let b := fun c => 3 / 128 * ∑ d ∈ Ico 128 256, (y d - 1 / 2) * Z d c
    (nesterovRun (toyHyper 128) (fun a => gradOn (toyHyper 128) 20 (Ico (128 * a) (128 * a + 128)) Z y) 3
      (fun _ => 0, fun _ => 0)).1 = fun c => b c + 3 / 128 * ∑ d ∈ Ico 256 384,
        (y d - s (∑ k ∈ range 20, Z d k * b k)) * Z d c := by
  intro s b
  have h128 : (toyHyper 128).gamma / (toyHyper 128).batchSize = 3 / 128 := by simp [toyHyper]
  have hb : firstStep (toyHyper 128) (Ico 128 256) Z y = b := by
    funext c
    rw [firstStep, h128]
    have : (toyHyper 128).c0 = 1 / 2 := by simp [toyHyper]
    rw [this]
  have e2 := run_two (p := toyHyper 128) (by simp [toyHyper, toyEta]) 20
    (fun a => Ico (128 * a) (128 * a + 128)) Z y
  have h1' : (toyHyper 128).eta 1 = 0 := by simp [toyHyper, toyEta]
  simp only [Nat.reduceMul, Nat.reduceAdd, h1', sub_zero, one_mul, zero_mul, add_zero, hb] at e2
  show (nesterov (toyHyper 128) (gradOn (toyHyper 128) 20 (Ico 256 384) Z y) 2
    (nesterovRun _ _ 2 _)).1 = _
  rw [e2]
  funext c
  show b c - (toyHyper 128).gamma / (toyHyper 128).batchSize * gradOn _ _ _ _ _ _ c = _
  rw [h128, gradOn]
  simp only [sigma3_toy, s]
  rw [sub_eq_add_neg, ← mul_neg, ← sum_neg_distrib, sum_congr rfl fun d _ => neg_step _ _ _]

/-- **C75 (lr_minibatch_toy.go).** With its own parameters: the result of every record comes from a polynomial
whose slot 0 holds (up to the computed error) the prediction of two steps of plain gradient descent, on the
records 128 to 255 and 256 to 383: of the 512 records that are encrypted and trained on, the first 128 and
the last 128 count for nothing but the normalisation. -/
theorem C75_mb_toy {E : Encoder pnCtx (List ℂ)} {prm0 : CPar pnCtx} {rnd : MainRand pnCtx}
    {data0 : List (List ℂ)} {labels : List ℂ} {M κ ε δ : ℝ} (h : PnOk E prm0 rnd 4 M ε δ)
    {sq : ℝ → ℝ} (hsq : SqrtOk sq) (hd : ToyData data0 labels 511 M κ) :
    ∃ data, NearNormalised (514 * κ ^ 3 / 2 ^ 45) 512 511 20 2000 toyCols data0 data ∧
    ∃ out, mbToyMain E prm0 sq 15 mbToyCfg rnd data0 labels = .ok out ∧
      let y := fun d => target (goInt · = 0) (labels.getD d 0)
      let s := fun x : ℂ => -15 / 10000 * x ^ 3 + 15 / 100 * x + 1 / 2
      let b := fun c => 3 / 128 * ∑ d ∈ Ico 128 256, (y d - 1 / 2) * entry data d c
      let b' := fun c => b c + 3 / 128 * ∑ d ∈ Ico 256 384,
        (y d - s (∑ k ∈ range 20, entry data d k * b k)) * entry data d c
      ∀ i < 2000, ∃ (vr : AVal mbToyCfg.numSlots) (o : List ℂ),
        mbInferVal (mainPar prm0 15 rnd) (mbToyCfg.at i) data labels (2 * 0x80000000080001) 19
          (freshErr pnCtx (2 ^ 38) 19 ε) = some vr ∧
        out.results[i]? = some o ∧ Reads E vr o ∧
        vr.x 0 = s (∑ j ∈ range 20, entry data i j * b' j) := by
  obtain ⟨data, hn, out, h1, -, -, -, h2, -⟩ := C55_shipped h hsq hd
  refine ⟨data, hn, out, h1, ?_⟩
  intro y s b b' i hi
  obtain ⟨vr, o, g1, -, g2, g3, g4⟩ := h2 i hi
  refine ⟨vr, o, g1, g3, g4, g2.trans ?_⟩
  rw [sigma3_toy, mbToy_run]

/-- **C75 (lr_minibatch.go).** With its own parameters: the first two iterations print slots of polynomials
holding (up to the computed errors) `b_0, 0` and `b_1, 1.61803 b_0 - 0.61803 b_1`, where `b_a` is a single
gradient step on batch `a` alone: `beta` after two iterations does not depend on batch 0. -/
theorem C75_mb {E : Encoder pnCtx (List ℂ)} {prm0 : CPar pnCtx} {rnd : MainRand pnCtx}
    {data : List (List ℂ)} {labels : List ℂ} {M ε δ : ℝ} (h : MbLrOk E prm0 rnd data labels M ε δ) :
    ∃ out, mbMain E prm0 15 mbCfg rnd data labels = .ok out ∧
      let b := fun a c => if c < 7 then 3 / 5120 * ∑ d ∈ Ico (512 * a) (512 * a + 512),
        (target (· = 0) (labels.getD d 0) - 1 / 2) * entry data d c else 0
      ∃ (vb vv vb' vv' : AVal mbCfg.numSlots) (bd vd bd' vd' : List ℂ),
        out.prints[0]? = some (bd.take 2, vd.take 2) ∧ out.prints[1]? = some (bd'.take 2, vd'.take 2) ∧
        Reads E vb bd ∧ Reads E vv vd ∧ Reads E vb' bd' ∧ Reads E vv' vd' ∧
        Replicated 8 vb.x (b 0) ∧ Replicated 8 vv.x (fun _ => 0) ∧ Replicated 8 vb'.x (b 1) ∧
        Replicated 8 vv'.x (fun c => 161803 / 100000 * b 0 c - 61803 / 100000 * b 1 c) ∧
        mbMainVal (mainPar prm0 15 rnd) mbCfg data labels (2 * 0x80000000080001) 19
          (freshErr pnCtx (2 ^ 38) 19 ε) 1 = some (vb, vv) ∧
        mbMainVal (mainPar prm0 15 rnd) mbCfg data labels (2 * 0x80000000080001) 19
          (freshErr pnCtx (2 ^ 38) 19 ε) 2 = some (vb', vv') := by
  obtain ⟨out, h1, -, hp, -⟩ := C52_shipped h
  refine ⟨out, h1, ?_⟩
  intro b
  obtain ⟨vb, vv, bd, vd, -, -, ⟨r1, r2⟩, t1, s1, s2, p1⟩ := hp 0 (by norm_num)
  obtain ⟨vb', vv', bd', vd', -, -, ⟨r3, r4⟩, t2, s3, s4, p2⟩ := hp 1 (by norm_num)
  have h0 : mbHyper.eta 0 = 1 := by show ((1 : ℚ) : ℂ) = 1; norm_num
  have hη : mbHyper.eta 1 = 161803 / 100000 := by show ((161803 / 100000 : ℚ) : ℂ) = _; norm_num
  have hf : ∀ a c, c < 7 → firstStep mbHyper (Ico (512 * a) (512 * a + 512)) (entry data)
      (fun d => target (· = 0) (labels.getD d 0)) c = b a c := by
    intro a c hc
    have e1 : mbHyper.gamma / mbHyper.batchSize = 3 / 5120 := by
      show ((3 / 10 : ℚ) : ℂ) / ((512 : ℕ) : ℂ) = _
      norm_num
    have e2 : mbHyper.c0 = 1 / 2 := by show ((1 / 2 : ℚ) : ℂ) = _; norm_num
    rw [firstStep, e1, e2]
    simp only [b, if_pos hc]
  have e1 := run_one h0 7 (fun a => Ico (512 * a) (512 * a + 512)) (entry data)
    (fun d => target (· = 0) (labels.getD d 0))
  have e2 := run_two h0 7 (fun a => Ico (512 * a) (512 * a + 512)) (entry data)
    (fun d => target (· = 0) (labels.getD d 0))
  have hz : ∀ a c, ¬c < 7 → b a c = 0 := fun a c hc => if_neg hc
  refine ⟨vb, vv, vb', vv', bd, vd, bd', vd', p1, p2, s1, s2, s3, s4, fun i => ?_, fun i => ?_,
    fun i => ?_, fun i => ?_, t1, t2⟩
  · rw [r1 i, e1]
    beta_reduce
    split
    · next hc => exact hf 0 _ hc
    · next hc => exact (hz 0 _ hc).symm
  · rw [r2 i, e1]
    beta_reduce
    split <;> rfl
  · rw [r3 i, e2]
    beta_reduce
    split
    · next hc => exact hf 1 _ hc
    · next hc => exact (hz 1 _ hc).symm
  · rw [r4 i, e2]
    beta_reduce
    split
    · next hc =>
      simp only
      rw [hf 0 _ hc, hf 1 _ hc, hη]
      ring
    · next hc => rw [hz 0 _ hc, hz 1 _ hc]; ring

/-! ## C76: Nesterov's weights -/

/-- Nesterov's sequence: `λ_0 = 0`, `λ_{t+1} = (1 + √(1 + 4 λ_t²)) / 2`. -/
def nesLambda : ℕ → ℝ
  | 0 => 0
  | t + 1 => (1 + Real.sqrt (1 + 4 * nesLambda t ^ 2)) / 2

/-- Nesterov's weight of the old iterate in step `t`: `(1 - λ_t) / λ_{t+1}`. -/
def nesWeight (t : ℕ) : ℝ := (1 - nesLambda t) / nesLambda (t + 1)

theorem sqrt_mem {x a b : ℝ} (hb : 0 ≤ b) (h1 : a ^ 2 ≤ x) (h2 : x ≤ b ^ 2) :
    a ≤ Real.sqrt x ∧ Real.sqrt x ≤ b :=
  ⟨Real.le_sqrt_of_sq_le h1, (Real.sqrt_le_left hb).mpr h2⟩

theorem nesLambda_one : nesLambda 1 = 1 := by
  show (1 + Real.sqrt (1 + 4 * (0 : ℝ) ^ 2)) / 2 = 1
  norm_num

theorem nesLambda_next {t : ℕ} {a b c d : ℝ} (hb : b ≤ nesLambda t ∧ nesLambda t ≤ c)
    (h0 : 0 ≤ b) (h1 : (2 * a - 1) ^ 2 ≤ 1 + 4 * b ^ 2) (h2 : 1 + 4 * c ^ 2 ≤ (2 * d - 1) ^ 2)
    (hd' : 0 ≤ 2 * d - 1) :
    a ≤ nesLambda (t + 1) ∧ nesLambda (t + 1) ≤ d := by
  have hb2 : b ^ 2 ≤ nesLambda t ^ 2 := pow_le_pow_left₀ h0 hb.1 2
  have hc2 : nesLambda t ^ 2 ≤ c ^ 2 := pow_le_pow_left₀ (h0.trans hb.1) hb.2 2
  obtain ⟨g1, g2⟩ := sqrt_mem (x := 1 + 4 * nesLambda t ^ 2) (a := 2 * a - 1) hd' (by linarith) (by linarith)
  constructor
  · show a ≤ (1 + Real.sqrt (1 + 4 * nesLambda t ^ 2)) / 2
    linarith
  · show (1 + Real.sqrt (1 + 4 * nesLambda t ^ 2)) / 2 ≤ d
    linarith

theorem nesLambda_two : (1.6180339 : ℝ) ≤ nesLambda 2 ∧ nesLambda 2 ≤ 1.618034 :=
  nesLambda_next (t := 1) (b := 1) (c := 1) ⟨by rw [nesLambda_one], by rw [nesLambda_one]⟩
    (by norm_num) (by norm_num) (by norm_num) (by norm_num)

theorem nesLambda_three : (2.193527 : ℝ) ≤ nesLambda 3 ∧ nesLambda 3 ≤ 2.193528 :=
  nesLambda_next (t := 2) nesLambda_two (by norm_num)
    (by norm_num) (by norm_num) (by norm_num)

theorem nesLambda_four : (2.749791 : ℝ) ≤ nesLambda 4 ∧ nesLambda 4 ≤ 2.749793 :=
  nesLambda_next (t := 3) nesLambda_three (by norm_num)
    (by norm_num) (by norm_num) (by norm_num)

/-- **C76 (toy programs).** `eta[t]` of lr_toy.go and lr_minibatch_toy.go is Nesterov's weight
`(1 - λ_t) / λ_{t+1}` to five decimals, `eta[0]` and `eta[1]` exactly. -/
theorem C76_toy (t : ℕ) (ht : t < 4) (b : ℕ) :
    ∃ q : ℝ, (toyHyper b).eta t = (q : ℂ) ∧ |q - nesWeight t| ≤ 5 / 10 ^ 6 ∧ (t < 2 → q = nesWeight t) := by
  have e : ∀ q : ℚ, ((q : ℚ) : ℂ) = ((q : ℝ) : ℂ) := fun q => by push_cast; rfl
  have h2 := nesLambda_two
  have h3 := nesLambda_three
  have h4 := nesLambda_four
  have w0 : nesWeight 0 = 1 := by
    rw [nesWeight, nesLambda_one]
    show (1 - 0) / 1 = (1 : ℝ)
    norm_num
  have w1 : nesWeight 1 = 0 := by rw [nesWeight, nesLambda_one, sub_self, zero_div]
  refine ⟨(toyEta t : ℝ), e _, ?_⟩
  match t, ht with
  | 0, _ => rw [w0]; norm_num [toyEta]
  | 1, _ => rw [w1]; norm_num [toyEta]
  | 2, _ =>
    refine ⟨?_, by norm_num⟩
    have hp : 0 < nesLambda 3 := by linarith [h3.1]
    rw [nesWeight, abs_le]
    constructor
    · have : (1 - nesLambda 2) / nesLambda 3 ≤ -28175 / 100000 + 5 / 10 ^ 6 := by
        rw [div_le_iff₀ hp]; norm_num at *; linarith [h2.1, h2.2, h3.1, h3.2]
      push_cast [toyEta]; linarith
    · have : -28175 / 100000 - 5 / 10 ^ 6 ≤ (1 - nesLambda 2) / nesLambda 3 := by
        rw [le_div_iff₀ hp]; norm_num at *; linarith [h2.1, h2.2, h3.1, h3.2]
      push_cast [toyEta]; linarith
  | 3, _ =>
    refine ⟨?_, by norm_num⟩
    have hp : 0 < nesLambda 4 := by linarith [h4.1]
    rw [nesWeight, abs_le]
    constructor
    · have : (1 - nesLambda 3) / nesLambda 4 ≤ -43404 / 100000 + 5 / 10 ^ 6 := by
        rw [div_le_iff₀ hp]; norm_num at *; linarith [h4.1, h4.2, h3.1, h3.2]
      push_cast [toyEta]; linarith
    · have : -43404 / 100000 - 5 / 10 ^ 6 ≤ (1 - nesLambda 3) / nesLambda 4 := by
        rw [le_div_iff₀ hp]; norm_num at *; linarith [h4.1, h4.2, h3.1, h3.2]
      push_cast [toyEta]; linarith

/-- **C76 (lr.go, lr_minibatch.go).** Their `eta[t]` is `λ_{t+1}` to five decimals, not the weight
`(1 - λ_t) / λ_{t+1}`: from iteration 1 on it is off by more than 1.6. -/
theorem C76_lr (t : ℕ) (ht : t < 4) :
    ∃ q : ℝ, lrHyper.eta t = (q : ℂ) ∧ mbHyper.eta t = (q : ℂ) ∧ |q - nesLambda (t + 1)| ≤ 5 / 10 ^ 6 ∧
      (0 < t → 1.6 < q - nesWeight t) := by
  have e : ∀ q : ℚ, ((q : ℚ) : ℂ) = ((q : ℝ) : ℂ) := fun q => by push_cast; rfl
  have h2 := nesLambda_two
  have h3 := nesLambda_three
  have h4 := nesLambda_four
  match t, ht with
  | 0, _ =>
    refine ⟨((1 : ℚ) : ℝ), e _, e _, ?_, by norm_num⟩
    rw [nesLambda_one]; norm_num
  | 1, _ =>
    refine ⟨((161803 / 100000 : ℚ) : ℝ), e _, e _, ?_, fun _ => ?_⟩
    · rw [abs_le]; push_cast; norm_num at *; constructor <;> linarith [h2.1, h2.2]
    · rw [nesWeight, nesLambda_one]; norm_num
  | 2, _ =>
    refine ⟨((2193527 / 1000000 : ℚ) : ℝ), e _, e _, ?_, fun _ => ?_⟩
    · rw [abs_le]; push_cast; norm_num at *; constructor <;> linarith [h3.1, h3.2]
    · have : nesWeight 2 ≤ 0 := div_nonpos_of_nonpos_of_nonneg (by linarith [h2.1]) (by linarith [h3.1])
      push_cast; norm_num; linarith
  | 3, _ =>
    refine ⟨((274979 / 100000 : ℚ) : ℝ), e _, e _, ?_, fun _ => ?_⟩
    · rw [abs_le]; push_cast; norm_num at *; constructor <;> linarith [h4.1, h4.2]
    · have : nesWeight 3 ≤ 0 := div_nonpos_of_nonpos_of_nonneg (by linarith [h3.1]) (by linarith [h4.1])
      push_cast; norm_num; linarith

/-- **C76 (momentum).** With the new and the old `beta`, a step of the toy programs from iteration 1 on moves
`v` beyond the new one, `v = beta' + μ (beta' - beta)` with `0 ≤ μ < 1`; a step of lr.go and
lr_minibatch.go moves it back behind the old one, `v = beta - ν (beta' - beta)` with `ν > 0.6`. -/
theorem C76_momentum {p : Hyper ℂ} (G : (ℕ → ℂ) → ℕ → ℂ) (t : ℕ) (h0 : 0 < t) (ht : t < 4)
    (st : (ℕ → ℂ) × (ℕ → ℂ)) :
    ((∀ a, p.eta a = (toyHyper 1).eta a) → ∃ μ : ℝ, 0 ≤ μ ∧ μ < 1 ∧ ∀ c,
      (nesterov p G t st).2 c = (nesterov p G t st).1 c + μ * ((nesterov p G t st).1 c - st.1 c)) ∧
    ((∀ a, p.eta a = lrHyper.eta a) → ∃ ν : ℝ, 0.6 < ν ∧ ∀ c,
      (nesterov p G t st).2 c = st.1 c - ν * ((nesterov p G t st).1 c - st.1 c)) := by
  have key : ∀ c, (nesterov p G t st).2 c = (1 - p.eta t) * (nesterov p G t st).1 c +
    p.eta t * st.1 c := fun c => rfl
  have e : ∀ q : ℚ, ((q : ℚ) : ℂ) = ((q : ℝ) : ℂ) := fun q => by push_cast; rfl
  constructor
  · intro h
    refine ⟨-(toyEta t : ℝ), ?_, ?_, fun c => ?_⟩
    · match t, h0, ht with
      | 1, _, _ => norm_num [toyEta]
      | 2, _, _ => norm_num [toyEta]
      | 3, _, _ => norm_num [toyEta]
    · match t, h0, ht with
      | 1, _, _ => norm_num [toyEta]
      | 2, _, _ => norm_num [toyEta]
      | 3, _, _ => norm_num [toyEta]
    · rw [key, h, show (toyHyper 1).eta t = ((toyEta t : ℝ) : ℂ) from e _]
      push_cast
      ring
  · intro h
    have : ∃ q : ℝ, lrHyper.eta t = (q : ℂ) ∧ 1.6 < q := by
      match t, h0, ht with
      | 1, _, _ => exact ⟨((161803 / 100000 : ℚ) : ℝ), e _, by norm_num⟩
      | 2, _, _ => exact ⟨((2193527 / 1000000 : ℚ) : ℝ), e _, by norm_num⟩
      | 3, _, _ => exact ⟨((274979 / 100000 : ℚ) : ℝ), e _, by norm_num⟩
    obtain ⟨q, hq, hq'⟩ := this
    refine ⟨q - 1, by norm_num at *; linarith, fun c => ?_⟩
    rw [key, h, hq]
    push_cast
    ring

end MK.Lr
