import Verif.Props.Det
import Verif.Props.IeeeNorm
import Verif.Props.ShippedToy

/-!
# C67: the programs on double precision

The theorems about the programs (C51 – C55, C62, C63) use a rounding with a relative error on all
rationals.  Double precision has one on its normal range only.  Nothing that the programs round leaves that
range: with double precision they print what they print with unbounded exponents.
-/

noncomputable section

namespace MK.Lr

open Finset

attribute [local irreducible] setupCRS

variable {C : Ctx} {E : Encoder C (List ℂ)} {M ε δ : ℝ}

/-- The same parameters with the exponents of float64 unbounded. -/
def _root_.MK.CPar.ideal (prm : CPar C) : CPar C := prm.withFl prm.fl.total

theorem ideal_same {prm0 : CPar C} {p : Hyper ℂ} (hG : prm0.fl.Ieee) (hq : ∀ i < C.nQ, C.q i ≤ 2 ^ 64)
    (hs : prm0.scale ≤ 2 ^ 64) (hp : HyperRange p) : FlSame prm0.ideal p prm0.fl :=
  FlSame.of_agree (prm := prm0.ideal) hG.total_ok prm0.fl.agree_total hq hs hp

/-- **C67 (lr.go).** Moduli and scale of at most 64 bits, hyperparameters that are not extreme: with double
precision `main` prints what it prints with unbounded exponents (in whatever order maps are visited). -/
theorem C67_lr_main {prm0 : CPar C} {logN : ℕ} {cfg : MainCfg} {rnd : MainRand C}
    {data : List (List ℂ)} {labels : List ℂ} {r : ℚ} {K : ℕ} {D B : ℤ} (hG : prm0.fl.Ieee)
    (hq : ∀ i < C.nQ, C.q i ≤ 2 ^ 64) (hs : prm0.scale ≤ 2 ^ 64) (hp : HyperRange cfg.hp)
    (h : MainOk E prm0.ideal logN cfg rnd data labels r K D B M ε δ) :
    ∃ out, lrMain E prm0.ideal logN cfg rnd data labels = .ok out ∧ ∀ ids sch dec,
      lrMain E prm0 logN cfg (rnd.reorder ids sch dec) data labels = .ok out := by
  obtain ⟨out, ho⟩ := lr_main_same h
  exact ⟨out, ho _ (FlSame.refl _ _) rnd.ids rnd.sch rnd.dec, ho _ (ideal_same hG hq hs hp)⟩

/-- **C67 (lr_toy.go).** The same for the toy program on a table of ordinary numbers. -/
theorem C67_toy_main {prm0 : CPar C} {sq : ℝ → ℝ} {logN : ℕ} {cfg : MainCfg} {rnd : MainRand C}
    {data0 data : List (List ℂ)} {labels : List ℂ} {r : ℚ} {K : ℕ} {D B : ℤ} (hG : prm0.fl.Ieee)
    (hsq : SqrtOk sq) (hq : ∀ i < C.nQ, C.q i ≤ 2 ^ 64) (hs : prm0.scale ≤ 2 ^ 64) (hp : HyperRange cfg.hp)
    (hraw : ∀ i, i < cfg.hp.batchSize ∨ i < cfg.numData → ∀ j < cfg.numFeature, toyCols j = true →
      RawOk (entry data0 i j).re) (hb : cfg.hp.batchSize ≤ 2 ^ 50)
    (hnorm : normalise prm0.ideal.fl sq cfg.hp.batchSize cfg.hp.batchSize cfg.numFeature cfg.numData toyCols
      data0 = .ok data)
    (_hstd : ∀ j < cfg.numFeature, toyCols j = true →
      flStd prm0.ideal.fl sq data0 cfg.hp.batchSize cfg.hp.batchSize j ≠ 0)
    (h : MainOk E prm0.ideal logN cfg rnd data labels r K D B M ε δ) (h210 : 210 ≤ cfg.slotNum) :
    ∃ out, lrToyMain E prm0.ideal sq logN cfg rnd data0 labels = .ok out ∧ ∀ ids sch dec,
      lrToyMain E prm0 sq logN cfg (rnd.reorder ids sch dec) data0 labels = .ok out := by
  obtain ⟨out, ho⟩ := toy_main_same (sq := sq) (data0 := data0) h h210
  refine ⟨out, ho _ (FlSame.refl _ _) hnorm rnd.ids rnd.sch rnd.dec, ho _ (ideal_same hG hq hs hp) ?_⟩
  obtain ⟨h1, h2⟩ := C53_ok_iff.mp ⟨data, hnorm⟩
  rw [← hnorm]
  exact C67_normalise hG hsq h1 h2 hp.batch.1 hb hp.batch.1 hb hraw

/-- **C67 (lr_minibatch.go).** -/
theorem C67_mb_main {prm0 : CPar C} {logN : ℕ} {cfg : MbCfg} {rnd : MainRand C}
    {data : List (List ℂ)} {labels : List ℂ} {r : ℚ} {K : ℕ} {D B : ℤ} (hG : prm0.fl.Ieee)
    (hq : ∀ i < C.nQ, C.q i ≤ 2 ^ 64) (hs : prm0.scale ≤ 2 ^ 64) (hp : HyperRange cfg.hp)
    (h : MbOk E prm0.ideal logN cfg rnd data labels r K D B M ε δ) :
    ∃ out, mbMain E prm0.ideal logN cfg rnd data labels = .ok out ∧ ∀ ids sch dec,
      mbMain E prm0 logN cfg (rnd.reorder ids sch dec) data labels = .ok out := by
  obtain ⟨out, ho⟩ := mb_main_same h
  exact ⟨out, ho _ (FlSame.refl _ _) rnd.ids rnd.sch rnd.dec, ho _ (ideal_same hG hq hs hp)⟩

/-- **C67 (lr_minibatch_toy.go).** -/
theorem C67_mb_toy_main {prm0 : CPar C} {sq : ℝ → ℝ} {logN : ℕ} {cfg : MbCfg} {rnd : MainRand C}
    {data0 data : List (List ℂ)} {labels : List ℂ} {r : ℚ} {K : ℕ} {D B : ℤ} (hG : prm0.fl.Ieee)
    (hsq : SqrtOk sq) (hq : ∀ i < C.nQ, C.q i ≤ 2 ^ 64) (hs : prm0.scale ≤ 2 ^ 64) (hp : HyperRange cfg.hp)
    (hraw : ∀ i, i < cfg.numTrain ∨ i < cfg.numData → ∀ j < cfg.numFeature, toyCols j = true →
      RawOk (entry data0 i j).re) (hb2 : 2 ≤ cfg.numTrain) (hb : cfg.numTrain ≤ 2 ^ 50)
    (hnorm : normalise prm0.ideal.fl sq cfg.numTrain (cfg.numTrain - 1) cfg.numFeature cfg.numData toyCols
      data0 = .ok data)
    (_hstd : ∀ j < cfg.numFeature, toyCols j = true →
      flStd prm0.ideal.fl sq data0 cfg.numTrain (cfg.numTrain - 1) j ≠ 0)
    (h : MbOk E prm0.ideal logN cfg rnd data labels r K D B M ε δ) :
    ∃ out, mbToyMain E prm0.ideal sq logN cfg rnd data0 labels = .ok out ∧ ∀ ids sch dec,
      mbToyMain E prm0 sq logN cfg (rnd.reorder ids sch dec) data0 labels = .ok out := by
  obtain ⟨out, ho⟩ := mb_toy_main_same (sq := sq) (data0 := data0) h
  refine ⟨out, ho _ (FlSame.refl _ _) hnorm rnd.ids rnd.sch rnd.dec, ho _ (ideal_same hG hq hs hp) ?_⟩
  obtain ⟨h1, h2⟩ := C53_ok_iff.mp ⟨data, hnorm⟩
  rw [← hnorm]
  have e : (cfg.numTrain : ℝ) - 1 = ((cfg.numTrain - 1 : ℕ) : ℝ) := by
    rw [Nat.cast_sub (by omega)]; simp
  rw [e]
  exact C67_normalise hG hsq h1 h2 (by omega) hb (by omega) (by omega) hraw

/-! ## The shipped programs -/

theorem rc_rat {k : ℕ} (q : ℚ) (h : q = 0 ∨ (1 / 2 ^ k ≤ |q| ∧ |q| ≤ 2 ^ k)) : Rc k (q : ℂ) := by
  have e : ‖(q : ℂ)‖ = ((|q| : ℚ) : ℝ) := by
    have : (q : ℂ) = ((q : ℝ) : ℂ) := by push_cast; rfl
    rw [this, Complex.norm_real, Real.norm_eq_abs]; push_cast; rfl
  rcases h with rfl | ⟨h1, h2⟩
  · left; simp
  · right
    rw [e]
    have h1' : (((1 / 2 ^ k : ℚ)) : ℝ) ≤ ((|q| : ℚ) : ℝ) := Rat.cast_le.mpr h1
    refine ⟨?_, by exact_mod_cast h2⟩
    rw [Rat.cast_div, Rat.cast_pow] at h1'
    simpa only [Rat.cast_one, Rat.cast_ofNat] using h1'

theorem hyper_range {p : Hyper ℂ} {g c1 c3 c0 : ℚ} {eta : ℕ → ℚ} (hg : p.gamma = (g : ℂ))
    (h1 : p.c1 = (c1 : ℂ)) (h3 : p.c3 = (c3 : ℂ)) (h0 : p.c0 = (c0 : ℂ)) (he : ∀ t, p.eta t = (eta t : ℂ))
    (rg : 1 / 2 ^ 40 ≤ |g| ∧ |g| ≤ 1000) (r1 : 1 / 2 ^ 40 ≤ |c1| ∧ |c1| ≤ 1000)
    (r3 : 1 / 2 ^ 40 ≤ |c3| ∧ |c3| ≤ 1000) (r0 : 1 / 2 ^ 40 ≤ |c0| ∧ |c0| ≤ 1000)
    (r0' : 1 / 2 ^ 40 ≤ |c0 - 1|)
    (re : ∀ t, (eta t = 0 ∨ 1 / 2 ^ 40 ≤ |eta t|) ∧ |eta t| ≤ 1000 ∧
      (eta t = 1 ∨ 1 / 2 ^ 40 ≤ |eta t - 1|)) (hb : 1 ≤ p.batchSize ∧ p.batchSize ≤ 2 ^ 53) :
    HyperRange p := by
  have e : ∀ q : ℚ, ‖(q : ℂ)‖ = ((|q| : ℚ) : ℝ) := fun q => by
    have : (q : ℂ) = ((q : ℝ) : ℂ) := by push_cast; rfl
    rw [this, Complex.norm_real, Real.norm_eq_abs]; push_cast; rfl
  have lo : ∀ q : ℚ, 1 / 2 ^ 40 ≤ |q| → (1 / 2 ^ 40 : ℝ) ≤ ‖(q : ℂ)‖ := fun q h => by
    rw [e]
    have : (((1 / 2 ^ 40 : ℚ)) : ℝ) ≤ ((|q| : ℚ) : ℝ) := Rat.cast_le.mpr h
    refine le_trans (le_of_eq ?_) this
    norm_num
  have hi : ∀ q : ℚ, |q| ≤ 1000 → ‖(q : ℂ)‖ ≤ 1000 := fun q h => by rw [e]; exact_mod_cast h
  have w : ∀ q : ℚ, 1 / 2 ^ 40 ≤ |q| ∧ |q| ≤ 1000 → Rc 100 (q : ℂ) := fun q h =>
    rc_rat q (Or.inr ⟨le_trans (by norm_num) h.1, h.2.trans (by norm_num)⟩)
  refine ⟨?_, ?_, ?_, ?_, ?_, ?_, ?_, hb⟩
  · rw [hg]; exact w g rg
  · rw [h1]; exact w c1 r1
  · rw [h3]; exact w c3 r3
  · rw [h0]; exact hi _ r0.2
  · rintro y (rfl | rfl)
    · right; rw [h0, sub_zero]; exact lo _ r0.1
    · right
      have := lo _ r0'
      rw [h0]
      push_cast at this ⊢
      exact this
  · intro t
    rw [he]
    obtain ⟨a, b, -⟩ := re t
    rcases a with a | a
    · rw [a]; left; simp
    · exact w _ ⟨a, b⟩
  · intro t
    rw [he]
    obtain ⟨-, b, c⟩ := re t
    refine ⟨hi _ b, ?_⟩
    rcases c with c | c
    · left; rw [c]; simp
    · right
      have := lo _ c
      push_cast at this ⊢
      exact this

/-- The `eta` of lr.go. -/
def lrEta : ℕ → ℚ
  | 0 => 1
  | 1 => 161803 / 100000
  | 2 => 2193527 / 1000000
  | 3 => 274979 / 100000
  | _ => 0

theorem lrHyper_range : HyperRange lrHyper := by
  refine hyper_range (g := 3 / 10) (c1 := 15 / 100) (c3 := -15 / 10000) (c0 := 1 / 2) (eta := lrEta)
    rfl rfl rfl rfl ?_ ?_ ?_ ?_ ?_ ?_ ?_ ?_
  · rintro (_ | _ | _ | _ | t) <;> rfl
  all_goals try (norm_num [abs_of_pos, abs_of_neg]; done)
  · rintro (_ | _ | _ | _ | t) <;> simp only [lrEta] <;> norm_num [abs_of_pos, abs_of_neg]
  · exact ⟨by show 1 ≤ 2048; norm_num, by show 2048 ≤ 2 ^ 53; norm_num⟩

theorem mbHyper_range : HyperRange mbHyper :=
  { lrHyper_range with batch := ⟨by show 1 ≤ 512; norm_num, by show 512 ≤ 2 ^ 53; norm_num⟩ }

theorem toyHyper_range {b : ℕ} (hb : 1 ≤ b ∧ b ≤ 2 ^ 53) : HyperRange (toyHyper b) := by
  refine hyper_range (g := 3) (c1 := 15 / 100) (c3 := -15 / 10000) (c0 := 1 / 2) (eta := toyEta)
    rfl rfl rfl rfl (fun _ => rfl) ?_ ?_ ?_ ?_ ?_ ?_ hb
  all_goals try (norm_num [abs_of_pos, abs_of_neg]; done)
  rintro (_ | _ | _ | _ | t) <;> simp only [toyEta] <;> norm_num [abs_of_pos, abs_of_neg]

theorem pnQ_le (i : ℕ) (hi : i < pnCtx.nQ) : pnCtx.q i ≤ 2 ^ 64 := by
  have hi' : i < 21 := hi
  show pnQ i ≤ 2 ^ 64
  interval_cases i <;> simp only [pnQ] <;> norm_num

/-- **C67 (shipped lr.go).** The program with its own literals on double precision: C51 holds for it. -/
theorem C67_shipped {E : Encoder pnCtx (List ℂ)} {prm0 : CPar pnCtx} {rnd : MainRand pnCtx}
    {data : List (List ℂ)} {labels : List ℂ} (hG : prm0.fl.Ieee)
    (h : LrOk E prm0.ideal rnd data labels M ε δ) (ids : Sched) (sch dec : ℕ → Sched) :
    ∃ out, lrMain E prm0 15 lrCfg (rnd.reorder ids sch dec) data labels = .ok out ∧ out.prints.length = 4 ∧
      (∀ t < 4, ∃ (vb vv : AVal lrCfg.slotNum) (bd vd : List ℂ),
        vb.lvl = 16 - 4 * t ∧ vv.lvl = 16 - 4 * t ∧
        Replicated 8 vb.x (fun c => if c < 7 then (plainTrain lrCfg data labels (t + 1)).1 c else 0) ∧
        Replicated 8 vv.x (fun c => if c < 7 then (plainTrain lrCfg data labels (t + 1)).2 c else 0) ∧
        mainTrainVal (mainPar prm0.ideal 15 rnd) lrCfg data labels (2 * 0x80000000080001) 19
          (freshErr pnCtx (2 ^ 38) 19 ε) (t + 1) = some (vb, vv) ∧
        Reads E vb bd ∧ Reads E vv vd ∧ out.prints[t]? = some (bd.take 2, vd.take 2)) ∧
      ∃ vr : AVal lrCfg.slotNum,
        mainInferVal (mainPar prm0.ideal 15 rnd) lrCfg data labels (2 * 0x80000000080001) 19
          (freshErr pnCtx (2 ^ 38) 19 ε) = some vr ∧ vr.lvl = 1 ∧
        vr.x 0 = plainPredict lrCfg data labels ∧ Reads E vr out.result ∧
        out.correct = verdict (out.result.getD 0 0).re ((labels.getD 1935 0).re = 0) := by
  have hs : prm0.scale ≤ 2 ^ 64 := by
    have : prm0.scale = 2 ^ 38 := h.scale
    rw [this]; norm_num
  obtain ⟨out, e, hr⟩ := C67_lr_main hG pnQ_le hs lrHyper_range h.main
  obtain ⟨out', e', rest⟩ := C51_shipped h
  cases e.symm.trans e'
  exact ⟨out, hr ids sch dec, rest⟩

/-- **C67 (accuracy).** What `main` prints with double precision is as near to the plain training as C51
says. -/
theorem C67_accuracy {prm0 : CPar C} {logN : ℕ} {cfg : MainCfg} [NeZero cfg.slotNum]
    {rnd : MainRand C} {data : List (List ℂ)} {labels : List ℂ} {r : ℚ} {K : ℕ} {D B : ℤ}
    (hG : prm0.fl.Ieee) (hq : ∀ i < C.nQ, C.q i ≤ 2 ^ 64) (hs : prm0.scale ≤ 2 ^ 64) (hp : HyperRange cfg.hp)
    (h : MainOk E prm0.ideal logN cfg rnd data labels r K D B M ε δ) {out : MainOut}
    (ho : lrMain E prm0 logN cfg rnd data labels = .ok out) :
    (∀ t < cfg.numIter, ∀ vb vv, mainTrainVal (mainPar prm0.ideal logN rnd) cfg data labels D B
        (freshErr C prm0.scale B ε) (t + 1) = some (vb, vv) →
      ∃ pb pv, out.prints[t]? = some (pb, pv) ∧ pb.length = 2 ∧ pv.length = 2 ∧
      ∀ c < 2, c < cfg.numFeature →
        (vb.In C M → ‖pb.getD c 0 - (plainTrain cfg data labels (t + 1)).1 c‖ ≤ vb.err + δ) ∧
        (vv.In C M → ‖pv.getD c 0 - (plainTrain cfg data labels (t + 1)).2 c‖ ≤ vv.err + δ)) ∧
    ∀ vr, mainInferVal (mainPar prm0.ideal logN rnd) cfg data labels D B (freshErr C prm0.scale B ε) =
        some vr → vr.In C M →
      ‖out.result.getD 0 0 - plainPredict cfg data labels‖ ≤ vr.err + δ ∧
      (vr.err + δ < |(plainPredict cfg data labels).re - 1 / 2| →
        out.correct = verdict (plainPredict cfg data labels).re
          (cfg.isCls (labels.getD cfg.testId 0).re)) := by
  obtain ⟨out', e, hr⟩ := C67_lr_main hG hq hs hp h
  have e2 : lrMain E prm0 logN cfg rnd data labels = .ok out' := hr rnd.ids rnd.sch rnd.dec
  cases ho.symm.trans e2
  exact C51_accuracy h e

end MK.Lr
