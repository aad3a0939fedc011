import Verif.Props.IeeeMain
import Verif.Props.ExToy

/-!
# Runs meeting the hypotheses of C67: the shipped programs on double precision
-/

noncomputable section

namespace MK.Lr

attribute [local irreducible] setupCRS

/-- Parameters with double precision. -/
def iePar : CPar pnCtx := exPar.withFl Fl.ieee

theorem iePnOk (numCompany : ℕ) : PnOk (stdEncoder pnCtx) iePar.ideal exRand numCompany 100
    ((pnCtx.N : ℝ) / (2 * (2 ^ 38 : ℚ)) + flErr 100) 0 :=
  { exPnOk numCompany with fl := Fl.ieee_ok.total_ok }

theorem ieScale : iePar.scale ≤ 2 ^ 64 := by show (2 ^ 38 : ℚ) ≤ 2 ^ 64; norm_num

theorem ieLrOk : LrOk (stdEncoder pnCtx) iePar.ideal exRand exData exLabels 100
    ((pnCtx.N : ℝ) / (2 * (2 ^ 38 : ℚ)) + flErr 100) 0 :=
  { exLrOk with toPnOk := iePnOk 3 }

theorem ieMbLrOk : MbLrOk (stdEncoder pnCtx) iePar.ideal exRand exData exLabels 100
    ((pnCtx.N : ℝ) / (2 * (2 ^ 38 : ℚ)) + flErr 100) 0 :=
  { exMbLrOk with toPnOk := iePnOk 4 }

/-- lr.go with three companies. -/
example : ∃ out, lrMain (stdEncoder pnCtx) iePar 15 lrCfg exRand exData exLabels = .ok out ∧
    out.prints.length = 4 := by
  obtain ⟨out, e, h, -⟩ := C67_shipped (prm0 := iePar) Fl.ieee_ok ieLrOk exRand.ids exRand.sch exRand.dec
  exact ⟨out, e, h⟩

/-- lr_minibatch.go with four companies. -/
example : ∃ out, mbMain (stdEncoder pnCtx) iePar.ideal 15 mbCfg exRand exData exLabels = .ok out ∧
    ∀ ids sch dec, mbMain (stdEncoder pnCtx) iePar 15 mbCfg (exRand.reorder ids sch dec) exData exLabels =
      .ok out :=
  C67_mb_main (prm0 := iePar) Fl.ieee_ok pnQ_le ieScale mbHyper_range ieMbLrOk.main

theorem exToy_raw {i j : ℕ} (hi : i < 2000) (hj : j < 20) : RawOk (entry exToyData i j).re := by
  rw [exToy_entry hi hj, Complex.natCast_re]
  have h : (i + j) % 2 ≤ 1 := by omega
  generalize (i + j) % 2 = a at h
  refine ⟨⟨(a : ℤ) * 2 ^ 100, ?_⟩, ?_⟩
  · rw [Int.cast_mul, Int.cast_natCast, Int.cast_pow, Int.cast_ofNat, mul_div_cancel_right₀]
    positivity
  · rw [Nat.abs_cast]
    have h' : (a : ℝ) ≤ 1 := by exact_mod_cast h
    exact h'.trans (one_le_pow₀ (by norm_num))

/-- lr_toy.go. -/
example : ∃ out, lrToyMain (stdEncoder pnCtx) iePar.ideal sqrt53 15 toyCfg exRand exToyData exToyLabels =
      .ok out ∧ ∀ ids sch dec, lrToyMain (stdEncoder pnCtx) iePar sqrt53 15 toyCfg
    (exRand.reorder ids sch dec) exToyData exToyLabels = .ok out := by
  have hd := exToyData_ok (den := 512) (by norm_num) le_rfl
  obtain ⟨data, e, hz, hn, hle⟩ := hd.normalise (iePnOk 1).fl sqrt53_ok (by norm_num)
  have hb : ((toyCfg.hp.batchSize : ℕ) : ℝ) = 512 := by show ((512 : ℕ) : ℝ) = 512; norm_num
  refine C67_toy_main (prm0 := iePar) (data := data) Fl.ieee_ok sqrt53_ok pnQ_le ieScale
    (toyHyper_range ⟨by norm_num, by norm_num⟩) (fun i hi j hj _ => exToy_raw ?_ hj)
    (by show 512 ≤ 2 ^ 50; norm_num) ?_ ?_ (toy_mainOk (iePnOk 1) hd hn hle) (by show 210 ≤ 2 ^ 14; norm_num)
  · have h1 : i < 512 ∨ i < 2000 := hi
    omega
  · rw [hb]; exact e
  · rw [hb]; exact hz

/-- lr_minibatch_toy.go with four companies. -/
example : ∃ out, mbToyMain (stdEncoder pnCtx) iePar.ideal sqrt53 15 mbToyCfg exRand exToyData exToyLabels =
      .ok out ∧ ∀ ids sch dec, mbToyMain (stdEncoder pnCtx) iePar sqrt53 15 mbToyCfg
    (exRand.reorder ids sch dec) exToyData exToyLabels = .ok out := by
  have hd := exToyData_ok (den := 511) (by norm_num) (by norm_num)
  obtain ⟨data, e, hz, hn, hle⟩ := hd.normalise (iePnOk 4).fl sqrt53_ok (by norm_num)
  have hb : ((mbToyCfg.numTrain : ℕ) : ℝ) - 1 = 511 := by show ((512 : ℕ) : ℝ) - 1 = 511; norm_num
  refine C67_mb_toy_main (prm0 := iePar) (data := data) Fl.ieee_ok sqrt53_ok pnQ_le ieScale
    (toyHyper_range ⟨by norm_num, by norm_num⟩) (fun i hi j hj _ => exToy_raw ?_ hj)
    (by show 2 ≤ 512; norm_num) (by show 512 ≤ 2 ^ 50; norm_num) ?_ ?_ (mbToy_mainOk (iePnOk 4) hd hn hle)
  · have h1 : i < 512 ∨ i < 2000 := hi
    omega
  · rw [hb]; exact e
  · rw [hb]; exact hz

/-- Without the bounds the two can differ: a tiny `c1` becomes zero. -/
example : ∃ p : Hyper ℂ, fconst5 Fl.ieee p 1 ≠ fconst5 Fl.ieee.total p 1 := by
  refine ⟨{ lrHyper with c1 := ((1 / 2 ^ 1080 : ℚ) : ℂ), c3 := ((1 : ℚ) : ℂ) }, fun h => ?_⟩
  have hn : ¬ Normal (1 / 2 ^ 1080) := by
    rintro (h | ⟨h, -⟩)
    · exact absurd h (by positivity)
    · rw [abs_of_pos (by positivity)] at h
      exact absurd h (not_le.mpr (one_div_lt_one_div_of_lt (by positivity)
        (pow_lt_pow_right₀ (by norm_num) (by norm_num))))
  have ht : Fl.ieee.total.rnd (1 / 2 ^ 1080) = 1 / 2 ^ 1080 := by
    simp only [Fl.total]; rw [if_neg hn]
  unfold fconst5 at h
  have h2 := congrArg (fun l => l.getD 0 0) h
  simp only [List.replicate_one, List.getD_cons_zero] at h2
  rw [Fl.cx_rat, Fl.cx_rat, Fl.cx_rat, Fl.cx_rat, Fl.ieee_tiny, ht] at h2
  have o1 : Fl.ieee.rnd 1 = 1 := by simpa using Fl.ieee_ok.int 1 (by norm_num)
  have z1 : Fl.ieee.rnd 0 = 0 := by simpa using Fl.ieee_ok.int 0 (by norm_num)
  have o2 := Fl.ieee_ok.total_ok.one
  rw [o1, o2, ← Rat.cast_div, ← Rat.cast_div, Fl.cx_rat, Fl.cx_rat, zero_div, div_one, z1, ht] at h2
  have h3 : (0 : ℚ) = 1 / 2 ^ 1080 := by exact_mod_cast h2
  exact absurd h3 (ne_of_lt (by positivity))

end MK.Lr
