import Verif.LrEval
import Verif.LrSim
import Verif.Props.Slots
import Verif.Props.History
import Mathlib.Analysis.Normed.Group.Constructions

/-!
# What the evaluator computes, step by step, on slots

`AVal` describes a ciphertext from outside: the slots it should hold, its level, its scale and a
bound on the distance of the slots it really holds.  `boundHE` runs a program on such
descriptions; it is undefined where a product is not rescaled by exactly one modulus or where
`AddNew` would multiply an operand by an integer.  `realHE_sim`: the evaluator does what `boundHE`
says.
-/

noncomputable section

namespace MK.Lr

open Finset

/-- A ciphertext seen from outside. -/
structure AVal (n : ℕ) where
  x : Slots n ℂ
  lvl : ℕ
  scale : ℚ
  err : ℝ

/-- A plaintext seen from outside: its slots, and a bound on the encoding error. -/
structure PVal (n : ℕ) where
  x : Slots n ℂ
  err : ℝ

variable {C : Ctx}

/-- A bound on the error of `q · (slots of the result) - (product of the slots)` for a product of
ciphertexts of at most `c` parties at level `l`: relinearization and rounding. -/
def mulEta (C : Ctx) (c : ℕ) (D T B : ℤ) (l : ℕ) : ℝ :=
  C.N * ((mulNoise C l c c D D D T B : ℤ) : ℝ) / C.P + C.N * (rescaleErr C l 1 c T : ℝ)

/-- The same for a product with a plaintext: rounding. -/
def ptEta (C : Ctx) (c : ℕ) (T : ℤ) (l : ℕ) : ℝ := C.N * (rescaleErr C l 1 c T : ℝ)

/-- A bound on the error of a rotation. -/
def rotEta (C : Ctx) (crs : CRS C) (c : ℕ) (D T B : ℤ) (l : ℕ) (k : ℤ) : ℝ :=
  C.N * ((rotCount crs (slotIdx C.N k) * (c * extNoise C l D T B) : ℤ) : ℝ) / C.P

/-- The scale after a product at level `l` with one modulus dropped. -/
def prodScale (F : Fl) (q : ℕ → ℕ) (l : ℕ) (s t : ℚ) : ℚ := scaleSeq F q l (F.rnd (s * t)) 1

/-- The error of a product whose operands have errors `ea`, `eb`, scales `s`, `t`, and whose
scaled result is off by at most `η`; `s'` is the scale of the result. -/
def prodErr (xa xb ea eb η : ℝ) (q : ℕ) (s t s' : ℚ) : ℝ :=
  (s * t / (q * s') : ℝ) * (xa * eb + xb * ea + ea * eb) +
    |(s * t / (q * s') : ℝ) - 1| * (xa * xb) + η / (q * s')

/-- The error of a sum of values with errors `ea`, `eb` at scales `s`, `t`, when the smaller scale
is replaced by the larger. -/
def sumErr (xa xb ea eb : ℝ) (s t : ℚ) : ℝ :=
  (s / max s t : ℝ) * ea + (1 - (s / max s t : ℝ)) * xa +
    ((t / max s t : ℝ) * eb + (1 - (t / max s t : ℝ)) * xb)

open Classical in
/-- Running on descriptions: exact slots, levels, scales and error bounds. -/
def boundHE (prm : CPar C) (n : ℕ) [NeZero n] (c : ℕ) (D T B : ℤ) : HE Option (AVal n) (PVal n) where
  mulRelin _ a b :=
    let l := min a.lvl b.lvl
    let s' := prodScale prm.fl C.q l a.scale b.scale
    if RescaleBy prm.fl C.q prm.scale (prm.fl.rnd (a.scale * b.scale)) l 1 then
      some ⟨a.x * b.x, l - 1, s',
        prodErr ‖a.x‖ ‖b.x‖ a.err b.err (mulEta C c D T B l) (C.q l) a.scale b.scale s'⟩
    else none
  mulPtxt a p :=
    let s' := prodScale prm.fl C.q a.lvl a.scale prm.scale
    if RescaleBy prm.fl C.q prm.scale (prm.fl.rnd (a.scale * prm.scale)) a.lvl 1 then
      some ⟨a.x * p.x, a.lvl - 1, s',
        prodErr ‖a.x‖ ‖p.x‖ a.err p.err (ptEta C c T a.lvl) (C.q a.lvl) a.scale prm.scale s'⟩
    else none
  add a b :=
    if alignInt prm.fl a.scale b.scale = 1 ∧ alignInt prm.fl b.scale a.scale = 1 then
      some ⟨a.x + b.x, min a.lvl b.lvl, max a.scale b.scale,
        sumErr ‖a.x‖ ‖b.x‖ a.err b.err a.scale b.scale⟩
    else none
  rotate a k := some ⟨rot k a.x, a.lvl, a.scale,
    a.err + rotEta C prm.crs c D T B a.lvl k / a.scale⟩

/-- The keys and parameters a run needs. -/
structure Setup (prm : CPar C) (n : ℕ) (S : Finset String) (rkSet : RotationKeySet (RotKey C))
    (rk : String → RelinKey C) (s : String → Nega C.N ℤ) (D T B : ℤ) : Prop where
  slots : C.N / 2 = n
  pow : ∃ logN, C.N = 2 ^ logN ∧ 1 ≤ logN
  good : C.Good
  fits : C.Fits
  fl : prm.fl.Ok
  scale : 0 < prm.scale
  dig : digitMax C D
  D0 : 0 ≤ D
  T0 : 0 ≤ T
  B0 : 0 ≤ B
  relin : ∃ cr u r eb ed er, prm.crs.get? (-1) = some u ∧ RelinFor S rk cr u s r eb ed er ∧
    RelinBdd C S s r eb ed er T B
  rot : ∃ rrk a, ∀ k idx, rotNeeds prm.crs (slotIdx C.N k) idx →
    KeysAt prm.crs rkSet S rrk a idx ∧ RotFor S rrk a s T B idx

/-- The ciphertext is as described. -/
structure Shows (s : String → Nega C.N ℤ) (S : Finset String) {n : ℕ} (ct : CCt C) (v : AVal n) :
    Prop where
  wf : ct.ct.Wf v.lvl false
  lt : v.lvl < C.nQ
  parties : ct.ct.parties ⊆ S
  scale : ct.scale = v.scale
  pos : 0 < v.scale
  val : ∃ m, ct.ct.Carries s v.lvl m ∧ ∀ i : ZMod n, ‖islot m i.val / v.scale - v.x i‖ ≤ v.err

/-- The plaintext is as described: encoded at the parameters' scale, at all levels. -/
structure ShowsPt (prm : CPar C) {n : ℕ} (p : RQ C × ℚ) (v : PVal n) : Prop where
  scale : p.2 = prm.scale
  val : ∃ m, (∀ i < C.nQ, p.1.elem i = Nega.red (C.q i) m) ∧
    ∀ i : ZMod n, ‖islot m i.val / prm.scale - v.x i‖ ≤ v.err

/-- The state of a run: memory in order, keys present, and every product so far was rescaled by
exactly one modulus. -/
structure Mach.Ok (S : Finset String) (rk : String → RelinKey C) (m : Mach C) : Prop where
  ev : m.ev.Ok
  rlk : RlkFor m.rlk S rk
  prods : ∀ e ∈ m.prods, e.1 = e.2 + 1

/-- Whatever the description says is what the run does. -/
def runRel (S : Finset String) (rk : String → RelinKey C) :
    MonadRel (StateT (Mach C) Go) Option where
  rel R f o := ∀ b, o = some b → ∀ m : Mach C, m.Ok S rk →
    ∃ a m', f m = .ok (a, m') ∧ m'.Ok S rk ∧ R a b
  pure h b hb m hm := by
    cases hb
    exact ⟨_, m, rfl, hm, h⟩
  bind {_ _ _ _ _ _ m₁ m₂ f₁ f₂} h hf b hb m hm := by
    cases e : m₂ with
    | none => rw [e] at hb; cases hb
    | some y =>
      rw [e] at hb
      obtain ⟨a, m', e1, h1, h2⟩ := h y e m hm
      obtain ⟨a', m'', e2, h3, h4⟩ := hf a y h2 b hb m' h1
      refine ⟨a', m'', ?_, h3, h4⟩
      show (m₁ m >>= fun p => f₁ p.1 p.2) = _
      rw [e1]
      exact e2

/-! ## Monotonicity -/

theorem RelinFor.mono {S S' : Finset String} (h : S ⊆ S') {rk : String → RelinKey C} {a u : SwKey C}
    {s r : String → Nega C.N ℤ} {eb ed er : String → ℕ → Nega C.N ℤ}
    (H : RelinFor S' rk a u s r eb ed er) : RelinFor S rk a u s r eb ed er :=
  ⟨fun id hi => H.b id (h hi), fun id hi => H.d id (h hi), fun id hi => H.v id (h hi)⟩

theorem RelinBdd.mono {S S' : Finset String} (h : S ⊆ S') {s r : String → Nega C.N ℤ}
    {eb ed er : String → ℕ → Nega C.N ℤ} {T B : ℤ} (H : RelinBdd C S' s r eb ed er T B) :
    RelinBdd C S s r eb ed er T B :=
  ⟨fun id hi => H.s id (h hi), fun id hi => H.r id (h hi), fun id hi => H.eb id (h hi),
    fun id hi => H.ed id (h hi), fun id hi => H.ev id (h hi)⟩

theorem RlkFor.mono {S S' : Finset String} (h : S ⊆ S') {rlk : RlkSet C} {rk : String → RelinKey C}
    (H : RlkFor rlk S' rk) : RlkFor rlk S rk :=
  ⟨fun id hi => H.keys id (h hi), fun id hi => H.pool0 id (h hi), fun id hi => H.pool1 id (h hi)⟩

theorem extNoise_nonneg {l : ℕ} {D T B : ℤ} (hD : 0 ≤ D) (hT : 0 ≤ T) (hB : 0 ≤ B) :
    0 ≤ extNoise C l D T B := by
  unfold extNoise; positivity

theorem mulNoise_mono {l a b c : ℕ} {D T B : ℤ} (hD : 0 ≤ D) (hT : 0 ≤ T) (hB : 0 ≤ B) (ha : a ≤ c)
    (hb : b ≤ c) : mulNoise C l a b D D D T B ≤ mulNoise C l c c D D D T B := by
  have := extNoise_nonneg (C := C) (l := l) hD hT hB
  unfold mulNoise
  gcongr

theorem rescaleErr_mono {l a c : ℕ} {T : ℤ} (hT : 0 ≤ T) (ha : a ≤ c) :
    rescaleErr C l 1 a T ≤ rescaleErr C l 1 c T := by
  unfold rescaleErr
  gcongr

/-! ## Complex estimates -/

theorem prod_dist {ya yb xa xb z : ℂ} {ea eb η Xa Xb ρ w : ℝ} (ha : ‖ya - xa‖ ≤ ea)
    (hb : ‖yb - xb‖ ≤ eb) (hxa : ‖xa‖ ≤ Xa) (hxb : ‖xb‖ ≤ Xb) (hρ : 0 ≤ ρ)
    (hz : ‖z - ρ * (ya * yb)‖ ≤ w) (hw : w ≤ η) :
    ‖z - xa * xb‖ ≤ ρ * (Xa * eb + Xb * ea + ea * eb) + |ρ - 1| * (Xa * Xb) + η := by
  have e : z - xa * xb = (z - ρ * (ya * yb)) + (ρ : ℂ) * (xa * (yb - xb) + xb * (ya - xa) +
      (ya - xa) * (yb - xb)) + ((ρ : ℂ) - 1) * (xa * xb) := by ring
  have hea : 0 ≤ ea := (norm_nonneg _).trans ha
  have heb : 0 ≤ eb := (norm_nonneg _).trans hb
  have hXa : 0 ≤ Xa := (norm_nonneg _).trans hxa
  have n1 : ‖((ρ : ℂ) - 1) * (xa * xb)‖ ≤ |ρ - 1| * (Xa * Xb) := by
    rw [norm_mul, norm_mul]
    have : ‖(ρ : ℂ) - 1‖ = |ρ - 1| := by
      rw [← Complex.ofReal_one, ← Complex.ofReal_sub, Complex.norm_real, Real.norm_eq_abs]
    rw [this]
    gcongr
  have n2 : ‖xa * (yb - xb) + xb * (ya - xa) + (ya - xa) * (yb - xb)‖ ≤
      Xa * eb + Xb * ea + ea * eb := by
    refine (norm_add_le _ _).trans (add_le_add ((norm_add_le _ _).trans ?_) ?_)
    · rw [norm_mul, norm_mul]
      have : 0 ≤ Xb := (norm_nonneg _).trans hxb
      gcongr
    · rw [norm_mul]; gcongr
  rw [e]
  refine (norm_add_le _ _).trans ?_
  have n3 : ‖(ρ : ℂ) * (xa * (yb - xb) + xb * (ya - xa) + (ya - xa) * (yb - xb))‖ ≤
      ρ * (Xa * eb + Xb * ea + ea * eb) := by
    rw [norm_mul, Complex.norm_real, Real.norm_eq_abs, abs_of_nonneg hρ]
    gcongr
  have n4 := norm_add_le (z - ρ * (ya * yb)) ((ρ : ℂ) * (xa * (yb - xb) + xb * (ya - xa) +
      (ya - xa) * (yb - xb)))
  linarith

theorem part_dist {y x : ℂ} {e X ρ : ℝ} (h : ‖y - x‖ ≤ e) (hx : ‖x‖ ≤ X) (h0 : 0 ≤ ρ) (h1 : ρ ≤ 1) :
    ‖ρ * y - x‖ ≤ ρ * e + (1 - ρ) * X := by
  have : ρ * y - x = ρ * (y - x) - ((1 - ρ : ℝ) : ℂ) * x := by push_cast; ring
  rw [this]
  refine (norm_sub_le _ _).trans (add_le_add ?_ ?_)
  · rw [norm_mul, Complex.norm_real, Real.norm_eq_abs, abs_of_nonneg h0]; gcongr
  · rw [norm_mul, Complex.norm_real, Real.norm_eq_abs, abs_of_nonneg (by linarith)]
    exact mul_le_mul_of_nonneg_left hx (by linarith)

/-- From scaled to unscaled slots, for products. -/
theorem prod_show {q : ℕ} {s t s' : ℚ} (hs : 0 < s) (ht : 0 < t) (hs' : 0 < s') (hq : 0 < q)
    {ma mb mz xa xb : ℂ} {ea eb η Xa Xb : ℝ} (ha : ‖ma / s - xa‖ ≤ ea) (hb : ‖mb / t - xb‖ ≤ eb)
    (hxa : ‖xa‖ ≤ Xa) (hxb : ‖xb‖ ≤ Xb) (hz : ‖(q : ℂ) * mz - ma * mb‖ ≤ η) :
    ‖mz / s' - xa * xb‖ ≤ prodErr Xa Xb ea eb η q s t s' := by
  have hsC : (s : ℂ) ≠ 0 := by exact_mod_cast hs.ne'
  have htC : (t : ℂ) ≠ 0 := by exact_mod_cast ht.ne'
  have hsC' : (s' : ℂ) ≠ 0 := by exact_mod_cast hs'.ne'
  have hqC : (q : ℂ) ≠ 0 := by exact_mod_cast hq.ne'
  have hsR : (0 : ℝ) < s := by exact_mod_cast hs
  have htR : (0 : ℝ) < t := by exact_mod_cast ht
  have hsR' : (0 : ℝ) < s' := by exact_mod_cast hs'
  have hqR : (0 : ℝ) < q := by exact_mod_cast hq
  refine prod_dist (ρ := (s * t / (q * s') : ℝ)) ha hb hxa hxb (by positivity) (w := η / (q * s')) ?_
    le_rfl
  have e : mz / s' - ((s * t / (q * s') : ℝ) : ℂ) * (ma / s * (mb / t)) =
      (q * mz - ma * mb) / (q * s' : ℂ) := by
    push_cast
    field_simp
  rw [e, norm_div]
  have : ‖(q * s' : ℂ)‖ = q * s' := by
    rw [norm_mul, Complex.norm_natCast, show (s' : ℂ) = ((s' : ℝ) : ℂ) by push_cast; rfl,
      Complex.norm_real, Real.norm_eq_abs, abs_of_pos hsR']
  rw [this]
  gcongr

/-! ## The simulation -/

theorem RescaleBy.pos {F : Fl} {q : ℕ → ℕ} {ms s : ℚ} {L n : ℕ}
    (h : RescaleBy F q ms s L (n + 1)) : 0 < L := by
  rcases h with ⟨_, h⟩ | ⟨_, _, h, _⟩
  · omega
  · exact h

theorem prodScale_pos {F : Fl} (hF : F.Ok) {q : ℕ → ℕ} {l : ℕ} (hq : 0 < q l) {s t : ℚ} (hs : 0 < s)
    (ht : 0 < t) : 0 < prodScale F q l s t := by
  unfold prodScale scaleSeq scaleSeq
  refine hF.pos (div_pos (hF.pos (mul_pos hs ht)) (hF.pos ?_))
  rw [Nat.sub_zero]
  exact_mod_cast hq

variable {prm : CPar C} {n : ℕ} [NeZero n] {S : Finset String} {rkSet : RotationKeySet (RotKey C)}
  {rk : String → RelinKey C} {s : String → Nega C.N ℤ} {D T B : ℤ}

/-- Products of ciphertexts, for both values of the flag. -/
theorem real_mul (E : Setup prm n S rkSet rk s D T B) (sch : ℕ → Sched) (same : Bool)
    {a b : CCt C} {va vb : AVal n} (hsame : same = true → a = b) (ha : Shows s S a va)
    (hb : Shows s S b vb) :
    (runRel S rk).rel (Shows s S) ((realHE prm rkSet sch).mulRelin same a b)
      ((boundHE prm n S.card D T B).mulRelin same va vb) := by
  intro v hv m hm
  simp only [boundHE] at hv
  split at hv
  swap
  · cases hv
  rename_i hby
  cases hv
  obtain ⟨cr, u, r, eb, ed, er, hu, hk, hbd⟩ := E.relin
  have hsub := union_subset ha.parties hb.parties
  obtain ⟨ma, hma, hea⟩ := ha.val
  obtain ⟨mb, hmb, heb⟩ := hb.val
  rw [← ha.scale, ← hb.scale] at hby
  obtain ⟨ev', rlk', out, m', e1, w, hp, hsc, hm', herr⟩ := C21_MulRelinNew_slots E.good E.fits hm.ev
    same hsame ha.wf hb.wf ha.lt hb.lt hu (RlkFor.mono hsub hm.rlk) (RelinFor.mono hsub hk) E.dig
    (RelinBdd.mono hsub hbd) hby (sch m.tick) hma hmb
  have hpost := mulRelinNew_ok prm hm.ev a b same m.rlk (sch m.tick) _ e1
  have hpos := RescaleBy.pos hby
  have hq : 0 < C.q (min va.lvl vb.lvl) := E.good.posQ _
  have hl : min va.lvl vb.lvl < C.nQ := lt_of_le_of_lt (min_le_left _ _) ha.lt
  refine ⟨out, ⟨ev', rlk', m.tick + 1, m.prods ++ [(min va.lvl vb.lvl, min va.lvl vb.lvl - 1)]⟩, ?_,
    ⟨hpost.1, ⟨?_, ?_, ?_⟩, ?_⟩, w, ?_, hp ▸ hsub, ?_, ?_, m', hm', ?_⟩
  · show (m.ev.MulRelinNew prm a b same m.rlk (sch m.tick) >>= _) = _
    rw [e1]
    simp only [Go.ok_bind, ha.wf.level, hb.wf.level, w.level, Go.pure_eq]
  · intro id hi
    show rlk'.value.get? id = _
    rw [hpost.2.1]; exact hm.rlk.keys id hi
  · intro id hi; rw [hpost.2.2.1]; exact hm.rlk.pool0 id hi
  · intro id hi; rw [hpost.2.2.2]; exact hm.rlk.pool1 id hi
  · intro e he
    rw [List.mem_append, List.mem_singleton] at he
    rcases he with he | rfl
    · exact hm.prods e he
    · show min va.lvl vb.lvl = min va.lvl vb.lvl - 1 + 1
      omega
  · show min va.lvl vb.lvl - 1 < C.nQ
    omega
  · rw [hsc, ha.scale, hb.scale]; rfl
  · exact prodScale_pos E.fl hq ha.pos hb.pos
  · intro i
    refine prod_show ha.pos hb.pos (prodScale_pos E.fl hq ha.pos hb.pos) hq (hea i) (heb i)
      (norm_le_pi_norm va.x i) (norm_le_pi_norm vb.x i) ?_
    have := herr i.val
    rw [prod_range_one, Nat.sub_zero] at this
    have hP : (0 : ℝ) < C.P := by exact_mod_cast E.good.P_pos
    have h1 : ((mulNoise C (min va.lvl vb.lvl) a.ct.parties.card b.ct.parties.card D D D T B : ℤ) : ℝ)
        ≤ (mulNoise C (min va.lvl vb.lvl) S.card S.card D D D T B : ℤ) := by
      exact_mod_cast mulNoise_mono E.D0 E.T0 E.B0 (card_le_card ha.parties) (card_le_card hb.parties)
    have h2 : ((rescaleErr C (min va.lvl vb.lvl) 1 (a.ct.parties ∪ b.ct.parties).card T : ℤ) : ℝ)
        ≤ (rescaleErr C (min va.lvl vb.lvl) 1 S.card T : ℤ) := by
      exact_mod_cast rescaleErr_mono E.T0 (card_le_card hsub)
    unfold mulEta
    have h3 : ‖(C.q (min va.lvl vb.lvl) : ℂ) * islot m' i.val - islot ma i.val * islot mb i.val‖ ≤
        C.N * ((mulNoise C (min va.lvl vb.lvl) a.ct.parties.card b.ct.parties.card D D D T B +
          C.P * rescaleErr C (min va.lvl vb.lvl) 1 (a.ct.parties ∪ b.ct.parties).card T : ℤ) : ℝ) /
          C.P := by
      rw [le_div_iff₀ hP, mul_comm]
      exact_mod_cast this
    refine h3.trans ?_
    push_cast
    rw [mul_add, add_div]
    refine add_le_add (by gcongr) ?_
    rw [show (C.N : ℝ) * (C.P * (rescaleErr C (min va.lvl vb.lvl) 1
      (a.ct.parties ∪ b.ct.parties).card T : ℝ)) / C.P = C.N * (rescaleErr C (min va.lvl vb.lvl) 1
      (a.ct.parties ∪ b.ct.parties).card T : ℝ) by field_simp]
    gcongr

/-- **The evaluator follows the description**, operation by operation, for all keys, memory
contents and iteration orders. -/
theorem realHE_sim (E : Setup prm n S rkSet rk s D T B) (sch : ℕ → Sched) :
    HESim (runRel S rk) (realHE prm rkSet sch) (boundHE prm n S.card D T B) (Shows s S)
      (ShowsPt prm) where
  mul ha hb := real_mul E sch false (by simp) ha hb
  sq ha := real_mul E sch true (fun _ => rfl) ha ha
  mulPtxt {a va p vp} ha hp := by
    intro v hv m hm
    simp only [boundHE] at hv
    split at hv
    swap
    · cases hv
    rename_i hby
    cases hv
    obtain ⟨cr, u, r, eb, ed, er, hu, hk, hbd⟩ := E.relin
    obtain ⟨ma, hma, hea⟩ := ha.val
    obtain ⟨mp, hmp, hep⟩ := hp.val
    have hpos := RescaleBy.pos hby
    rw [← ha.scale, ← hp.scale, hp.scale] at hby
    nth_rw 2 [← hp.scale] at hby
    obtain ⟨ev', out, m', e1, w, hpar, hsc, hm', herr⟩ := C20_MulPtxtNew_slots E.good (ev := m.ev)
      ha.wf ha.lt p.1 p.2 hby (fun id hi => hbd.s id (ha.parties hi)) (sch m.tick) hma
      (fun i hi => hmp i (lt_of_le_of_lt hi ha.lt))
    have hq : 0 < C.q va.lvl := E.good.posQ _
    have hl := ha.lt
    refine ⟨out, ⟨ev', m.rlk, m.tick + 1, m.prods ++ [(va.lvl, va.lvl - 1)]⟩, ?_,
      ⟨mulPtxtNew_ok _ hm.ev _ _ _ _ _ e1, hm.rlk, ?_⟩, w, ?_, hpar ▸ ha.parties, ?_, ?_, m', hm', ?_⟩
    · show (m.ev.MulPtxtNew prm a p.1 p.2 (sch m.tick) >>= _) = _
      rw [e1]
      simp only [Go.ok_bind, ha.wf.level, w.level, Go.pure_eq]
    · intro e he
      rw [List.mem_append, List.mem_singleton] at he
      rcases he with he | rfl
      · exact hm.prods e he
      · show va.lvl = va.lvl - 1 + 1
        omega
    · show va.lvl - 1 < C.nQ
      omega
    · rw [hsc, ha.scale, hp.scale]; rfl
    · exact prodScale_pos E.fl hq ha.pos E.scale
    · intro i
      refine prod_show ha.pos E.scale (prodScale_pos E.fl hq ha.pos E.scale) hq (hea i) (hep i)
        (norm_le_pi_norm va.x i) (norm_le_pi_norm vp.x i) ?_
      have := herr i.val
      rw [prod_range_one, Nat.sub_zero] at this
      refine this.trans ?_
      unfold ptEta
      have h2 : ((rescaleErr C va.lvl 1 a.ct.parties.card T : ℤ) : ℝ)
          ≤ (rescaleErr C va.lvl 1 S.card T : ℤ) := by
        exact_mod_cast rescaleErr_mono E.T0 (card_le_card ha.parties)
      gcongr
  add {a b va vb} ha hb := by
    intro v hv m hm
    simp only [boundHE] at hv
    split at hv
    swap
    · cases hv
    rename_i hal
    cases hv
    obtain ⟨ma, hma, hea⟩ := ha.val
    obtain ⟨mb, hmb, heb⟩ := hb.val
    rw [← ha.scale, ← hb.scale] at hal
    have I : BinIn prm m.ev a b va.lvl vb.lvl :=
      ⟨hm.ev, ha.wf, hb.wf, ha.lt, hb.lt, E.fl, by rw [hal.1]; norm_num, by rw [hal.2]; norm_num⟩
    obtain ⟨ev', out, e1, hpar, w, _, hsc⟩ := (C13_metadata E.good I (sch m.tick)).1
    obtain ⟨ev'', out', e2, _, hph⟩ := C14_factor E.good I (sch m.tick)
    rw [e1] at e2
    cases e2
    rw [hal.1, hal.2] at hph
    have hsR : (0 : ℝ) < va.scale := by exact_mod_cast ha.pos
    have htR : (0 : ℝ) < vb.scale := by exact_mod_cast hb.pos
    have hM : (0 : ℝ) < ((max va.scale vb.scale : ℚ) : ℝ) := by
      exact_mod_cast lt_max_of_lt_left ha.pos
    refine ⟨out, ⟨ev', m.rlk, m.tick + 1, m.prods⟩, ?_,
      ⟨addNew_ok _ hm.ev _ _ _ _ e1, hm.rlk, hm.prods⟩, w, lt_of_le_of_lt (min_le_left _ _) ha.lt,
      hpar ▸ union_subset ha.parties hb.parties, ?_, lt_max_of_lt_left ha.pos, ma + mb, ?_, ?_⟩
    · show (m.ev.AddNew prm a b (sch m.tick) >>= _) = _
      rw [e1]
      simp only [Go.ok_bind, Go.pure_eq]
    · rw [hsc, ha.scale, hb.scale]
    · intro i hi
      rw [hph s i hi, hma i (le_trans hi (min_le_left _ _)), hmb i (le_trans hi (min_le_right _ _)),
        map_add]
      push_cast
      ring
    · intro i
      show ‖islot (ma + mb) i.val / ((max va.scale vb.scale : ℚ) : ℂ) - (va.x i + vb.x i)‖ ≤ _
      have e : islot (ma + mb) i.val / ((max va.scale vb.scale : ℚ) : ℂ) - (va.x i + vb.x i) =
          (((va.scale / max va.scale vb.scale : ℝ) : ℂ) * (islot ma i.val / va.scale) - va.x i) +
          (((vb.scale / max va.scale vb.scale : ℝ) : ℂ) * (islot mb i.val / vb.scale) - vb.x i) := by
        have h1 : (va.scale : ℂ) ≠ 0 := by exact_mod_cast ha.pos.ne'
        have h2 : (vb.scale : ℂ) ≠ 0 := by exact_mod_cast hb.pos.ne'
        have h3 : ((max va.scale vb.scale : ℚ) : ℂ) ≠ 0 := by
          exact_mod_cast (lt_max_of_lt_left ha.pos).ne'
        rw [show islot (ma + mb) i.val = islot ma i.val + islot mb i.val from slot_add _ _ _ _,
          Complex.ofReal_div, Complex.ofReal_div]
        simp only [Complex.ofReal_ratCast]
        field_simp
        ring
      rw [e]
      refine (norm_add_le _ _).trans (add_le_add (part_dist (hea i) (norm_le_pi_norm va.x i)
        (div_nonneg hsR.le hM.le) ?_) (part_dist (heb i) (norm_le_pi_norm vb.x i)
        (div_nonneg htR.le hM.le) ?_))
      · rw [div_le_one hM]; exact_mod_cast le_max_left _ _
      · rw [div_le_one hM]; exact_mod_cast le_max_right _ _
  rotate {a va} k ha := by
    intro v hv m hm
    simp only [boundHE] at hv
    cases hv
    obtain ⟨logN, hN, hlog⟩ := E.pow
    obtain ⟨rrk, ra, hrot⟩ := E.rot
    obtain ⟨ma, hma, hea⟩ := ha.val
    obtain ⟨ev', out, m', e1, hok, w, hpar, hsc, hm', herr⟩ := C37_RotateNew_slots hN hlog E.good
      E.fits hm.ev ha.lt ha.wf k (rk := rrk) (a := ra)
      (fun idx h => ⟨(hrot k idx h).1.1, fun id hi => (hrot k idx h).1.2 id (ha.parties hi)⟩)
      (s := s) (T := T) (B := B)
      (fun idx h => by
        obtain ⟨⟨e, he1, he2⟩, h2⟩ := (hrot k idx h).2
        exact ⟨⟨e, fun id hi => he1 id (ha.parties hi), fun id hi => he2 id (ha.parties hi)⟩,
          fun id hi => h2 id (ha.parties hi)⟩) (fun j hj => E.dig _ ha.lt j hj) (sch m.tick) hma
    have hsR : (0 : ℝ) < va.scale := by exact_mod_cast ha.pos
    have hP : (0 : ℝ) < C.P := by exact_mod_cast E.good.P_pos
    refine ⟨out, ⟨ev', m.rlk, m.tick + 1, m.prods⟩, ?_, ⟨hok, hm.rlk, hm.prods⟩, w, ha.lt,
      hpar ▸ ha.parties, hsc.trans ha.scale, ha.pos, m', hm', ?_⟩
    · show (m.ev.RotateNew prm a k rkSet (sch m.tick) >>= _) = _
      rw [e1]
      simp only [Go.ok_bind, Go.pure_eq]
    · intro i
      have hidx : ((((i.val : ℕ) : ℤ) + k) % (C.N / 2 : ℕ)).toNat = (i + (k : ZMod n)).val := by
        have h1 : (i + (k : ZMod n)) = ((((i.val : ℕ) : ℤ) + k : ℤ) : ZMod n) := by
          push_cast; rw [ZMod.natCast_zmod_val]
        have h2 := ZMod.val_intCast (n := n) (((i.val : ℕ) : ℤ) + k)
        rw [← h1] at h2
        rw [E.slots, ← h2, Int.toNat_natCast]
      have h1 := herr i.val
      rw [hidx] at h1
      have h2 := hea (i + (k : ZMod n))
      show ‖islot m' i.val / (va.scale : ℂ) - va.x (i + (k : ZMod n))‖ ≤ _
      have e : islot m' i.val / (va.scale : ℂ) - va.x (i + (k : ZMod n)) =
          (islot ma (i + (k : ZMod n)).val / (va.scale : ℂ) - va.x (i + (k : ZMod n))) +
          (islot m' i.val - islot ma (i + (k : ZMod n)).val) / (va.scale : ℂ) := by ring
      rw [e]
      refine (norm_add_le _ _).trans (add_le_add h2 ?_)
      rw [norm_div, show (va.scale : ℂ) = ((va.scale : ℝ) : ℂ) by push_cast; rfl, Complex.norm_real,
        Real.norm_eq_abs, abs_of_pos hsR]
      refine div_le_div_of_nonneg_right ?_ hsR.le
      unfold rotEta
      rw [le_div_iff₀ hP, mul_comm]
      refine h1.trans ?_
      have h3 : ((rotCount prm.crs (slotIdx C.N k) * (a.ct.parties.card * extNoise C va.lvl D T B) : ℤ)
          : ℝ) ≤ ((rotCount prm.crs (slotIdx C.N k) * (S.card * extNoise C va.lvl D T B) : ℤ) : ℝ) := by
        have := extNoise_nonneg (C := C) (l := va.lvl) E.D0 E.T0 E.B0
        have hc := card_le_card ha.parties
        exact_mod_cast by gcongr
      gcongr

end MK.Lr
