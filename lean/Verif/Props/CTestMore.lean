import Verif.Props.CTest

/-!
# The other tests of mkckks (C72): hoisted product and rotation, plaintext product, rescaling
-/

noncomputable section

namespace MK.CT

open Finset Lr

variable {C : Ctx} {E : Encoder C (List ℂ)} {prm : CPar C} {kb : KeyBag C}
  {s e : String → Nega C.N ℤ} {S : List String} {enc : CEnc C} {dec : CDec C} {ev : Ev C}
  {users : List String} {d : ℕ → Draw C} {M ε δ W : ℝ}

/-- Ciphertexts with the same contents show the same slots. -/
theorem Sees.of_ctIs {L : ℕ} {sc : ℚ} {a b : CCt C} {x : ℕ → ℂ} {η : ℝ} {P : Finset String}
    {F : String → (i : ℕ) → Nega C.N (ZMod (C.q i))} (h : Sees s S L sc a x η) (hP : "0" ∉ P)
    (ha : CtIs a.ct L (insert "0" P) fun id i => (F id i).coeff)
    (hb : CtIs b.ct L (insert "0" P) fun id i => (F id i).coeff) (hs : b.scale = a.scale) :
    Sees s S L sc b x η := by
  obtain ⟨m, hm, hx⟩ := h.val
  refine ⟨hb.toWf (mem_insert_self _ _), h.lt, fun id hi => h.parties id ?_, hs.trans h.scale, m,
    fun i hi => ?_, hx⟩
  · rw [ha.parties hP, ← hb.parties hP]; exact hi
  · rw [hb.phase hP s hi, ← ha.phase hP s hi]
    exact hm i hi

/-! ## `testEvaluatorMulHoisted` -/

/-- The hoisted product, the second operand without hoisted form. -/
theorem Sees.squareHoisted (hC : C.Good) (hF : C.Fits) (hfl : prm.fl.Ok) {ev : Ev C} (hok : ev.Ok)
    {ct : CCt C} {L : ℕ} {sc : ℚ} (hsc : 0 < sc) {x : ℕ → ℂ} {η X : ℝ} (h : Sees s S L sc ct x η)
    (hX : ∀ j < C.N / 2, ‖x j‖ ≤ X)
    {cr u : SwKey C} (hu : prm.crs.get? (-1) = some u) {rlk : RlkSet C} {rk : String → RelinKey C}
    (hrk : RlkFor rlk S.toFinset rk) {r : String → Nega C.N ℤ} {eb ed er : String → ℕ → Nega C.N ℤ}
    (hk : RelinFor S.toFinset rk cr u s r eb ed er) {D T B : ℤ} (hD0 : 0 ≤ D) (hT0 : 0 ≤ T)
    (hB0 : 0 ≤ B) (hD : digitMax C D) (hb : RelinBdd C S.toFinset s r eb ed er T B)
    (hn : RescaleBy prm.fl C.q prm.scale (prm.fl.rnd (sc * sc)) L 1) (πh π : Sched) :
    ∃ ev1 H ev' out, ev.HoistedForm ct πh = .ok (ev1, H) ∧
      ev1.MulRelinHoistedNew prm ct ct (some H) none rlk π = .ok (ev', out) ∧
      Sees s S (L - 1) (prodScale prm.fl C.q L sc sc) out (fun j => x j * x j)
        (prodErr X X η η (mulEta C S.toFinset.card D T B L) (C.q L) sc sc
          (prodScale prm.fl C.q L sc sc)) := by
  obtain ⟨ev1, H, e1, hok1, hH⟩ := C23_HoistedForm hC hok h.wf πh
  obtain ⟨ev2, rlk2, out2, e2, h2⟩ := h.square hC hF hfl hok1 hsc hX hu hrk hk hD0 hT0 hB0 hD hb hn π
  have hsub := union_subset h.sub h.sub
  have hn' := hn
  rw [← h.scale, ← min_self L] at hn'
  have hrk' := RlkFor.mono hsub hrk
  obtain ⟨ev3, rlk3, r3, e3, -, -, h3⟩ := mulRelinNew_spec hC hok1 true (fun _ => rfl) h.wf h.wf h.lt h.lt
    hu hrk' hn' π
  obtain ⟨ev4, r4, e4, -, h4⟩ := mulRelinHoistedNew_spec hC hok1 h.wf h.wf hu hrk'.keys
    (h0 := some H) (h1 := none) (La := L) (Lb := L)
    ⟨by simp, h.lt, by simp, fun Hc hc => by cases hc; exact hH⟩
    ⟨by simp, h.lt, by simp, fun Hc hc => by cases hc⟩ hn' π
  rw [e2] at e3
  simp only [Except.ok.injEq, Prod.mk.injEq] at e3
  obtain ⟨-, -, rfl⟩ := e3
  rw [min_self] at h3 h4
  refine ⟨ev1, H, ev4, _, e1, e4, h2.of_ctIs (F := fun id i => ⟨divSeq (fun i =>
        ((mulInAt L L L ct.ct ct.ct rk u).res id i).coeff) L 1 i⟩) ?_ h3 h4 rfl⟩
  rw [union_self]
  exact zero_notMem_parties _

/-- **C72**, `testEvaluatorMulHoisted` passes under the conditions of `testEvaluatorMul`, one level
further down. -/
theorem C72_MulHoisted_pass (R : Ready E prm kb s e S enc dec ev users d M ε δ W) (hlq : 1 ≤ C.lq)
    (hF : C.Fits)
    {cr u : SwKey C} (hu : prm.crs.get? (-1) = some u) {rk : String → RelinKey C}
    (hrk : RlkFor kb.rlkSet S.toFinset rk) {r : String → Nega C.N ℤ}
    {eb ed er : String → ℕ → Nega C.N ℤ}
    (hk : RelinFor S.toFinset rk cr u s r eb ed er) {D T B : ℤ} (hD0 : 0 ≤ D) (hT0 : 0 ≤ T)
    (hB0 : 0 ≤ B) (hD : digitMax C D) (hb : RelinBdd C S.toFinset s r eb ed er T B)
    (hn : RescaleBy prm.fl C.q prm.scale (prm.fl.rnd (prm.scale * prm.scale)) (C.lq - 1) 1) {sc : ℚ}
    (hsc : sc = prodScale prm.fl C.q (C.lq - 1) prm.scale prm.scale) {η : ℝ}
    (hη : η = prodErr 3 3 ((users.length + 1 : ℕ) * (ε + W / prm.scale))
      ((users.length + 1 : ℕ) * (ε + W / prm.scale)) (mulEta C S.toFinset.card D T B (C.lq - 1))
      (C.q (C.lq - 1)) prm.scale prm.scale sc)
    (hM3 : 3 ≤ M) (hM : 9 + η ≤ M)
    (hQ : 2 * (sc * M) < C.qProd (min (C.lq - 1 - 1) dec.pool.level)) {logSlots : ℕ}
    (htol : prm.scale * (η + δ) ≤ 2 ^ (logSlots + 12)) (π : ℕ → Sched) (πd πh πo π' : Sched) :
    testEvaluatorMulHoisted E prm logSlots kb enc dec ev users d π πd πh πo π' = .ok true := by
  subst hη hsc
  have hlen : 0 < users.length := List.length_pos_iff.mpr R.nonempty
  obtain ⟨out, e1, h1, h2⟩ := testSum_spec R (z := zMul users.length) ((zMul_norm' hlen).trans hM3)
    (op := fun _ ev ct => do
      let c ← dropLevel ct.ct 1 (πd.f 0 ct.ct.value.keys)
      let ct : CCt C := ⟨c, ct.scale⟩
      let (ev, h) ← ev.HoistedForm ct πh
      ev.MulRelinHoistedNew prm ct ct (some h) none kb.rlkSet πo)
    (cmp := fun msg out => checkC prm logSlots 12 out.length fun i =>
      out.getD i 0 - msg.getD i 0 * msg.getD i 0) π π'
    (prodScale_pos R.fl (R.good.posQ (C.lq - 1)) R.scale R.scale)
    (x := fun _ => (((users.length + 1 : ℕ) : ℂ) * zMul users.length) *
      (((users.length + 1 : ℕ) : ℂ) * zMul users.length)) (X := 9) (L := C.lq - 1 - 1)
    (fun ev ct hok hct => by
      obtain ⟨c, g1, g2⟩ := hct.drop hlq πd
      obtain ⟨ev1, H, ev', r, g3, g4, g5⟩ := g2.squareHoisted R.good hF R.fl hok R.scale
        (fun _ _ => zMul_norm hlen) hu hrk hk hD0 hT0 hB0 hD hb hn πh πo
      exact ⟨ev', r, by simp only [g1, g3, g4, Go.ok_bind], g5⟩)
    (fun _ _ => by
      have := zMul_norm hlen
      rw [norm_mul]
      nlinarith [norm_nonneg (((users.length + 1 : ℕ) : ℂ) * zMul users.length)]) hM hQ
  unfold testEvaluatorMulHoisted
  change testSum _ _ (zMul users.length) _ _ _ _ _ _ _ _ _ _ = _
  rw [e1]
  congr 1
  refine checkC_of_close R.scale (fun i hi => ?_) htol
  rw [h1] at hi
  have := h2 i hi
  simpa [hi] using this

/-! ## `testEvaluatorRotHoisted` -/

/-- Hoisted rotation of a ciphertext with constant slots. -/
theorem Sees.rotateHoisted {logN : ℕ} (hN : C.N = 2 ^ logN) (hlog : 1 ≤ logN) (hC : C.Good)
    (hF : C.Fits) {ev : Ev C} (hok : ev.Ok) {ct : CCt C} {L : ℕ} {sc : ℚ} (hsc : 0 < sc) {z : ℂ}
    {η : ℝ} (h : Sees s S L sc ct (fun _ => z) η) (k : ℤ) {rkSet : RotationKeySet (RotKey C)}
    {rk : ℕ → String → RotKey C} {a : ℕ → SwKey C} {D T B : ℤ} (hD0 : 0 ≤ D) (hT0 : 0 ≤ T)
    (hB0 : 0 ≤ B)
    (hk : slotIdx C.N k = 0 ∨ KeysAt prm.crs rkSet S.toFinset rk a (slotIdx C.N k) ∧
      RotFor S.toFinset rk a s T B (slotIdx C.N k))
    (hD : ∀ k < C.beta L, (2 * blockSetProd C L k : ℤ) ≤ D) (πh π : Sched) :
    ∃ ev1 H ev' r, ev.HoistedForm ct πh = .ok (ev1, H) ∧
      ev1.RotateHoistedNew prm ct k H rkSet π = .ok (ev', r) ∧
      Sees s S L sc r (fun _ => z) (η + rotEta C prm.crs S.toFinset.card D T B L k / sc) := by
  have hidx : ∀ idx, rotNeeds prm.crs (slotIdx C.N k) idx →
      idx = slotIdx C.N k ∧ slotIdx C.N k ≠ 0 := by
    rintro idx ⟨h0, hi⟩
    have hhas : prm.crs.has (slotIdx C.N k : ℕ) = true := by
      rw [GoMap.has_iff]
      exact GoMap.mem_keys_of_get? (hk.resolve_left h0).1.1
    rw [if_pos hhas] at hi
    exact ⟨hi, h0⟩
  have hkeys : ∀ idx, rotNeeds prm.crs (slotIdx C.N k) idx →
      KeysAt prm.crs rkSet S.toFinset rk a idx ∧ RotFor S.toFinset rk a s T B idx := fun idx hi => by
    obtain ⟨rfl, h0⟩ := hidx idx hi
    exact hk.resolve_left h0
  have hkeys' : ∀ idx, KeysAt prm.crs rkSet S.toFinset rk a idx →
      KeysAt prm.crs rkSet ct.ct.parties rk a idx := fun idx hi =>
    ⟨hi.1, fun id hid => hi.2 id (h.sub hid)⟩
  obtain ⟨ev1, H, e1, hok1, hH⟩ := C23_HoistedForm hC hok h.wf πh
  obtain ⟨ev2, r2, e2, h2⟩ := h.rotate hN hlog hC hF hok1 hsc k (fun idx hi => (hkeys idx hi).1) hD0 hT0
    hB0 (fun idx hi => (hkeys idx hi).2) hD π
  obtain ⟨ev3, r3, e3, -, h3⟩ := rotateNew_spec hN hlog hC hok1 h.lt h.wf k
    (fun idx hi => hkeys' idx (hkeys idx hi).1) π
  obtain ⟨ev4, r4, e4, -, h4⟩ := rotateHoistedNew_spec hN hlog hC hok1 h.lt h.wf k
    (hk.imp_right fun hi => hkeys' _ hi.1) hH π
  rw [e2] at e3
  simp only [Except.ok.injEq, Prod.mk.injEq] at e3
  obtain ⟨-, rfl⟩ := e3
  exact ⟨ev1, H, ev4, _, e1, e4, h2.of_ctIs (zero_notMem_parties _) h3 h4 rfl⟩

/-- **C72**, `testEvaluatorRotHoisted` passes for every number drawn.  As in the test of `RotateNew`,
the comparison is with a constant message and so does not depend on the rotation (`C72_Rot_any`). -/
theorem C72_RotHoisted_pass (R : Ready E prm kb s e S enc dec ev users d M ε δ W) (hlq : 1 ≤ C.lq)
    (hF : C.Fits) {logSlots draw : ℕ} (hlog : logSlots ≠ 1) {rot : ℤ}
    (hrot : rot = 2 ^ (draw % (logSlots - 1))) {rkSet : RotationKeySet (RotKey C)}
    {rk : ℕ → String → RotKey C} {a : ℕ → SwKey C} {D T B : ℤ} (hD0 : 0 ≤ D) (hT0 : 0 ≤ T)
    (hB0 : 0 ≤ B)
    (hk : slotIdx C.N rot = 0 ∨ KeysAt prm.crs rkSet S.toFinset rk a (slotIdx C.N rot) ∧
      RotFor S.toFinset rk a s T B (slotIdx C.N rot))
    (hD : ∀ k < C.beta (C.lq - 1), (2 * blockSetProd C (C.lq - 1) k : ℤ) ≤ D) {η : ℝ}
    (hη : η = (users.length + 1 : ℕ) * (ε + W / prm.scale) +
      rotEta C prm.crs S.toFinset.card D T B (C.lq - 1) rot / prm.scale)
    (hM3 : 3 ≤ M) (hM : 3 + η ≤ M)
    (hQ : 2 * (prm.scale * M) < C.qProd (min (C.lq - 1) dec.pool.level))
    (htol : prm.scale * (η + δ) ≤ 2 ^ (logSlots + 11)) (π : ℕ → Sched) (πd πh πo π' : Sched) :
    testEvaluatorRotHoisted draw rkSet E prm logSlots kb enc dec ev users d π πd πh πo π' =
      .ok true := by
  obtain ⟨logN, hN, hlogN⟩ := R.pow
  subst hη hrot
  unfold testEvaluatorRotHoisted
  rw [if_neg hlog]
  refine C72_Rot_any R hlq (fun z ev ct hok h => ?_) hM3 hM hQ htol _ π πd π'
  obtain ⟨ev1, H, ev', r, g1, g2, g3⟩ := h.rotateHoisted hN hlogN R.good hF hok R.scale _ hD0 hT0 hB0 hk
    hD πh πo
  exact ⟨ev', r, by simp only [g1, g2, Go.ok_bind], g3⟩

/-- **C72**, `testEvaluatorRotHoisted` panics for two slots, whatever the program does. -/
theorem C72_RotHoisted_panics (draw : ℕ) (rkSet : RotationKeySet (RotKey C)) (E : Encoder C (List ℂ))
    (prm : CPar C) (kb : KeyBag C) (enc : CEnc C) (dec : CDec C) (ev : Ev C) (users : List String)
    (d : ℕ → Draw C) (π : ℕ → Sched) (πd πh πo π' : Sched) :
    (testEvaluatorRotHoisted draw rkSet E prm 1 kb enc dec ev users d π πd πh πo π').panics :=
  ⟨_, if_pos rfl⟩

/-! ## `testEvaluatorMulPtxt` -/

/-- The product with an encoded constant message. -/
theorem Sees.mulPtxt (hC : C.Good) (hfl : prm.fl.Ok) (hs : 0 < prm.scale)
    (hE : E.Accurate prm.scale (C.N / 2) M ε δ) (ev : Ev C)
    {ct : CCt C} {L : ℕ} {sc : ℚ} (hsc : 0 < sc) {x : ℕ → ℂ} {η X : ℝ} (h : Sees s S L sc ct x η)
    (hX : ∀ j < C.N / 2, ‖x j‖ ≤ X) {z : ℂ} {Z : ℝ} (hz : ‖z‖ ≤ Z) (hZ : Z ≤ M) {T : ℤ} (hT0 : 0 ≤ T)
    (hT : ∀ id ∈ S, (s id).Bdd T)
    (hn : RescaleBy prm.fl C.q prm.scale (prm.fl.rnd (sc * prm.scale)) L 1) (π : Sched) :
    ∃ ev' out, ev.MulPtxtNew prm ct (EncodeMsgNew E prm (List.replicate (C.N / 2) z)).1
        (EncodeMsgNew E prm (List.replicate (C.N / 2) z)).2 π = .ok (ev', out) ∧
      Sees s S (L - 1) (prodScale prm.fl C.q L sc prm.scale) out (fun j => x j * z)
        (prodErr X Z η ε (C.N * (rescaleErr C L 1 S.toFinset.card T : ℝ)) (C.q L) sc prm.scale
          (prodScale prm.fl C.q L sc prm.scale)) := by
  obtain ⟨m, hm, hx⟩ := h.val
  obtain ⟨-, h2, h3, h4⟩ := C49_EncodeMsgNew E prm (List.replicate (C.N / 2) z)
  have hlt := h.lt
  have hn' := hn
  rw [← h.scale] at hn'
  obtain ⟨ev', r, m', e1, w, hp, hsc', hm', herr⟩ := C20_MulPtxtNew_slots hC (ev := ev) h.wf hlt
    (EncodeMsgNew E prm (List.replicate (C.N / 2) z)).1 prm.scale hn' (fun id hi => hT id (h.parties id hi))
    π hm (mp := E.encode (List.replicate (C.N / 2) z) prm.scale) (fun i hi => by
      have := h4 i (by unfold Ctx.lq; omega)
      unfold RPoly.val at this
      rwa [h2, if_neg Bool.false_ne_true] at this)
  rw [← h3] at e1
  have hq : 0 < C.q L := hC.posQ _
  refine ⟨ev', r, e1, w, by omega, fun id hi => h.parties id (by rwa [← hp]), ?_, m', hm', fun j hj => ?_⟩
  · rw [hsc', h.scale]; rfl
  · have g1 := hE.enc (List.replicate (C.N / 2) z) (by simp)
      (fun y hy => by rw [List.eq_of_mem_replicate hy]; exact hz.trans hZ) j hj
    have g2 : (List.replicate (C.N / 2) z).getD j 0 = z := by simp [hj]
    rw [g2] at g1
    refine prod_show hsc hs (prodScale_pos hfl hq hsc hs) hq (hx j hj) g1 (hX j hj) hz ?_
    have := herr j
    rw [prod_range_one, Nat.sub_zero] at this
    refine this.trans ?_
    have h5 : ((rescaleErr C L 1 ct.ct.parties.card T : ℤ) : ℝ) ≤ (rescaleErr C L 1 S.toFinset.card T : ℤ) := by
      exact_mod_cast rescaleErr_mono hT0 (card_le_card h.sub)
    gcongr

/-- **C72**, `testEvaluatorMulPtxt` passes when the tolerance pays for the noise. -/
theorem C72_MulPtxt_pass (R : Ready E prm kb s e S enc dec ev users d M ε δ W) (hlq : 1 ≤ C.lq)
    {T : ℤ} (hT0 : 0 ≤ T) (hT : ∀ id ∈ S, (s id).Bdd T)
    (hn : RescaleBy prm.fl C.q prm.scale (prm.fl.rnd (prm.scale * prm.scale)) (C.lq - 1) 1) {sc : ℚ}
    (hsc : sc = prodScale prm.fl C.q (C.lq - 1) prm.scale prm.scale) {η : ℝ}
    (hη : η = prodErr 3 3 ((users.length + 1 : ℕ) * (ε + W / prm.scale)) ε
      (C.N * (rescaleErr C (C.lq - 1) 1 S.toFinset.card T : ℝ))
      (C.q (C.lq - 1)) prm.scale prm.scale sc)
    (hM3 : 3 ≤ M) (hM : 9 + η ≤ M)
    (hQ : 2 * (sc * M) < C.qProd (min (C.lq - 1 - 1) dec.pool.level)) {logSlots : ℕ}
    (htol : prm.scale * (η + δ) ≤ 2 ^ (logSlots + 12)) (π : ℕ → Sched) (πd πo π' : Sched) :
    testEvaluatorMulPtxt E prm logSlots kb enc dec ev users d π πd πo π' = .ok true := by
  subst hη hsc
  have hlen : 0 < users.length := List.length_pos_iff.mpr R.nonempty
  obtain ⟨out, e1, h1, h2⟩ := testSum_spec R (z := zMul users.length) ((zMul_norm' hlen).trans hM3)
    (op := fun msg ev ct => do
      let pt := EncodeMsgNew E prm msg
      let c ← dropLevel ct.ct 1 (πd.f 0 ct.ct.value.keys)
      ev.MulPtxtNew prm ⟨c, ct.scale⟩ pt.1 pt.2 πo)
    (cmp := fun msg out => checkC prm logSlots 12 out.length fun i =>
      out.getD i 0 - msg.getD i 0 * msg.getD i 0) π π'
    (prodScale_pos R.fl (R.good.posQ (C.lq - 1)) R.scale R.scale)
    (x := fun _ => (((users.length + 1 : ℕ) : ℂ) * zMul users.length) *
      (((users.length + 1 : ℕ) : ℂ) * zMul users.length)) (X := 9) (L := C.lq - 1 - 1)
    (fun ev ct hok hct => by
      obtain ⟨c, g1, g2⟩ := hct.drop hlq πd
      obtain ⟨ev', r, g3, g4⟩ := g2.mulPtxt R.good R.fl R.scale R.encoder ev R.scale
        (fun _ _ => zMul_norm hlen) (zMul_norm hlen) hM3 hT0 hT hn πo
      exact ⟨ev', r, by simp only [g1, g3, Go.ok_bind], g4⟩)
    (fun _ _ => by
      have := zMul_norm hlen
      rw [norm_mul]
      nlinarith [norm_nonneg (((users.length + 1 : ℕ) : ℂ) * zMul users.length)]) hM hQ
  unfold testEvaluatorMulPtxt
  change testSum _ _ (zMul users.length) _ _ _ _ _ _ _ _ _ _ = _
  rw [e1]
  congr 1
  refine checkC_of_close R.scale (fun i hi => ?_) htol
  rw [h1] at hi
  have := h2 i hi
  simpa [hi] using this

/-! ## `testEvaluatorRescale` -/

theorem slot_intCast_mul {N : ℕ} [NeZero N] (k : ℤ) (m : Nega N ℤ) (j : ℕ) :
    slot (Int.castRingHom ℂ) ((k : Nega N ℤ) * m) j = k * slot (Int.castRingHom ℂ) m j := by
  unfold slot
  rw [mul_sum]
  refine sum_congr rfl fun i _ => ?_
  rw [Nega.coeff_intCast_mul]
  simp [mul_assoc]

/-- The integer `MultByConst` multiplies with when it is given the modulus `q`. -/
def modConst (F : Fl) (q : ℕ) : ℤ := roundConst F (F.rnd q) 1

/-- It is `q` up to floating point errors (`q` itself below `2^52`). -/
theorem modConst_near {F : Fl} (hF : F.Ok) (q : ℕ) :
    |(modConst F q : ℚ) - q| ≤ 1 / 2 + (5 * q + 1) / 2 ^ 53 := by
  have h1 := roundConst_error hF (F.rnd q) (sc := 1) zero_le_one
  have h2 := hF.rel q
  have h3 : |(q : ℚ)| = q := abs_of_nonneg (Nat.cast_nonneg _)
  rw [h3] at h2
  rw [one_mul] at h1
  have h4 : |F.rnd (q : ℚ)| ≤ q + q / 2 ^ 53 := by
    have := abs_sub_abs_le_abs_sub (F.rnd (q : ℚ)) q
    rw [h3] at this
    linarith
  have h5 := abs_add_le ((modConst F q : ℚ) - F.rnd q) (F.rnd q - q)
  rw [sub_add_sub_cancel] at h5
  have h6 : |(modConst F q : ℚ) - F.rnd q| ≤ 1 / 2 + (3 * |F.rnd (q : ℚ)| + 1) / 2 ^ 53 := h1
  have h7 : (0 : ℚ) ≤ q := Nat.cast_nonneg _
  calc |(modConst F q : ℚ) - q| ≤ 1 / 2 + (3 * (q + q / 2 ^ 53) + 1) / 2 ^ 53 + q / 2 ^ 53 := by
        refine h5.trans (add_le_add (h6.trans ?_) h2)
        gcongr
    _ ≤ _ := by
        have : (q : ℚ) / 2 ^ 53 ≤ q / 4 := by gcongr; norm_num
        have h8 : (3 * (q + q / 2 ^ 53) + 1 : ℚ) / 2 ^ 53 + q / 2 ^ 53 ≤ (5 * q + 1) / 2 ^ 53 := by
          rw [← add_div]
          exact div_le_div_of_nonneg_right (by linarith) (by positivity)
        linarith

theorem modConst_pos {F : Fl} (hF : F.Ok) {q : ℕ} (hq : 2 ≤ q) : 0 < modConst F q := by
  have h := (abs_le.mp (modConst_near hF q)).1
  have h1 : (2 : ℚ) ≤ q := by exact_mod_cast hq
  have h2 : (0 : ℚ) < modConst F q := by
    have : (5 * (q : ℚ) + 1) / 2 ^ 53 ≤ (5 * q + 1) / 2 ^ 4 := by gcongr <;> norm_num
    linarith
  exact_mod_cast h2

/-- The scale in `testEvaluatorRescale` before and after `Rescale`. -/
def bigScale (prm : CPar C) (q : ℕ) : ℚ := prm.fl.rnd (prm.fl.rnd (prm.scale * 1) * prm.fl.rnd q)

/-- Multiplication by the last modulus, and rescaling. -/
theorem Sees.mulRescale (hC : C.Good) (hfl : prm.fl.Ok) (hs : 0 < prm.scale) (ev : Ev C)
    {ct : CCt C} {L : ℕ} (hq2 : 2 ≤ C.q L) {x : ℕ → ℂ} {η X : ℝ} (h : Sees s S L prm.scale ct x η)
    (hX : ∀ j < C.N / 2, ‖x j‖ ≤ X) {T : ℤ} (hT0 : 0 ≤ T) (hT : ∀ id ∈ S, (s id).Bdd T)
    (hn : RescaleBy prm.fl C.q prm.scale (bigScale prm (C.q L)) L 1) {sc : ℚ}
    (hsc : sc = scaleSeq prm.fl C.q L (bigScale prm (C.q L)) 1) (hsc0 : 0 < sc) (π π' : Sched) :
    ∃ c ev' out, prm.MultByConst ct (.u64 (C.q L)) ct π = .ok c ∧
      ev.rescaleSelf prm ⟨c.ct, prm.fl.rnd (c.scale * prm.fl.rnd (C.q L))⟩ prm.scale π' =
        .ok (none, ev', out) ∧
      Sees s S (L - 1) sc out x
        (prodErr X 1 η 0 (C.N * (rescaleErr C L 1 S.toFinset.card T : ℝ)) (C.q L) prm.scale
          (modConst prm.fl (C.q L)) sc) := by
  obtain ⟨m, hm, hx⟩ := h.val
  have hlt := h.lt
  obtain ⟨c, k, e1, hk, hcs, cw, cp, cph, -⟩ := C16_MultByConst hC hfl h.wf h.wf rfl
    (Const.IsReal.u64 (C.q L)) π
  obtain rfl : k = 1 := hk
  rw [min_self] at cph
  have hsc1 : prm.fl.rnd (c.scale * prm.fl.rnd (C.q L)) = bigScale prm (C.q L) := by
    rw [hcs, h.scale]; rfl
  have hm' : (⟨c.ct, prm.fl.rnd (c.scale * prm.fl.rnd (C.q L))⟩ : CCt C).ct.Carries s L
      ((modConst prm.fl (C.q L) : Nega C.N ℤ) * m) := fun i hi => by
    show c.ct.phase s i = _
    rw [cph s i hi, hm i hi, map_mul, map_intCast]
    rfl
  have hc := cw.ctIs
  rw [← insert_parties cw] at hc
  rcases hn with ⟨-, h0⟩ | ⟨n1, n2, n3, n4⟩
  · omega
  obtain ⟨err, pool, r, e2, hr, -⟩ := rescaleSelf_spec (prm := prm) (ev := ev) (ms := prm.scale)
    (ct := ⟨c.ct, prm.fl.rnd (c.scale * prm.fl.rnd (C.q L))⟩) (mem_insert_self _ _) hc
    (by rw [hsc1]; exact Or.inr ⟨n1, n2, n3, n4⟩) π'
  obtain ⟨ev3, r3, m3, e3, w3, hm3, herr⟩ := C18_Rescale_slots hC (prm := prm) (ev := ev)
    (ct := ⟨c.ct, prm.fl.rnd (c.scale * prm.fl.rnd (C.q L))⟩) cw hlt n1
    (by rw [hsc1]; exact n2) n3 (by rw [hsc1]; exact n4)
    (s := s) (T := T) (fun id hi => hT id (h.parties id (by rw [← cp]; exact hi))) π' hm'
  rw [e3] at e2
  simp only [Except.ok.injEq, Prod.mk.injEq] at e2
  obtain ⟨rfl, rfl, rfl⟩ := e2
  have hq : 0 < C.q L := hC.posQ _
  have hpos := modConst_pos hfl hq2
  have hposQ : (0 : ℚ) < modConst prm.fl (C.q L) := by exact_mod_cast hpos
  refine ⟨c, _, _, e1, e3, w3, by omega, fun id hi => h.parties id ?_, ?_, m3, hm3, fun j hj => ?_⟩
  · rw [hr.parties (zero_notMem_parties _), cp] at hi
    exact hi
  · rw [hsc, ← hsc1]
  · have g := prod_show hs hposQ hsc0 hq (hx j hj) (mb := (modConst prm.fl (C.q L) : ℂ)) (xb := 1)
      (eb := 0) (Xb := 1) (mz := islot m3 j)
      (η := C.N * (rescaleErr C L 1 S.toFinset.card T : ℝ)) (by
        have : ((modConst prm.fl (C.q L) : ℚ) : ℂ) = (modConst prm.fl (C.q L) : ℂ) := by push_cast; rfl
        rw [this, div_self (by exact_mod_cast hpos.ne'), sub_self, norm_zero]) (hX j hj) (by simp) (by
        have := herr j
        rw [prod_range_one, Nat.sub_zero, islot, islot, slot_intCast_mul, mul_comm (modConst _ _ : ℂ)] at this
        refine this.trans ?_
        have h5 : ((rescaleErr C L 1 c.ct.parties.card T : ℤ) : ℝ) ≤
            (rescaleErr C L 1 S.toFinset.card T : ℤ) := by
          rw [cp]
          exact_mod_cast rescaleErr_mono hT0 (card_le_card h.sub)
        gcongr)
    rwa [mul_one] at g

/-- **C72**, `testEvaluatorRescale` passes when the tolerance pays for the noise of the two
encryptions, the rounding of `Rescale` and the `float64` error in the modulus. -/
theorem C72_Rescale_pass {logN : ℕ} (hN : C.N = 2 ^ logN) (hlog : 1 ≤ logN) (hC : C.Good)
    (hfl : prm.fl.Ok) (K : Keys kb s e S) (hs : 0 < prm.scale)
    (hE : E.Accurate prm.scale (C.N / 2) M ε δ) (he : EncOk prm enc)
    (hd : dec.pool.isNTT = false) (hok : ev.Ok) (hu1 : "user1" ∈ S) (hu2 : "user2" ∈ S)
    {d1 d2 : Draw C} (hd1 : d1.Unit) (hd2 : d2.Unit)
    (hW1 : ∀ j < C.N / 2, ‖islot (noise s e d1 "user1") j‖ ≤ W)
    (hW2 : ∀ j < C.N / 2, ‖islot (noise s e d2 "user2") j‖ ≤ W)
    (hq2 : 2 ≤ C.q C.lq) {T : ℤ} (hT0 : 0 ≤ T) (hT : ∀ id ∈ S, (s id).Bdd T)
    (hn : RescaleBy prm.fl C.q prm.scale (bigScale prm (C.q C.lq)) C.lq 1) {sc : ℚ}
    (hsc : sc = scaleSeq prm.fl C.q C.lq (bigScale prm (C.q C.lq)) 1) (hsc0 : 0 < sc) {η : ℝ}
    (hη : η = prodErr 4 1 (2 * (ε + W / prm.scale)) 0
      (C.N * (rescaleErr C C.lq 1 S.toFinset.card T : ℝ)) (C.q C.lq) prm.scale
      (modConst prm.fl (C.q C.lq)) sc)
    (hM1 : 2 + (ε + W / prm.scale) ≤ M) (hM2 : 2 ≤ M) (hM : 4 + η ≤ M)
    (hQ1 : 2 * (prm.scale * M) < C.qProd (min C.lq dec.pool.level))
    (hQ : 2 * (sc * M) < C.qProd (min (C.lq - 1) (min C.lq dec.pool.level))) {logSlots : ℕ}
    (htol1 : prm.scale * ((ε + W / prm.scale) + δ) ≤ 2 ^ (logSlots + 8))
    (htol : prm.scale * (η + δ) ≤ 2 ^ (logSlots + 8)) (π : ℕ → Sched) :
    testEvaluatorRescale E prm logSlots kb enc dec ev d1 d2 π = .ok true := by
  subst hη
  refine testBinary_pass hN hlog hC K hs hE he hd hok hu1 hu2 hd1 hd2 hW1 hW2
    (fun x y hx hy => (norm_add_le _ _).trans (by linarith)) hsc0
    (fun ev a b x y ho hx hy ha hb => ?_) hM1 hM2 hM hQ1 hQ htol1 htol π
  obtain ⟨ev', r, e1, -, h⟩ := ha.add hC hfl ho hb (π 3)
  obtain ⟨c, ev2, out, e2, e3, h3⟩ := Sees.mulRescale hC hfl hs ev' hq2
    (h.congr (fun _ _ => rfl) (two_mul _).ge) (X := 4)
    (fun j hj => (norm_add_le _ _).trans (by linarith [hx j hj, hy j hj])) hT0 hT hn hsc hsc0 (π 4) (π 5)
  refine ⟨ev2, out, ?_, h3⟩
  simp only [ha.wf.level, Go.ok_bind, e1, e2, e3, Go.pure_eq]

end MK.CT
