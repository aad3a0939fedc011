import Verif.MbMain
import Verif.Props.LrMain

/-!
# C52: `main` of lr_minibatch.go from the parsed data to the printed results
-/

noncomputable section

namespace MK.Lr

open Finset
open Word (idx upd idx_of_lt upd_of_lt)

variable {C : Ctx} {E : Encoder C (List ℂ)} {prm : CPar C} {n : ℕ} {M ε δ : ℝ}

/-! ## Tables -/

theorem tabulate_spec {σ α : Type} {n : ℕ} {f : ℕ → σ → Go (σ × α)} {Inv : σ → Prop}
    {P : ℕ → α → Prop}
    (hf : ∀ i < n, ∀ s, Inv s → ∃ s' x, f i s = .ok (s', x) ∧ Inv s' ∧ P i x) {s : σ} (hs : Inv s) :
    ∃ s' l, tabulate n f s = .ok (s', l) ∧ Inv s' ∧ l.length = n ∧
      ∀ i < n, ∃ x, l[i]? = some x ∧ P i x := by
  unfold tabulate
  induction n with
  | zero => exact ⟨s, [], rfl, hs, rfl, fun i hi => absurd hi (by omega)⟩
  | succ n ih =>
    obtain ⟨s1, l, e1, h1, h2, h3⟩ := ih fun i hi => hf i (by omega)
    obtain ⟨s2, x, e2, h4, h5⟩ := hf n (by omega) s1 h1
    refine ⟨s2, l ++ [x], ?_, h4, by simp [h2], fun i hi => ?_⟩
    · show (forUp n _ (s, []) >>= _) = _
      rw [e1]
      simp only [Go.ok_bind, e2, Go.pure_eq]
    · rcases Nat.lt_succ_iff_lt_or_eq.mp hi with hi | rfl
      · obtain ⟨y, h6, h7⟩ := h3 i hi
        exact ⟨y, by rw [List.getElem?_append_left (by omega), h6], h7⟩
      · exact ⟨x, by rw [List.getElem?_append_right (by omega), h2]; simp, h5⟩

theorem at2_of {α : Type} {m k : ℕ} {l : List (List α)} {P : ℕ → ℕ → α → Prop}
    (h : ∀ b < m, ∃ r, l[b]? = some r ∧ ∀ i < k, ∃ x, r[i]? = some x ∧ P b i x) (dflt : α)
    {b i : ℕ} (hb : b < m) (hi : i < k) : P b i (at2 dflt l b i) := by
  obtain ⟨r, h1, h2⟩ := h b hb
  obtain ⟨x, h3, h4⟩ := h2 i hi
  have e : l.getD b [] = r := by rw [List.getD_eq_getElem?_getD, h1, Option.getD_some]
  rw [at2, e, List.getD_eq_getElem?_getD, h3]
  exact h4

theorem labelVectors_spec {s : Shape} {labels : List ℂ} {L : ℕ → ℕ → List ℂ}
    (h : ∀ b i, packBatchLabel s labels b i = .ok (L b i)) :
    ∃ l, labelVectors s labels = .ok l ∧
      ∀ b < s.numBatch, ∀ i < s.numCtPerBatch, at2 [] l b i = L b i := by
  obtain ⟨u, l, e, -, -, h1⟩ := tabulate_spec (n := s.numBatch) (Inv := fun _ : Unit => True)
    (P := fun b r => ∀ i < s.numCtPerBatch, ∃ x, r[i]? = some x ∧ x = L b i)
    (f := fun b => tabulate s.numCtPerBatch fun i _ => do
      let l ← packBatchLabel s labels b i
      return ((), l))
    (fun b _ st _ => by
      obtain ⟨u', r, e1, -, -, h2⟩ := tabulate_spec (n := s.numCtPerBatch) (Inv := fun _ : Unit => True)
        (P := fun i x => x = L b i) (f := fun i _ => do
          let l ← packBatchLabel s labels b i
          return ((), l)) (s := st)
        (fun i _ st _ => ⟨(), L b i, by rw [h b i]; rfl, trivial, rfl⟩) trivial
      exact ⟨u', r, e1, trivial, h2⟩) (s := ()) trivial
  refine ⟨l, ?_, fun b hb i hi => at2_of (P := fun b i x => x = L b i) h1 [] hb hi⟩
  rw [labelVectors, e]
  rfl

section
variable [NeZero n] {logN numCompany : ℕ} {rnd : MainRand C} {D B : ℤ} {η : ℝ} {ids : IDSet}
  {kb : KeyBag C} {pk : PublicKey C}

omit [NeZero n] in
theorem encryptZ_spec (X : MainKeys E prm n logN numCompany rnd D B M η ids kb pk) {s : Shape}
    {data : List (List ℂ)} {Z : ℕ → ℕ → List ℂ} (h : ∀ b i, packBatchZ s data b i = .ok (Z b i))
    (hl : ∀ b i, (Z b i).length = n) (hM : ∀ b i, ∀ x ∈ Z b i, ‖x‖ ≤ M) (t k : ℕ → ℕ → ℕ)
    {enc : CEnc C} (he : EncOk prm enc) (dflt : CCt C) :
    ∃ enc' z, encryptZ E prm s (fun b i => rnd.enc (t b i))
        (fun b i => rnd.ids.f (k b i) (GoMap.keys ids)) pk data enc = .ok (enc', z) ∧
      EncOk prm enc' ∧ ∀ b < s.numBatch, ∀ i < s.numCtPerBatch,
        Fresh prm (fun id => (rnd.party id).s) (companies numCompany).toFinset η (at2 dflt z b i)
          (toSlots n (Z b i)) := by
  obtain ⟨enc', z, e, h1, -, h2⟩ := tabulate_spec (n := s.numBatch) (Inv := EncOk prm)
    (P := fun b r => ∀ i < s.numCtPerBatch, ∃ ct, r[i]? = some ct ∧
      Fresh prm (fun id => (rnd.party id).s) (companies numCompany).toFinset η ct (toSlots n (Z b i)))
    (f := fun b => tabulate s.numCtPerBatch fun i enc => do
      let z ← packBatchZ s data b i
      enc.EncryptMsgNewExpand E prm (rnd.enc (t b i)) z pk (rnd.ids.f (k b i) (GoMap.keys ids)))
    (fun b _ enc henc => by
      obtain ⟨u', r, e1, h3, -, h4⟩ := tabulate_spec (n := s.numCtPerBatch) (Inv := EncOk prm)
        (P := fun i ct => Fresh prm (fun id => (rnd.party id).s) (companies numCompany).toFinset η ct
          (toSlots n (Z b i))) (f := fun i enc => do
          let z ← packBatchZ s data b i
          enc.EncryptMsgNewExpand E prm (rnd.enc (t b i)) z pk (rnd.ids.f (k b i) (GoMap.keys ids)))
        (fun i _ enc henc => by
          obtain ⟨enc', ct, q1, q2, q3⟩ := X.encAll henc (k b i) (t b i) (Z b i) (hl b i) (hM b i)
          exact ⟨enc', ct, by rw [h b i]; exact q1, q2, q3⟩) henc
      exact ⟨u', r, e1, h3, h4⟩) he
  exact ⟨enc', z, e, h1, fun b hb i hi => at2_of (P := fun b i ct =>
    Fresh prm (fun id => (rnd.party id).s) (companies numCompany).toFinset η ct (toSlots n (Z b i)))
    h2 dflt hb hi⟩

/-- The training loop with its encryptions of zero and its decryptions. -/
theorem mbLoop_spec (X : MainKeys E prm n logN numCompany rnd D B M η ids kb pk) {r : ℚ} {K : ℕ}
    {scale : ℚ} (H : Chain prm r K) (hE : E.Accurate scale n M ε δ) (hM0 : 0 ≤ M) (h2 : 2 ≤ n)
    {k : Consts (CCt C) (RQ C × ℚ)} {kx : Consts (Slots n ℂ) (Slots n ℂ)}
    (hk : ConstsRel (Fresh prm (fun id => (rnd.party id).s) (companies numCompany).toFinset η)
      (Encodes prm η) k kx) (s : Shape) (hn : s.numSlots = n) (hnb : 0 < s.numBatch)
    (hct : 1 ≤ s.numCtPerBatch) {d : ℕ → ℕ → Data (CCt C) (RQ C × ℚ)}
    {dx : ℕ → ℕ → Data (Slots n ℂ) (Slots n ℂ)}
    (hd : ∀ b < s.numBatch, ∀ i < s.numCtPerBatch,
      DataRel (Fresh prm (fun id => (rnd.party id).s) (companies numCompany).toFinset η)
        (Encodes prm η) (d b i) (dx b i)) {beta v : CCt C} {xb xv : Slots n ℂ}
    (hb : Fresh prm (fun id => (rnd.party id).s) (companies numCompany).toFinset η beta xb)
    (hv : Fresh prm (fun id => (rnd.party id).s) (companies numCompany).toFinset η v xv)
    {enc : CEnc C} (he : EncOk prm enc) (sch dsch : ℕ → Sched) (u : ℕ → ℕ) (t : ℕ)
    (hL : 4 * t + 1 ≤ C.nQ) (hK : 10 * (3 ^ t - 1) ≤ K) :
    ∃ st vb vv, forUp t (mbStep E prm kb sch dsch (fun i => rnd.enc (u i)) pk k s d)
        ⟨beta, v, Mach.start kb, CDec.new prm, enc, []⟩ = .ok st ∧
      EncOk prm st.enc ∧ st.mach.Ok (companies numCompany).toFinset kb.rk ∧
      mbTrainVal prm n (companies numCompany).toFinset.card D 1 B η kx s.numDataPerCt s.slotsPerData
        s.numBatch s.numCtPerBatch dx t xb xv = some (vb, vv) ∧
      Shows (fun id => (rnd.party id).s) (companies numCompany).toFinset st.beta vb ∧
      Shows (fun id => (rnd.party id).s) (companies numCompany).toFinset st.v vv ∧
      st.dec.pool.isNTT = false ∧ C.nQ - 1 - 4 * t ≤ st.dec.pool.level ∧ st.prints.length = t ∧
      ∀ u < t, ∃ wb wv bd vd,
        mbTrainVal prm n (companies numCompany).toFinset.card D 1 B η kx s.numDataPerCt s.slotsPerData
          s.numBatch s.numCtPerBatch dx (u + 1) xb xv = some (wb, wv) ∧
        Reads E wb bd ∧ Reads E wv vd ∧ st.prints[u]? = some (bd.take 2, vd.take 2) := by
  induction t with
  | zero =>
    refine ⟨⟨beta, v, Mach.start kb, CDec.new prm, enc, []⟩, freshVal prm η xb, freshVal prm η xv, rfl,
      he, X.mach, rfl, hb, hv, rfl, ?_, rfl, fun u hu => absurd hu (by omega)⟩
    show C.nQ - 1 - 4 * 0 ≤ C.nQ - 1
    omega
  | succ t ih =>
    have h3 : 3 ^ t ≤ 3 ^ (t + 1) := Nat.pow_le_pow_right (by norm_num) (by omega)
    obtain ⟨st, vb, vv, e1, o1, hm, e2, s1, s2, d1, d2, p1, p2⟩ := ih (by omega) (by omega)
    obtain ⟨wb, wv, e3, m1, m2, -⟩ := mbTrainVal_spec H X.setup.good X.setup.fl
      (companies numCompany).toFinset.card D 1 B η kx s.numDataPerCt s.slotsPerData s.numBatch hct dx
      (numIter := t + 1) (by omega) (by unfold kAfter; omega) xb xv
    have rz : ∀ x ∈ List.replicate n (0 : ℂ), ‖x‖ ≤ M := by
      intro x hx
      rw [List.eq_of_mem_replicate hx, norm_zero]; exact hM0
    have tz : toSlots n (List.replicate n (0 : ℂ)) = 0 := by
      funext i; rw [toSlots_replicate]; rfl
    obtain ⟨enc1, g0, q1, o2, f1⟩ := X.enc1 o1 (u (2 * t)) _ (List.length_replicate) rz
    obtain ⟨enc2, u0, q2, o3, f2⟩ := X.enc1 o2 (u (2 * t + 1)) _ (List.length_replicate) rz
    rw [tz] at f1 f2
    have e4 : mbIter (boundHE prm n (companies numCompany).toFinset.card D 1 B)
        (kx.map (freshVal prm η) (freshPt η)) s.numDataPerCt s.slotsPerData s.numBatch s.numCtPerBatch
        (fun b i => (dx b i).map (freshVal prm η) (freshPt η))
        (fun _ => (freshVal prm η 0, freshVal prm η 0)) t (vb, vv) = some (wb, wv) := by
      have : mbTrainVal prm n (companies numCompany).toFinset.card D 1 B η kx s.numDataPerCt
          s.slotsPerData s.numBatch s.numCtPerBatch dx (t + 1) xb xv =
          (mbTrainVal prm n (companies numCompany).toFinset.card D 1 B η kx s.numDataPerCt
            s.slotsPerData s.numBatch s.numCtPerBatch dx t xb xv >>= fun x =>
            mbIter (boundHE prm n (companies numCompany).toFinset.card D 1 B)
              (kx.map (freshVal prm η) (freshPt η)) s.numDataPerCt s.slotsPerData s.numBatch
              s.numCtPerBatch (fun b i => (dx b i).map (freshVal prm η) (freshPt η))
              (fun _ => (freshVal prm η 0, freshVal prm η 0)) t x) := rfl
      rw [this, e2] at e3
      exact e3
    obtain ⟨⟨b', v'⟩, m', e5, hm', t1, t2⟩ := mbIter_sim (realHE_sim X.setup sch) (constsShow hk)
      s.numDataPerCt s.slotsPerData s.numBatch s.numCtPerBatch (d₁ := d)
      (d₂ := fun b i => (dx b i).map (freshVal prm η) (freshPt η)) (z₁ := fun _ => (g0, u0))
      (z₂ := fun _ => (freshVal prm η 0, freshVal prm η 0)) t
      (fun c hc => dataShow (hd _ (Nat.mod_lt _ hnb) c hc)) ⟨f1, f2⟩ (s := (st.beta, st.v))
      (t := (vb, vv)) ⟨s1, s2⟩ _ e4 st.mach hm
    have t1 : Shows (fun id => (rnd.party id).s) (companies numCompany).toFinset b' wb := t1
    have t2 : Shows (fun id => (rnd.party id).s) (companies numCompany).toFinset v' wv := t2
    have l1 : wb.lvl = C.nQ - 1 - 4 * (t + 1) := m1.1
    have l2 : wv.lvl = C.nQ - 1 - 4 * (t + 1) := m2.1
    obtain ⟨dec1, bd, f1, f2, f3, f4⟩ := decrypt_shows X.setup.good E d1 t1 (by omega) X.keyed X.sk
      (dsch (2 * t))
    obtain ⟨dec2, vd, g1, g2, g3, g4⟩ := decrypt_shows X.setup.good E f2 t2 (by omega) X.keyed X.sk
      (dsch (2 * t + 1))
    refine ⟨⟨b', v', m', dec2, enc2, st.prints ++ [(bd.take 2, vd.take 2)]⟩, wb, wv, ?_, o3, hm', e3, t1,
      t2, g2, by show _ ≤ dec2.pool.level; omega, by simp [p1], fun u hu => ?_⟩
    · show (forUp t (mbStep E prm kb sch dsch (fun i => rnd.enc (u i)) pk k s d)
        ⟨beta, v, Mach.start kb, CDec.new prm, enc, []⟩ >>= _) = _
      rw [e1]
      simp only [Go.ok_bind, mbStep, if_neg hnb.ne', hn, q1, q2, e5, f1, slice02_of_reads hE h2 f4, g1,
        slice02_of_reads hE h2 g4, Go.pure_eq]
    · rcases Nat.lt_succ_iff_lt_or_eq.mp hu with hu | rfl
      · obtain ⟨a1, a2, a3, a4, h1, h2, h3, h4⟩ := p2 u hu
        exact ⟨a1, a2, a3, a4, h1, h2, h3, by
          show (st.prints ++ _)[u]? = _
          rw [List.getElem?_append_left (by omega), h4]⟩
      · exact ⟨wb, wv, bd, vd, e3, f4, g4, by
          show (st.prints ++ _)[u]? = _
          rw [List.getElem?_append_right (by omega), p1]; simp⟩

end

/-! ## The values of a run -/

/-- What a run of `main` of lr_minibatch.go needs: parameters, keys and encryptions as in `RunOk`, a
batch shape that uses all slots, the mask as wide as a record, at least one batch, and data of the
expected shape. -/
structure MbOk (E : Encoder C (List ℂ)) (prm0 : CPar C) (logN : ℕ) (cfg : MbCfg) (rnd : MainRand C)
    (data : List (List ℂ)) (labels : List ℂ) (r : ℚ) (K : ℕ) (D B : ℤ) (M ε δ : ℝ) : Prop extends
    RunOk E prm0 logN cfg.hp cfg.numSlots cfg.numIter cfg.numCompany rnd r K D B M ε δ where
  rows : ∃ a, cfg.shape.numDataPerCt = 2 ^ a
  full : cfg.numSlots = cfg.shape.numDataPerCt * cfg.shape.slotsPerData
  mask : cfg.shape.slotsPerData = cfg.maskW
  batches : 0 < cfg.shape.numBatch
  trainData : cfg.numTrain ≤ cfg.numData
  dataLen : cfg.numData ≤ data.length
  labelLen : cfg.numData ≤ labels.length
  rowLen : ∀ i < cfg.numData, cfg.numFeature ≤ (data.getD i []).length
  dataLe : ∀ row ∈ data, ∀ x ∈ row, ‖x‖ ≤ M
  testId : cfg.testId < cfg.numData

theorem numCtPerBatch_pos {s : Shape} (h1 : 0 < s.numBatch) (h2 : 0 < s.numDataPerCt) :
    1 ≤ s.numCtPerBatch := by
  have h3 : 0 < s.batchSize := by
    rcases Nat.eq_zero_or_pos s.batchSize with h | h
    · rw [Shape.numBatch, h, Nat.div_zero] at h1; omega
    · exact h
  exact Nat.div_pos (by omega) h2

/-- The plain training in minibatches: iteration `a` uses the records of batch `a % numBatch`. -/
def plainMbTrain (cfg : MbCfg) (data : List (List ℂ)) (labels : List ℂ) (t : ℕ) :
    (ℕ → ℂ) × (ℕ → ℂ) :=
  nesterovRun cfg.hp (fun a => gradOn cfg.hp cfg.numFeature
    (Ico (cfg.shape.perBatch * (a % cfg.shape.numBatch))
      (min (cfg.shape.perBatch * (a % cfg.shape.numBatch + 1)) cfg.numTrain)) (entry data)
    fun d => target cfg.isCls (labels.getD d 0)) t (fun _ => 0, fun _ => 0)

/-- The plain prediction for the test record. -/
def plainMbPredict (cfg : MbCfg) (data : List (List ℂ)) (labels : List ℂ) : ℂ :=
  sigma3 cfg.hp (∑ j ∈ range cfg.numFeature,
    entry data cfg.testId j * (plainMbTrain cfg data labels cfg.numIter).1 j)

/-- The packed data, labels and test record. -/
def mbZ (cfg : MbCfg) (data : List (List ℂ)) (b i : ℕ) : List ℂ :=
  goGet (packBatchZ cfg.shape data b i)

@[inherit_doc mbZ]
def mbLabel (cfg : MbCfg) (labels : List ℂ) (b i : ℕ) : List ℂ :=
  goGet (packBatchLabel cfg.shape (labels.map (target cfg.isCls)) b i)

@[inherit_doc mbZ]
def mbTest (cfg : MbCfg) (data : List (List ℂ)) : List ℂ :=
  goGet (packTest cfg.numSlots cfg.numFeature (data.getD cfg.testId []))

/-- Level, scale, slots and error bound of `beta` and `v` after `t` iterations; `η` is the error of a
fresh ciphertext. -/
def mbMainVal (prm : CPar C) (cfg : MbCfg) [NeZero cfg.numSlots] (data : List (List ℂ))
    (labels : List ℂ) (D B : ℤ) (η : ℝ) (t : ℕ) : Option (AVal cfg.numSlots × AVal cfg.numSlots) :=
  mbTrainVal prm cfg.numSlots (companies cfg.numCompany).toFinset.card D 1 B η
    (constSlots cfg.numSlots cfg.maskW cfg.hp) cfg.shape.numDataPerCt cfg.shape.slotsPerData
    cfg.shape.numBatch cfg.shape.numCtPerBatch
    (fun b i => dataSlots cfg.numSlots cfg.hp (mbZ cfg data b i) (mbLabel cfg labels b i)) t 0 0

/-- The same of the result. -/
def mbInferVal (prm : CPar C) (cfg : MbCfg) [NeZero cfg.numSlots] (data : List (List ℂ))
    (labels : List ℂ) (D B : ℤ) (η : ℝ) : Option (AVal cfg.numSlots) := do
  let (vb, _) ← mbMainVal prm cfg data labels D B η cfg.numIter
  inferVal prm cfg.numSlots (companies cfg.numCompany).toFinset.card D 1 B η
    (constSlots cfg.numSlots cfg.maskW cfg.hp) cfg.numFeature
    (toSlots cfg.numSlots (mbTest cfg data)) vb

theorem packBatchLabel_congr (s : Shape) {l l' : List ℂ} (h1 : s.numTrain ≤ l.length)
    (h1' : s.numTrain ≤ l'.length) (h : ∀ i < s.numTrain, l.getD i 0 = l'.getD i 0) (b i : ℕ) :
    packBatchLabel s l b i = packBatchLabel s l' b i := by
  obtain ⟨z, e, h2, h3⟩ := C40_packBatchLabel s h1 b i
  obtain ⟨z', e', h2', h3'⟩ := C40_packBatchLabel s h1' b i
  rw [e, e']
  congr 1
  refine List.ext_getElem (h2.trans h2'.symm) fun j hj hj' => ?_
  have hc := s.slotsPerData_pos
  have e1 := h3 (j / s.slotsPerData) (j % s.slotsPerData) (Nat.mod_lt _ hc)
  have e2 := h3' (j / s.slotsPerData) (j % s.slotsPerData) (Nat.mod_lt _ hc)
  rw [Nat.div_add_mod, List.getD_eq_getElem _ _ hj] at e1
  rw [Nat.div_add_mod, List.getD_eq_getElem _ _ hj'] at e2
  rw [e1, e2]
  split_ifs with h4
  · exact h _ h4.1.2
  · rfl

variable {prm0 : CPar C} {logN : ℕ} {cfg : MbCfg} {rnd : MainRand C} {data : List (List ℂ)}
  {labels : List ℂ} {r : ℚ} {K : ℕ} {D B : ℤ}

/-- The packed lists: as the loops make them, of full length, bounded. -/
theorem mb_packs (h : MbOk E prm0 logN cfg rnd data labels r K D B M ε δ) {l : List ℂ}
    (ll : l.length = labels.length)
    (lt : ∀ i < cfg.numData, l.getD i 0 = target cfg.isCls (labels.getD i 0)) :
    (∀ b i, packBatchZ cfg.shape data b i = .ok (mbZ cfg data b i)) ∧
    (∀ b i, packBatchLabel cfg.shape l b i = .ok (mbLabel cfg labels b i)) ∧
    (∀ b i, (mbZ cfg data b i).length = cfg.numSlots) ∧ (∀ b i, ∀ x ∈ mbZ cfg data b i, ‖x‖ ≤ M) ∧
    (∀ b i, (mbLabel cfg labels b i).length = cfg.numSlots) ∧
    ∀ b i, ∀ y ∈ mbLabel cfg labels b i, y = 0 ∨ y = 1 := by
  have hM0 : 0 ≤ M := zero_le_one.trans h.hyper.one
  have hc := cfg.shape.slotsPerData_pos
  have ht : cfg.shape.numTrain = cfg.numTrain := rfl
  have hl1 : cfg.shape.numTrain ≤ l.length := by rw [ll, ht]; exact h.trainData.trans h.labelLen
  have hl2 : cfg.shape.numTrain ≤ (labels.map (target cfg.isCls)).length := by
    rw [List.length_map, ht]; exact h.trainData.trans h.labelLen
  have pz := C40_packBatchZ cfg.shape (data := data) (h.trainData.trans h.dataLen)
    fun i hi => h.rowLen i (lt_of_lt_of_le hi h.trainData)
  have pl := C40_packBatchLabel cfg.shape hl1
  have hlab : ∀ b i, packBatchLabel cfg.shape l b i =
      packBatchLabel cfg.shape (labels.map (target cfg.isCls)) b i := by
    refine fun b i => packBatchLabel_congr _ hl1 hl2 (fun j hj => ?_) b i
    rw [ht] at hj
    have hj' : j < labels.length := lt_of_lt_of_le hj (h.trainData.trans h.labelLen)
    rw [lt j (lt_of_lt_of_le hj h.trainData), List.getD_eq_getElem _ _ hj',
      List.getD_eq_getElem _ _ (by simpa using hj'), List.getElem_map]
  have z1 : ∀ b i, packBatchZ cfg.shape data b i = .ok (mbZ cfg data b i) := by
    intro b i
    obtain ⟨z, e, -⟩ := pz b i
    rw [mbZ, e]; rfl
  have l1 : ∀ b i, packBatchLabel cfg.shape l b i = .ok (mbLabel cfg labels b i) := by
    intro b i
    obtain ⟨z, e, -⟩ := pl b i
    rw [mbLabel, ← hlab, e]; rfl
  refine ⟨z1, l1, fun b i => ?_, fun b i => ?_, fun b i => ?_, fun b i => ?_⟩
  · obtain ⟨z, e, h1, -⟩ := pz b i
    rw [z1] at e
    obtain rfl := Except.ok.inj e
    exact h1
  · obtain ⟨z, e, h1, h2⟩ := pz b i
    rw [z1] at e
    obtain rfl := Except.ok.inj e
    refine mem_of_getD fun j _ => ?_
    rw [← Nat.div_add_mod j cfg.shape.slotsPerData, h2 _ _ (Nat.mod_lt _ hc)]
    split_ifs
    · exact entry_le hM0 h.dataLe _ _
    · simpa using hM0
  · obtain ⟨z, e, h1, -⟩ := pl b i
    rw [l1] at e
    obtain rfl := Except.ok.inj e
    exact h1
  · obtain ⟨z, e, h1, h2⟩ := pl b i
    rw [l1] at e
    obtain rfl := Except.ok.inj e
    refine mem_of_getD fun j _ => ?_
    rw [← Nat.div_add_mod j cfg.shape.slotsPerData, h2 _ _ (Nat.mod_lt _ hc)]
    split_ifs with h3
    · rw [lt _ (lt_of_lt_of_le h3.1.2 h.trainData), target]
      split_ifs
      · exact Or.inr rfl
      · exact Or.inl rfl
    · exact Or.inl rfl

/-- The values a run goes through, without ciphertexts. -/
theorem mb_values [NeZero cfg.numSlots] (h : MbOk E prm0 logN cfg rnd data labels r K D B M ε δ)
    {prm : CPar C} (H : Chain prm r K) (hfl : prm.fl.Ok) (η : ℝ) {l : List ℂ}
    (ll : l.length = labels.length)
    (lt : ∀ i < cfg.numData, l.getD i 0 = target cfg.isCls (labels.getD i 0)) :
    (∀ t ≤ cfg.numIter, ∃ vb vv, mbMainVal prm cfg data labels D B η t = some (vb, vv) ∧
        Replicated cfg.maskW vb.x (fun c => if c < cfg.numFeature then
          (plainMbTrain cfg data labels t).1 c else 0) ∧
        Replicated cfg.maskW vv.x (fun c => if c < cfg.numFeature then
          (plainMbTrain cfg data labels t).2 c else 0) ∧
        vb.lvl = C.nQ - 1 - 4 * t ∧ vv.lvl = C.nQ - 1 - 4 * t ∧ 0 < vb.scale ∧ 0 < vv.scale) ∧
    ∃ row vr, idx data cfg.testId = .ok row ∧
      packTest cfg.numSlots cfg.numFeature row = .ok (mbTest cfg data) ∧
      (mbTest cfg data).length = cfg.numSlots ∧ (∀ x ∈ mbTest cfg data, ‖x‖ ≤ M) ∧
      mbInferVal prm cfg data labels D B η = some vr ∧
      vr.x 0 = plainMbPredict cfg data labels ∧
      vr.lvl = C.nQ - 1 - 4 * cfg.numIter - 3 ∧ 0 < vr.scale := by
  obtain ⟨ra, hra⟩ := h.rows
  have hM0 : 0 ≤ M := zero_le_one.trans h.hyper.one
  have ht : cfg.shape.numTrain = cfg.numTrain := rfl
  have hdT : cfg.shape.numTrain ≤ data.length := h.trainData.trans h.dataLen
  have hrowT : ∀ i < cfg.shape.numTrain, cfg.shape.numFeature ≤ (data.getD i []).length :=
    fun i hi => h.rowLen i (lt_of_lt_of_le hi h.trainData)
  have hlT : cfg.shape.numTrain ≤ l.length := by rw [ll, ht]; exact h.trainData.trans h.labelLen
  obtain ⟨pz, pl, -⟩ := mb_packs h ll lt
  have tr := fun T => C39_minibatch (n := cfg.numSlots) cfg.shape hra h.full rfl h.mask cfg.hp h.c3
    h.batches hdT hrowT hlT T
  have hg : (fun a => gradOn cfg.hp cfg.shape.numFeature
      (Ico (cfg.shape.perBatch * (a % cfg.shape.numBatch))
        (min (cfg.shape.perBatch * (a % cfg.shape.numBatch + 1)) cfg.shape.numTrain)) (entry data)
      (fun d => l.getD d 0)) = fun a => gradOn cfg.hp cfg.numFeature
      (Ico (cfg.shape.perBatch * (a % cfg.shape.numBatch))
        (min (cfg.shape.perBatch * (a % cfg.shape.numBatch + 1)) cfg.numTrain)) (entry data)
      (fun d => target cfg.isCls (labels.getD d 0)) := by
    funext a v c
    unfold gradOn
    refine sum_congr rfl fun i hi => ?_
    show (_ - l.getD i 0) * _ = _
    have hi' : i < cfg.numTrain := by
      have := (mem_Ico.mp hi).2
      omega
    rw [lt i (lt_of_lt_of_le hi' h.trainData)]
    rfl
  have hlv := h.levels
  have hdr := h.drift
  have hct := numCtPerBatch_pos h.batches (by rw [hra]; positivity)
  have key : ∀ t ≤ cfg.numIter, ∃ vb vv, mbMainVal prm cfg data labels D B η t = some (vb, vv) ∧
        HasMeta C prm.scale r vb (C.nQ - 1 - 4 * t, kAfter t) ∧
        HasMeta C prm.scale r vv (C.nQ - 1 - 4 * t, kAfter t) ∧
        Replicated cfg.maskW vb.x (fun c => if c < cfg.numFeature then
          (plainMbTrain cfg data labels t).1 c else 0) ∧
        Replicated cfg.maskW vv.x (fun c => if c < cfg.numFeature then
          (plainMbTrain cfg data labels t).2 c else 0) := by
    intro t ht
    have h3 : 3 ^ t ≤ 3 ^ cfg.numIter := Nat.pow_le_pow_right (by norm_num) ht
    obtain ⟨vb, vv, e3, m1, m2, e4⟩ := mbTrainVal_spec H h.good hfl
      (companies cfg.numCompany).toFinset.card D 1 B η
      (constSlots cfg.numSlots cfg.maskW cfg.hp) cfg.shape.numDataPerCt cfg.shape.slotsPerData
      cfg.shape.numBatch hct
      (fun b i => dataSlots cfg.numSlots cfg.hp (mbZ cfg data b i) (mbLabel cfg labels b i))
      (numIter := t) (by omega) (by unfold kAfter; omega) 0 0
    obtain ⟨z, label, ez, elb, beta, v, e5, r1, r2⟩ := tr t
    obtain rfl : mbZ cfg data = z := by
      funext b i
      exact Except.ok.inj ((pz b i).symm.trans (ez b i))
    obtain rfl : mbLabel cfg labels = label := by
      funext b i
      exact Except.ok.inj ((pl b i).symm.trans (elb b i))
    rw [e5] at e4
    have q1 : vb.x = beta := congrArg Prod.fst e4
    have q2 : vv.x = v := congrArg Prod.snd e4
    rw [hg, h.mask] at r1 r2
    refine ⟨vb, vv, e3, m1, m2, ?_, ?_⟩
    · rw [q1]; exact r1
    · rw [q2]; exact r2
  obtain ⟨vb, vv, e1, m1, m2, r1, r2⟩ := key cfg.numIter le_rfl
  have htest : cfg.testId < data.length := lt_of_lt_of_le h.testId h.dataLen
  have hrowt : cfg.numFeature ≤ (data[cfg.testId]).length := by
    have := h.rowLen _ h.testId
    rwa [List.getD_eq_getElem _ _ htest] at this
  have hFw : cfg.numFeature ≤ cfg.maskW := by rw [← h.mask]; exact cfg.shape.numFeature_le
  have hFn : cfg.numFeature ≤ cfg.numSlots := by
    rw [h.full, hra, h.mask]
    exact hFw.trans (Nat.le_mul_of_pos_left _ (by positivity))
  obtain ⟨test, et, ei⟩ := C41_infer (n := cfg.numSlots)
    (e := ra + Nat.clog 2 cfg.numFeature)
    (by rw [h.full, hra, pow_add]; rfl) cfg.hp h.c3 hFn hrowt r1 hFw
  obtain ⟨tl, tM⟩ := packTest_le hFn hrowt hM0 (h.dataLe _ (List.getElem_mem htest)) et
  have htst : mbTest cfg data = test := by
    rw [mbTest, List.getD_eq_getElem _ _ htest, et]; rfl
  obtain ⟨vr, e2, m3, e3⟩ := inferVal_spec H h.good hfl (companies cfg.numCompany).toFinset.card
    D 1 B η (constSlots cfg.numSlots cfg.maskW cfg.hp) cfg.numFeature (toSlots cfg.numSlots test) m1
    (by omega) (by unfold kAfter; omega)
  refine ⟨fun t ht => ?_, _, vr, idx_of_lt htest, ?_, ?_, ?_, ?_, ?_, m3.1, m3.2.2.1⟩
  · obtain ⟨vb, vv, e1, m1, m2, r1, r2⟩ := key t ht
    exact ⟨vb, vv, e1, r1, r2, m1.1, m2.1, m1.2.2.1, m2.2.2.1⟩
  · rw [htst]; exact et
  · rw [htst]; exact tl
  · rw [htst]; exact tM
  · rw [mbInferVal, e1, htst]; exact e2
  · rw [e3]
    refine ei.trans ?_
    unfold plainMbPredict
    congr 1
    refine sum_congr rfl fun j hj => ?_
    rw [if_pos (mem_range.mp hj), entry, List.getD_eq_getElem _ _ htest]

/-! ## C52 -/

attribute [local irreducible] setupCRS

/-- **C52 (lr_minibatch.go).** For all data, labels, random samples, keys and iteration orders within
`MbOk`: `main` runs to its end.  In iteration `t` it prints the first two numbers of decodings of
polynomials holding the `t+1`-st Nesterov iterates of the plain training in minibatches (iteration `a`
on the records of batch `a % numBatch`), up to the error of `mbMainVal`; its result is the decoding of a
polynomial whose slot 0 holds the plain prediction up to the error of `mbInferVal`; and `correct` is
the comparison of that result with the label. -/
theorem C52_mb_main [NeZero cfg.numSlots] (h : MbOk E prm0 logN cfg rnd data labels r K D B M ε δ) :
    ∃ out, mbMain E prm0 logN cfg rnd data labels = .ok out ∧ out.prints.length = cfg.numIter ∧
      (∀ t < cfg.numIter, ∃ vb vv bd vd,
        mbMainVal (mainPar prm0 logN rnd) cfg data labels D B (freshErr C prm0.scale B ε) (t + 1) =
          some (vb, vv) ∧
        Replicated cfg.maskW vb.x (fun c => if c < cfg.numFeature then
          (plainMbTrain cfg data labels (t + 1)).1 c else 0) ∧
        Replicated cfg.maskW vv.x (fun c => if c < cfg.numFeature then
          (plainMbTrain cfg data labels (t + 1)).2 c else 0) ∧
        vb.lvl = C.nQ - 1 - 4 * (t + 1) ∧ vv.lvl = C.nQ - 1 - 4 * (t + 1) ∧
        0 < vb.scale ∧ 0 < vv.scale ∧
        Reads E vb bd ∧ Reads E vv vd ∧ out.prints[t]? = some (bd.take 2, vd.take 2)) ∧
      ∃ vr, mbInferVal (mainPar prm0 logN rnd) cfg data labels D B (freshErr C prm0.scale B ε) =
          some vr ∧
        vr.x 0 = plainMbPredict cfg data labels ∧
        vr.lvl = C.nQ - 1 - 4 * cfg.numIter - 3 ∧ 0 < vr.scale ∧ Reads E vr out.result ∧
        out.correct = verdict (out.result.getD 0 0).re (cfg.isCls (labels.getD cfg.testId 0).re) := by
  have hn2 := h.two
  have hM0 : 0 ≤ M := zero_le_one.trans h.hyper.one
  have hlv := h.levels
  have hdr := h.drift
  have hps : (mainPar prm0 logN rnd).scale = prm0.scale := rfl
  have hpf : (mainPar prm0 logN rnd).fl = prm0.fl := rfl
  have hpc : (mainPar prm0 logN rnd).crs = setupCRS logN rnd.sample rnd.sample' := rfl
  have hpe : { prm0 with crs := (mainPar prm0 logN rnd).crs } = mainPar prm0 logN rnd := rfl
  generalize mainPar prm0 logN rnd = prm at hps hpf hpc hpe ⊢
  have H : Chain prm r K := by
    have := h.chain
    exact ⟨this.one, this.pos, this.pow, by rw [hps]; exact this.scale, by rw [hps]; exact this.lo,
      by rw [hps]; exact this.hi⟩
  have hfl : prm.fl.Ok := by rw [hpf]; exact h.fl
  obtain ⟨l, el, ll, lt, -⟩ := relabel_spec cfg.isCls h.labelLen
  obtain ⟨ids, kb, pk, X⟩ := main_keys h.toRunOk hps hpf hpc
  rw [hps] at X
  obtain ⟨pz, pl, zl, zM, labl, lab01⟩ := mb_packs h ll lt
  obtain ⟨hval, row, vr, erow, et, tl, tM, ei, hvr, lvr, svr⟩ := mb_values h H hfl
    (freshErr C prm0.scale B ε) ll lt
  have rep : ∀ c : ℂ, ‖c‖ ≤ M → ∀ x ∈ List.replicate cfg.numSlots c, ‖x‖ ≤ M := by
    intro c hc x hx
    rw [List.eq_of_mem_replicate hx]; exact hc
  have rl : ∀ c : ℂ, (List.replicate cfg.numSlots c).length = cfg.numSlots := fun c => by simp
  have rz : ∀ x ∈ List.replicate cfg.numSlots (0 : ℂ), ‖x‖ ≤ M := rep 0 (by simpa using hM0)
  have tz : toSlots cfg.numSlots (List.replicate cfg.numSlots (0 : ℂ)) = 0 := by
    funext i; rw [toSlots_replicate]; rfl
  obtain ⟨e1, beta, q1, o1, f1⟩ := X.enc1 (enc := CEnc.new prm) ⟨rfl, rfl⟩ 0 _ (rl 0) rz
  obtain ⟨e2, v, q2, o2, f2⟩ := X.enc1 o1 1 _ (rl 0) rz
  obtain ⟨e3, zc, q3, o3, f3⟩ := encryptZ_spec X pz zl zM
    (fun b i => 5 + b * cfg.shape.numCtPerBatch + i) (fun b i => 2 + b * cfg.shape.numCtPerBatch + i)
    o2 beta
  obtain ⟨lv, elv, hlv'⟩ := labelVectors_spec pl
  obtain ⟨e4, c5, q4, o4, f4⟩ := X.enc1' o3 2 _ _ (h.hyper.near5 X.fl)
  obtain ⟨e5, c9, q5, o5, f5⟩ := X.enc1' o4 3 _ _ (h.hyper.near9 X.fl)
  rw [hpf] at q4 q5
  rw [tz] at f1 f2
  have hk := X.consts h.hyper cfg.maskW f4 f5
  obtain ⟨ra, hra⟩ := h.rows
  have hct := numCtPerBatch_pos h.batches (by rw [hra]; positivity)
  obtain ⟨st, vb, vv, t1, t2, t3, t4, t5, t6, t7, t8, t9, t10⟩ := mbLoop_spec X H h.accurate hM0 hn2
    hk cfg.shape rfl h.batches hct
    (d := fun b i => mainData E prm cfg.hp (at2 beta zc b i) (at2 [] lv b i))
    (dx := fun b i => dataSlots cfg.numSlots cfg.hp (mbZ cfg data b i) (mbLabel cfg labels b i))
    (fun b hb i hi => by
      rw [hlv' b hb i hi]
      exact X.data h.hyper (f3 b hb i hi) (labl b i) (lab01 b i)) f1 f2 o5 rnd.sch rnd.dec
    (fun t => 5 + cfg.shape.numBatch * cfg.shape.numCtPerBatch + t) cfg.numIter (by omega) (by omega)
  obtain ⟨e6, ct, q6, -, f6⟩ := X.encAll t2 1 4 (mbTest cfg data) tl tM
  have ei' : inferVal prm cfg.numSlots (companies cfg.numCompany).toFinset.card D 1 B
      (freshErr C prm0.scale B ε) (constSlots cfg.numSlots cfg.maskW cfg.hp) cfg.numFeature
      (toSlots cfg.numSlots (mbTest cfg data)) vb = some vr := by
    rw [mbInferVal, mbMainVal, t4] at ei
    exact ei
  obtain ⟨res, m', g1, g2, g3⟩ := infer_sim (realHE_sim X.setup rnd.sch) (constsShow hk) cfg.numFeature
    f6 t5 _ ei' st.mach t3
  have g3 : Shows (fun id => (rnd.party id).s) (companies cfg.numCompany).toFinset res vr := g3
  obtain ⟨dec', o, d1, -, -, d4⟩ := decrypt_shows h.good E t7 g3 (by omega) X.keyed X.sk
    (rnd.dec (2 * cfg.numIter))
  have ol : 0 < o.length := by
    obtain ⟨m, -, rfl⟩ := d4
    rw [h.accurate.len]; omega
  have tl' : cfg.testId < l.length := by rw [ll]; exact lt_of_lt_of_le h.testId h.labelLen
  refine ⟨⟨st.prints, o, judge (o.getD 0 0) (l.getD cfg.testId 0)⟩, ?_, t9, ?_, vr, ei, hvr, lvr, svr,
    d4, ?_⟩
  · unfold mbMain
    simp only [el, X.ids_eq, X.gen, hpe, X.pk_eq, q1, q2, q3, elv, q4, q5, Go.ok_bind]
    erw [t1]
    simp only [Go.ok_bind, erow, et, q6]
    erw [g1]
    simp only [Go.ok_bind, d1, idx_of_lt ol, idx_of_lt tl', Go.pure_eq]
    rw [List.getD_eq_getElem _ _ ol, List.getD_eq_getElem _ _ tl']
  · intro t ht
    obtain ⟨wb, wv, bd, vd, a1, a2, a3, a4⟩ := t10 t ht
    obtain ⟨wb', wv', b1, b2⟩ := hval (t + 1) (by omega)
    obtain ⟨rfl, rfl⟩ : wb = wb' ∧ wv = wv' := by
      rw [mbMainVal, a1] at b1
      simpa using b1
    exact ⟨wb, wv, bd, vd, a1, b2.1, b2.2.1, b2.2.2.1, b2.2.2.2.1, b2.2.2.2.2.1, b2.2.2.2.2.2, a2, a3, a4⟩
  · rw [lt _ h.testId, judge_target]

/-- **C52 (accuracy).** As C51 (accuracy), for training in minibatches. -/
theorem C52_accuracy [NeZero cfg.numSlots] (h : MbOk E prm0 logN cfg rnd data labels r K D B M ε δ)
    {out : MainOut} (ho : mbMain E prm0 logN cfg rnd data labels = .ok out) :
    (∀ t < cfg.numIter, ∀ vb vv,
      mbMainVal (mainPar prm0 logN rnd) cfg data labels D B (freshErr C prm0.scale B ε) (t + 1) =
        some (vb, vv) → ∃ pb pv, out.prints[t]? = some (pb, pv) ∧ pb.length = 2 ∧ pv.length = 2 ∧
      ∀ c < 2, c < cfg.numFeature →
        (vb.In C M → ‖pb.getD c 0 - (plainMbTrain cfg data labels (t + 1)).1 c‖ ≤ vb.err + δ) ∧
        (vv.In C M → ‖pv.getD c 0 - (plainMbTrain cfg data labels (t + 1)).2 c‖ ≤ vv.err + δ)) ∧
    ∀ vr, mbInferVal (mainPar prm0 logN rnd) cfg data labels D B (freshErr C prm0.scale B ε) =
        some vr → vr.In C M →
      ‖out.result.getD 0 0 - plainMbPredict cfg data labels‖ ≤ vr.err + δ ∧
      (vr.err + δ < |(plainMbPredict cfg data labels).re - 1 / 2| →
        out.correct = verdict (plainMbPredict cfg data labels).re
          (cfg.isCls (labels.getD cfg.testId 0).re)) := by
  obtain ⟨out', ho', -, hpr, vr', ei, hx, -, hs, hR, hc⟩ := C52_mb_main h
  obtain rfl : out' = out := by rw [ho] at ho'; exact (Except.ok.inj ho').symm
  have hFw : cfg.numFeature ≤ cfg.maskW := by rw [← h.mask]; exact cfg.shape.numFeature_le
  refine ⟨fun t ht vb vv hv => ?_, fun vr hv hin => ?_⟩
  · obtain ⟨vb', vv', bd, vd, e1, r1, r2, -, -, s1, s2, R1, R2, e2⟩ := hpr t ht
    obtain ⟨rfl, rfl⟩ : vb = vb' ∧ vv = vv' := by rw [hv] at e1; simpa using e1
    have len : ∀ {v : AVal cfg.numSlots} {o : List ℂ}, Reads E v o → o.length = cfg.numSlots := by
      rintro v o ⟨m, -, rfl⟩
      rw [h.accurate.len]
    have hn2 := h.two
    refine ⟨_, _, e2, by simp [len R1, hn2], by simp [len R2, hn2], fun c hc hF => ?_⟩
    exact ⟨fun hin => R1.print h.N_eq h.logN_pos h.slots.symm h.accurate s1 hin r1 hFw hn2 hc hF,
      fun hin => R2.print h.N_eq h.logN_pos h.slots.symm h.accurate s2 hin r2 hFw hn2 hc hF⟩
  · obtain rfl : vr = vr' := by rw [hv] at ei; simpa using ei
    have h1 := hR.close h.N_eq h.logN_pos h.slots.symm h.accurate hs hin 0
    rw [ZMod.val_zero, hx] at h1
    exact ⟨h1, fun hm => by rw [hc]; exact verdict_of_close h1 hm⟩

end MK.Lr
