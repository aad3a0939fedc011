import Verif.Props.Lr
import Verif.EvalSpec
import Verif.WordSpec

/-!
# Packing of the records into slots, minibatches and inference (C39-C41)
-/

namespace MK.Lr

open Finset
open Word (idx upd idx_of_lt upd_of_lt)

variable {K : Type} [Field K] {n : ℕ}

/-! ## Writing a row -/

theorem forN_row {m base : ℕ} {body : ℕ → List K → Go (List K)} {f : ℕ → K}
    (hb : ∀ k < m, ∀ z, body k z = upd z (base + k) (f k)) (z : List K)
    (hz : base + m ≤ z.length) :
    ∃ z', forN m body z = .ok z' ∧ z'.length = z.length ∧
      (∀ k < m, z'.getD (base + k) 0 = f k) ∧
      ∀ p, (p < base ∨ base + m ≤ p) → z'.getD p 0 = z.getD p 0 := by
  refine forN_inv m body (fun j z' => z'.length = z.length ∧
      (∀ k < j, z'.getD (base + k) 0 = f k) ∧
      ∀ p, (p < base ∨ base + j ≤ p) → z'.getD p 0 = z.getD p 0) z ⟨rfl, by simp, by simp⟩ ?_
  rintro j hj s ⟨h1, h2, h3⟩
  refine ⟨s.set (base + j) (f j), ?_, by simpa using h1, fun k hk => ?_, fun p hp => ?_⟩
  · rw [hb j hj, upd_of_lt (by omega)]
  · simp only [List.getD_eq_getElem?_getD, List.getElem?_set]
    split_ifs with h4 h5
    · have : k = j := by omega
      subst this; rfl
    · omega
    · rw [← List.getD_eq_getElem?_getD]; exact h2 k (by omega)
  · simp only [List.getD_eq_getElem?_getD, List.getElem?_set]
    rw [if_neg (by omega), ← List.getD_eq_getElem?_getD, ← List.getD_eq_getElem?_getD]
    exact h3 p (by omega)

theorem getD_replicate_zero (m p : ℕ) : (List.replicate m (0 : K)).getD p 0 = 0 := by
  rw [List.getD_eq_getElem?_getD]
  rcases lt_or_ge p m with h | h
  · rw [List.getElem?_replicate_of_lt h]; rfl
  · rw [List.getElem?_eq_none (by simpa using h)]; rfl

/-- The entry of a table, `0` outside. -/
def entry (data : List (List K)) (r c : ℕ) : K := (data.getD r []).getD c 0

/-- lr.go: the data of record `i` stands in row `i`, and nothing else is set. -/
theorem packZ_spec {slotNum cols F B : ℕ} {data : List (List K)} (hB : B * cols ≤ slotNum)
    (hF : F ≤ cols) (hd : B ≤ data.length) (hrow : ∀ r < B, F ≤ (data.getD r []).length) :
    ∃ z, packZ slotNum cols F B data = .ok z ∧ z.length = slotNum ∧
      ∀ r c, c < cols → z.getD (cols * r + c) 0 = if r < B ∧ c < F then entry data r c else 0 := by
  unfold packZ
  obtain ⟨z, h1, h2, h3, h4⟩ := forN_inv B (fun i z => forN cols (fun j z => do
    if j < F then
      let row ← idx data i
      let x ← idx row j
      upd z (cols * i + j) x
    else upd z (cols * i + j) 0) z)
    (fun i z => z.length = slotNum ∧
      (∀ r < i, ∀ c < cols, z.getD (cols * r + c) 0 = if c < F then entry data r c else 0) ∧
      ∀ p, cols * i ≤ p → z.getD p 0 = 0) (List.replicate slotNum 0)
    ⟨by simp, by simp, fun p _ => getD_replicate_zero _ _⟩ (by
      rintro i hi s ⟨h1, h2, h3⟩
      have hle : cols * i + cols ≤ slotNum := by
        calc cols * i + cols = (i + 1) * cols := by ring
          _ ≤ B * cols := Nat.mul_le_mul_right _ hi
          _ ≤ slotNum := hB
      obtain ⟨z', e1, e2, e3, e4⟩ := forN_row (m := cols) (base := cols * i)
        (body := fun j z => do
          if j < F then
            let row ← idx data i
            let x ← idx row j
            upd z (cols * i + j) x
          else upd z (cols * i + j) 0)
        (f := fun c => if c < F then entry data i c else 0) (fun k hk z => by
          by_cases hkF : k < F
          · have hi' : i < data.length := by omega
            have hr := hrow i hi
            rw [List.getD_eq_getElem _ _ hi'] at hr
            simp only [if_pos hkF]
            rw [idx_of_lt hi', Go.ok_bind, idx_of_lt (by omega), Go.ok_bind, entry,
              List.getD_eq_getElem _ _ hi', List.getD_eq_getElem _ _ (by omega)]
          · simp only [if_neg hkF]) s (by omega)
      refine ⟨z', e1, e2.trans h1, fun r hr c hc => ?_, fun p hp => ?_⟩
      · rcases Nat.lt_succ_iff_lt_or_eq.mp hr with hr | rfl
        · rw [e4 _ (Or.inl ?_)]
          · exact h2 r hr c hc
          · calc cols * r + c < cols * r + cols := by omega
              _ = cols * (r + 1) := by ring
              _ ≤ cols * i := Nat.mul_le_mul_left _ hr
        · exact e3 c hc
      · rw [mul_add, mul_one] at hp
        rw [e4 p (Or.inr (by omega))]
        exact h3 p (by omega))
  refine ⟨z, h1, h2, fun r c hc => ?_⟩
  by_cases hr : r < B
  · rw [h3 r hr c hc]; simp [hr]
  · rw [h4 _ (le_trans (Nat.mul_le_mul_left _ (not_lt.mp hr)) (by omega))]; simp [hr]

/-- lr.go: the label of record `i` stands in every slot of row `i`. -/
theorem packLabel_spec {slotNum cols B : ℕ} {labels : List K} (hB : B * cols ≤ slotNum)
    (hd : B ≤ labels.length) :
    ∃ z, packLabel slotNum cols B labels = .ok z ∧ z.length = slotNum ∧
      ∀ r c, c < cols → z.getD (cols * r + c) 0 = if r < B then labels.getD r 0 else 0 := by
  unfold packLabel
  obtain ⟨z, h1, h2, h3, h4⟩ := forN_inv B (fun i z => forN cols (fun j z => do
      let y ← idx labels i
      upd z (cols * i + j) y) z)
    (fun i z => z.length = slotNum ∧
      (∀ r < i, ∀ c < cols, z.getD (cols * r + c) 0 = labels.getD r 0) ∧
      ∀ p, cols * i ≤ p → z.getD p 0 = 0) (List.replicate slotNum 0)
    ⟨by simp, by simp, fun p _ => getD_replicate_zero _ _⟩ (by
      rintro i hi s ⟨h1, h2, h3⟩
      have hle : cols * i + cols ≤ slotNum := by
        calc cols * i + cols = (i + 1) * cols := by ring
          _ ≤ B * cols := Nat.mul_le_mul_right _ hi
          _ ≤ slotNum := hB
      obtain ⟨z', e1, e2, e3, e4⟩ := forN_row (m := cols) (base := cols * i)
        (body := fun j z => do
          let y ← idx labels i
          upd z (cols * i + j) y)
        (f := fun _ => labels.getD i 0) (fun k hk z => by
          rw [idx_of_lt (by omega), Go.ok_bind, List.getD_eq_getElem _ _ (by omega)])
        s (by omega)
      refine ⟨z', e1, e2.trans h1, fun r hr c hc => ?_, fun p hp => ?_⟩
      · rcases Nat.lt_succ_iff_lt_or_eq.mp hr with hr | rfl
        · rw [e4 _ (Or.inl ?_)]
          · exact h2 r hr c hc
          · calc cols * r + c < cols * r + cols := by omega
              _ = cols * (r + 1) := by ring
              _ ≤ cols * i := Nat.mul_le_mul_left _ hr
        · exact e3 c hc
      · rw [mul_add, mul_one] at hp
        rw [e4 p (Or.inr (by omega))]
        exact h3 p (by omega))
  refine ⟨z, h1, h2, fun r c hc => ?_⟩
  by_cases hr : r < B
  · rw [h3 r hr c hc]; simp [hr]
  · rw [h4 _ (le_trans (Nat.mul_le_mul_left _ (not_lt.mp hr)) (by omega))]; simp [hr]

/-- Zero columns and zero rows do not change the gradient. -/
theorem grad_pad {p : Hyper K} {w F R B : ℕ} {Z Z' : ℕ → ℕ → K} {y y' : ℕ → K} (hF : F ≤ w)
    (hB : B ≤ R)
    (hZ : ∀ r < R, ∀ c < w, Z r c = if r < B ∧ c < F then Z' r c else 0)
    (hy : ∀ r < B, y r = y' r) (v : ℕ → K) (c : ℕ) (hc : c < w) :
    grad p w R Z y v c = if c < F then grad p F B Z' y' v c else 0 := by
  unfold grad
  by_cases hcF : c < F
  · rw [if_pos hcF, ← sum_subset (range_subset_range.mpr hB)]
    · refine sum_congr rfl fun r hr => ?_
      have hr' := mem_range.mp hr
      have : ∑ k ∈ range w, Z r k * v k = ∑ k ∈ range F, Z' r k * v k := by
        rw [← sum_subset (range_subset_range.mpr hF)]
        · refine sum_congr rfl fun k hk => ?_
          have := mem_range.mp hk
          rw [hZ r (by omega) k (by omega), if_pos ⟨hr', this⟩]
        · intro k hk hk2
          rw [hZ r (by omega) k (mem_range.mp hk), if_neg, zero_mul]
          rintro ⟨-, h⟩; exact hk2 (mem_range.mpr h)
      rw [this, hy r hr', hZ r (by omega) c hc, if_pos ⟨hr', hcF⟩]
    · intro r hr hr2
      rw [hZ r (mem_range.mp hr) c hc, if_neg, mul_zero]
      rintro ⟨h, -⟩; exact hr2 (mem_range.mpr h)
  · rw [if_neg hcF]
    refine sum_eq_zero fun r hr => ?_
    rw [hZ r (mem_range.mp hr) c hc, if_neg, mul_zero]
    rintro ⟨-, h⟩; exact hcF h

theorem grad_congr {p : Hyper K} {F B : ℕ} {Z : ℕ → ℕ → K} {y v w : ℕ → K}
    (h : ∀ k < F, v k = w k) (c : ℕ) : grad p F B Z y v c = grad p F B Z y w c := by
  unfold grad
  refine sum_congr rfl fun r _ => ?_
  rw [sum_congr rfl fun k hk => by rw [h k (mem_range.mp hk)]]

/-- With zero padding the first `F` columns follow the unpadded sequence and the others keep their
value `0`. -/
theorem nesterovRun_pad {p : Hyper K} {w F : ℕ} (hF : F ≤ w) {G G' : ℕ → (ℕ → K) → ℕ → K}
    (hG : ∀ a v c, c < w → G a v c = if c < F then G' a v c else 0)
    (hG' : ∀ a v v', (∀ k < F, v k = v' k) → ∀ c, G' a v c = G' a v' c) {st st' : (ℕ → K) × (ℕ → K)}
    (h : ∀ c < F, st.1 c = st'.1 c ∧ st.2 c = st'.2 c)
    (h0 : ∀ c, F ≤ c → c < w → st.1 c = 0 ∧ st.2 c = 0) (T : ℕ) :
    (∀ c < F, (nesterovRun p G T st).1 c = (nesterovRun p G' T st').1 c ∧
      (nesterovRun p G T st).2 c = (nesterovRun p G' T st').2 c) ∧
    ∀ c, F ≤ c → c < w → (nesterovRun p G T st).1 c = 0 ∧ (nesterovRun p G T st).2 c = 0 := by
  induction T with
  | zero => exact ⟨h, h0⟩
  | succ T ih =>
    obtain ⟨i1, i2⟩ := ih
    refine ⟨fun c hc => ?_, fun c hc hcw => ?_⟩
    · have e : (nesterovRun p G (T + 1) st).1 c = (nesterovRun p G' (T + 1) st').1 c := by
        show (nesterovRun p G T st).2 c - p.gamma / p.batchSize * G T _ c = 
          (nesterovRun p G' T st').2 c - p.gamma / p.batchSize * G' T _ c
        rw [hG T _ c (by omega), if_pos hc, (i1 c hc).2, hG' T _ _ (fun k hk => (i1 k hk).2)]
      refine ⟨e, ?_⟩
      show (1 - p.eta T) * (nesterovRun p G (T + 1) st).1 c + p.eta T * (nesterovRun p G T st).1 c =
        (1 - p.eta T) * (nesterovRun p G' (T + 1) st').1 c + p.eta T * (nesterovRun p G' T st').1 c
      rw [e, (i1 c hc).1]
    · have e : (nesterovRun p G (T + 1) st).1 c = 0 := by
        show (nesterovRun p G T st).2 c - p.gamma / p.batchSize * G T _ c = 0
        rw [hG T _ c hcw, if_neg (by omega), (i2 c hc hcw).2]; ring
      refine ⟨e, ?_⟩
      show (1 - p.eta T) * (nesterovRun p G (T + 1) st).1 c + p.eta T * (nesterovRun p G T st).1 c = 0
      rw [e, (i2 c hc hcw).1]; ring

omit [Field K] in
theorem Replicated.congr {w : ℕ} (hw : 0 < w) {x : Slots n K} {b b' : ℕ → K}
    (h : Replicated w x b) (hb : ∀ c < w, b c = b' c) : Replicated w x b' :=
  fun i => (h i).trans (hb _ (Nat.mod_lt _ hw))

theorem replicated_zero (w : ℕ) : Replicated w (0 : Slots n K) (fun _ => 0) := fun _ => rfl

/-- lr.go from the parsed table to the trained weights: packing does not panic, and after any
number `T` of iterations every row of `beta` and `v` holds the `T`-th iterate of Nesterov's method
for the `B` records with `F` features, started at zero, padded by zeros. -/
theorem C39_lr [NeZero n] {rows cols a b F B : ℕ} (hr : rows = 2 ^ a) (hc : cols = 2 ^ b)
    (hn : n = rows * cols) (p : Hyper K) (h3 : p.c3 ≠ 0) {data : List (List K)} {labels : List K}
    (hF : F ≤ cols) (hB : B ≤ rows) (hd : B ≤ data.length)
    (hrow : ∀ r < B, F ≤ (data.getD r []).length) (hl : B ≤ labels.length) (T : ℕ) :
    ∃ z label, packZ n cols F B data = .ok z ∧ packLabel n cols B labels = .ok label ∧
      ∃ beta v : Slots n K,
        (lrTrain (slotsHE n K) (constSlots n cols p) rows cols (dataSlots n p z label) T 0 0 :
          Id _) = (beta, v) ∧
        let st := nesterovRun p
          (fun _ => grad p F B (entry data) (fun r => labels.getD r 0)) T (fun _ => 0, fun _ => 0)
        Replicated cols beta (fun c => if c < F then st.1 c else 0) ∧
        Replicated cols v (fun c => if c < F then st.2 c else 0) := by
  have hBc : B * cols ≤ n := hn ▸ Nat.mul_le_mul_right _ hB
  have hcp : 0 < cols := by rw [hc]; positivity
  obtain ⟨z, z1, z2, z3⟩ := packZ_spec hBc hF hd hrow
  obtain ⟨l, l1, l2, l3⟩ := packLabel_spec hBc hl
  refine ⟨z, l, z1, l1, ?_⟩
  have hd : Holds n rows cols z l (fun r c => if r < B ∧ c < F then entry data r c else 0)
      (fun r => labels.getD r 0) := by
    refine ⟨l2, fun r _ c hc => z3 r c hc, fun r _ c hc h0 => ?_⟩
    rw [l3 r c hc, if_pos]
    by_contra h
    exact h0 (if_neg fun h' => h h'.1)
  obtain ⟨beta, v, e, hb, hv⟩ := C39_train hr hc hn p h3 hd (replicated_zero cols)
    (replicated_zero cols) T
  refine ⟨beta, v, e, ?_⟩
  have key := nesterovRun_pad (p := p) hF
    (G := fun _ => grad p cols rows (fun r c => if r < B ∧ c < F then entry data r c else 0)
      (fun r => labels.getD r 0))
    (G' := fun _ => grad p F B (entry data) (fun r => labels.getD r 0))
    (fun _ v c hc => grad_pad hF hB (fun _ _ _ _ => rfl) (fun _ _ => rfl) v c hc)
    (fun _ v v' h c => grad_congr h c) (st := (fun _ => 0, fun _ => 0))
    (st' := (fun _ => 0, fun _ => 0)) (fun _ _ => ⟨rfl, rfl⟩) (fun _ _ _ => ⟨rfl, rfl⟩) T
  refine ⟨hb.congr hcp fun c hc => ?_, hv.congr hcp fun c hc => ?_⟩
  · by_cases h : c < F
    · rw [if_pos h, (key.1 c h).1]
    · rw [if_neg h, (key.2 c (by omega) hc).1]
  · by_cases h : c < F
    · rw [if_pos h, (key.1 c h).2]
    · rw [if_neg h, (key.2 c (by omega) hc).2]

/-! ## Minibatches -/

/-- The loop over the ciphertexts of a batch. -/
theorem mbAcc [NeZero n] {rows cols b : ℕ} (hc : cols = 2 ^ b)
    (hn : n = rows * cols) (p : Hyper K) (h3 : p.c3 ≠ 0) {z label : ℕ → List K}
    {Z : ℕ → ℕ → ℕ → K} {y : ℕ → ℕ → K} {numCt : ℕ}
    (hd : ∀ i < numCt, Holds n rows cols (z i) (label i) (Z i) (y i)) (it : ℕ) {v : Slots n K}
    {vv : ℕ → K} (hv : Replicated cols v vv) :
    ∃ g u : Slots n K,
      (forUp numCt (fun ctId => mbCtStep (slotsHE n K) (constSlots n cols p) cols it
        (dataSlots n p (z ctId) (label ctId)) v) (0, 0) : Id _) = (g, u) ∧
      (∀ c < cols, ∑ r ∈ range rows, g ((cols * r + c : ℕ) : ZMod n) =
        -(p.gamma / p.batchSize * ∑ i ∈ range numCt, grad p cols rows (Z i) (y i) vv c)) ∧
      ∀ i, u i = (1 - p.eta it) * g i := by
  induction numCt with
  | zero => exact ⟨0, 0, rfl, fun c _ => by simp, fun i => by simp⟩
  | succ m ih =>
    obtain ⟨g, u, e, hg, hu⟩ := ih fun i hi => hd i (by omega)
    obtain ⟨z1, z2, m2, m1, s, he, hg1, hu1⟩ := rowSum_grad hc hn p h3 (hd m (by omega)) it hv
    refine ⟨g + (m1 * m2 + z1), u + (s * m2 + z2), ?_, fun c hcc => ?_, fun i => ?_⟩
    · show (forUp m (fun ctId => mbCtStep (slotsHE n K) (constSlots n cols p) cols it
        (dataSlots n p (z ctId) (label ctId)) v) (0, 0) : Id _) >>= mbCtStep (slotsHE n K)
          (constSlots n cols p) cols it (dataSlots n p (z m) (label m)) v = _
      rw [e]
      have : ∀ acc, (mbCtStep (slotsHE n K) (constSlots n cols p) cols it
          (dataSlots n p (z m) (label m)) v acc : Id _) =
        (depth3 (slotsHE n K) (constSlots n cols p) cols it
          (dataSlots n p (z m) (label m)) v : Id _) >>= fun (z1, z2, m2, m1, s) =>
          (pure (acc.1 + (m1 * m2 + z1), acc.2 + (s * m2 + z2)) : Id _) := fun _ => rfl
      show (mbCtStep (slotsHE n K) (constSlots n cols p) cols it
          (dataSlots n p (z m) (label m)) v (g, u) : Id _) = _
      rw [this, he]
      rfl
    · simp only [Pi.add_apply (f := g)]
      rw [sum_add_distrib, hg c hcc, hg1 c hcc, sum_range_succ]
      ring
    · show u i + (s * m2 + z2) i = (1 - p.eta it) * (g i + (m1 * m2 + z1) i)
      rw [hu, hu1]; ring

/-- One iteration of lr_minibatch.go is a Nesterov step with the gradient summed over all
ciphertexts of the batch. -/
theorem C39_minibatch_iteration [NeZero n] {rows cols a b : ℕ} (hr : rows = 2 ^ a)
    (hc : cols = 2 ^ b) (hn : n = rows * cols) (p : Hyper K) (h3 : p.c3 ≠ 0)
    {numBatch numCt : ℕ} {z label : ℕ → ℕ → List K}
    {Z : ℕ → ℕ → ℕ → ℕ → K} {y : ℕ → ℕ → ℕ → K} (it : ℕ)
    (hd : ∀ i < numCt, Holds n rows cols (z (it % numBatch) i) (label (it % numBatch) i)
      (Z (it % numBatch) i) (y (it % numBatch) i)) {beta v : Slots n K}
    {bb vv : ℕ → K} (hb : Replicated cols beta bb) (hv : Replicated cols v vv) :
    ∃ beta' v' : Slots n K,
      (mbIter (slotsHE n K) (constSlots n cols p) rows cols numBatch numCt
        (fun b i => dataSlots n p (z b i) (label b i)) (fun _ => (0, 0)) it (beta, v) :
        Id _) = (beta', v') ∧
      let st := nesterov p (fun w c => ∑ i ∈ range numCt,
        grad p cols rows (Z (it % numBatch) i) (y (it % numBatch) i) w c) it (bb, vv)
      Replicated cols beta' st.1 ∧ Replicated cols v' st.2 := by
  have hcp : 0 < cols := by rw [hc]; positivity
  obtain ⟨g, u, he, hg, hu⟩ := mbAcc hc hn p h3 hd it hv
  have hG := C38_SumRowVec (K := K) hr hn g
  have hU := C38_SumRowVec (K := K) hr hn u
  set G : Slots n K := Id.run (SumRowVec (slotsHE n K) g rows cols) with hGd
  set U : Slots n K := Id.run (SumRowVec (slotsHE n K) u rows cols) with hUd
  replace hG : ∀ i, G i = _ := hG
  replace hU : ∀ i, U i = _ := hU
  have hrun : (mbIter (slotsHE n K) (constSlots n cols p) rows cols numBatch numCt
        (fun b i => dataSlots n p (z b i) (label b i)) (fun _ => (0, 0)) it (beta, v) :
        Id _) = (v + G, v * toSlots n (const6 p n it) + beta * toSlots n (const7 p n it)
        + U) := by
    have : (mbIter (slotsHE n K) (constSlots n cols p) rows cols numBatch numCt
        (fun b i => dataSlots n p (z b i) (label b i)) (fun _ => (0, 0)) it (beta, v) :
        Id _) = (forUp numCt (fun ctId => mbCtStep (slotsHE n K) (constSlots n cols p) cols it
        (dataSlots n p (z (it % numBatch) ctId) (label (it % numBatch) ctId)) v) (0, 0) : Id _) >>=
          fun (g, u) =>
          (pure (v + Id.run (SumRowVec (slotsHE n K) g rows cols),
            v * toSlots n (const6 p n it) + beta * toSlots n (const7 p n it)
              + Id.run (SumRowVec (slotsHE n K) u rows cols)) : Id _) := rfl
    rw [this, he]
    rfl
  set Gr : (ℕ → K) → ℕ → K := fun w c => ∑ i ∈ range numCt,
        grad p cols rows (Z (it % numBatch) i) (y (it % numBatch) i) w c with hGr
  have hbeta : ∀ i, (v + G) i = (nesterov p Gr it (bb, vv)).1 (i.val % cols) := by
    intro i
    show v i + G i = vv (i.val % cols) - p.gamma / p.batchSize * Gr vv (i.val % cols)
    rw [hG, hg _ (Nat.mod_lt _ hcp), hv]
    ring
  refine ⟨_, _, hrun, hbeta, fun i => ?_⟩
  have hUG : U i = (1 - p.eta it) * G i := by
    rw [hU, hG, mul_sum]
    exact sum_congr rfl fun r _ => hu _
  show v i * toSlots n (const6 p n it) i + beta i * toSlots n (const7 p n it) i + U i =
    (1 - p.eta it) * (nesterov p Gr it (bb, vv)).1 (i.val % cols) +
      p.eta it * bb (i.val % cols)
  rw [← hbeta i, hUG]
  simp only [const6, const7, toSlots_replicate, Pi.add_apply]
  rw [hb i]
  ring

/-- The training loop of lr_minibatch.go, for any contents of the ciphertexts. -/
theorem C39_minibatch_train [NeZero n] {rows cols a b : ℕ} (hr : rows = 2 ^ a)
    (hc : cols = 2 ^ b) (hn : n = rows * cols) (p : Hyper K) (h3 : p.c3 ≠ 0)
    {numBatch numCt : ℕ} (hnb : 0 < numBatch) {z label : ℕ → ℕ → List K}
    {Z : ℕ → ℕ → ℕ → ℕ → K} {y : ℕ → ℕ → ℕ → K}
    (hd : ∀ b < numBatch, ∀ i < numCt, Holds n rows cols (z b i) (label b i) (Z b i) (y b i))
    {beta v : Slots n K}
    {bb vv : ℕ → K} (hb : Replicated cols beta bb) (hv : Replicated cols v vv) (T : ℕ) :
    ∃ beta' v' : Slots n K,
      (mbTrain (slotsHE n K) (constSlots n cols p) rows cols numBatch numCt
        (fun b i => dataSlots n p (z b i) (label b i)) (fun _ => (0, 0)) T beta v :
        Id _) = (beta', v') ∧
      let st := nesterovRun p (fun a w c => ∑ i ∈ range numCt,
        grad p cols rows (Z (a % numBatch) i) (y (a % numBatch) i) w c) T (bb, vv)
      Replicated cols beta' st.1 ∧ Replicated cols v' st.2 := by
  induction T with
  | zero => exact ⟨_, _, rfl, hb, hv⟩
  | succ T ih =>
    obtain ⟨b1, v1, h1, hb1, hv1⟩ := ih
    obtain ⟨b2, v2, h2, hb2, hv2⟩ := C39_minibatch_iteration hr hc hn p h3 T
      (hd _ (Nat.mod_lt _ hnb)) hb1 hv1
    refine ⟨b2, v2, ?_, hb2, hv2⟩
    show (mbTrain (slotsHE n K) (constSlots n cols p) rows cols numBatch numCt
        (fun b i => dataSlots n p (z b i) (label b i)) (fun _ => (0, 0)) T beta v :
      Id _) >>= mbIter (slotsHE n K) (constSlots n cols p) rows cols numBatch numCt
        (fun b i => dataSlots n p (z b i) (label b i)) (fun _ => (0, 0)) T = _
    rw [h1]
    exact h2

/-! ## C40: the shape of the batches -/

theorem forBreak_inv {σ : Type} (stop : ℕ → Bool) (body : ℕ → σ → Go σ) (Inv : ℕ → σ → Prop)
    (m j : ℕ) (s : σ) (h0 : Inv j s)
    (step : ∀ k, j ≤ k → k < j + m → stop k = false → ∀ s, Inv k s →
      ∃ s', body k s = .ok s' ∧ Inv (k + 1) s') :
    ∃ k s', forBreak m j stop body s = .ok s' ∧ Inv k s' ∧ j ≤ k ∧
      (k = j + m ∨ k < j + m ∧ stop k = true) := by
  induction m generalizing j s with
  | zero => exact ⟨j, s, rfl, h0, le_rfl, Or.inl rfl⟩
  | succ m ih =>
    cases hs : stop j with
    | true => exact ⟨j, s, by simp [forBreak, hs], h0, le_rfl, Or.inr ⟨by omega, hs⟩⟩
    | false =>
      obtain ⟨s1, e1, h1⟩ := step j le_rfl (by omega) hs s h0
      obtain ⟨k, s2, e2, h2, h3, h4⟩ := ih (j + 1) s1 h1
        fun k hk hk2 => step k (by omega) (by omega)
      refine ⟨k, s2, ?_, h2, by omega, ?_⟩
      · simp only [forBreak, hs, e1, Go.ok_bind]
        simpa using e2
      · rcases h4 with h4 | h4
        · exact Or.inl (by omega)
        · exact Or.inr ⟨by omega, h4.2⟩

namespace Shape

theorem numFeature_le (s : Shape) : s.numFeature ≤ s.slotsPerData :=
  Nat.le_pow_clog (by norm_num) _

theorem slotsPerData_pos (s : Shape) : 0 < s.slotsPerData := by unfold slotsPerData; positivity

theorem rows_mul_le (s : Shape) : s.numDataPerCt * s.slotsPerData ≤ s.numSlots :=
  Nat.div_mul_le_self _ _

theorem real_le (s : Shape) : s.realnumDataPerCt ≤ s.numDataPerCt := Nat.min_le_left _ _

/-- The number of record positions of a batch. -/
def perBatch (s : Shape) : ℕ := s.numCtPerBatch * s.realnumDataPerCt

theorem dataId_eq (s : Shape) (b i j : ℕ) :
    s.dataId b i j = s.perBatch * b + (s.realnumDataPerCt * i + j) := by
  unfold dataId perBatch; ring

end Shape

theorem packBatch_loop (s : Shape) (b i : ℕ) (row : ℕ → ℕ → Go K) (f : ℕ → ℕ → K)
    (hrow : ∀ d < s.numTrain, ∀ k < s.numFeature, row d k = .ok (f d k)) :
    ∃ z, forBreak s.realnumDataPerCt 0 (fun j => s.dataId b i j ≥ s.numTrain) (fun j z =>
        forN s.numFeature (fun k z => do
          let x ← row (s.dataId b i j) k
          upd z (j * s.slotsPerData + k) x) z) (List.replicate s.numSlots (0 : K)) = .ok z ∧
      z.length = s.numSlots ∧ ∀ r c, c < s.slotsPerData →
        z.getD (s.slotsPerData * r + c) 0 =
          if (r < s.realnumDataPerCt ∧ s.dataId b i r < s.numTrain) ∧ c < s.numFeature then
            f (s.dataId b i r) c else 0 := by
  obtain ⟨k, z, h1, ⟨h2, h3, h4, h5⟩, -, h6⟩ := forBreak_inv
    (fun j => decide (s.dataId b i j ≥ s.numTrain)) (fun j z =>
        forN s.numFeature (fun k z => do
          let x ← row (s.dataId b i j) k
          upd z (j * s.slotsPerData + k) x) z)
    (fun j z => z.length = s.numSlots ∧
      (∀ r < j, ∀ c < s.slotsPerData, z.getD (s.slotsPerData * r + c) 0 =
        if c < s.numFeature then f (s.dataId b i r) c else 0) ∧
      (∀ p, s.slotsPerData * j ≤ p → z.getD p 0 = 0) ∧ ∀ r < j, s.dataId b i r < s.numTrain)
    s.realnumDataPerCt 0 (List.replicate s.numSlots 0)
    ⟨by simp, by simp, fun p _ => getD_replicate_zero _ _, by simp⟩ (by
      rintro j - hj hs z ⟨h1, h2, h3, h4⟩
      have hid : s.dataId b i j < s.numTrain := by simpa using hs
      have hF := s.numFeature_le
      have hle : s.slotsPerData * j + s.slotsPerData ≤ s.numSlots := by
        calc s.slotsPerData * j + s.slotsPerData = (j + 1) * s.slotsPerData := by ring
          _ ≤ s.numDataPerCt * s.slotsPerData :=
            Nat.mul_le_mul_right _ (by have := s.real_le; omega)
          _ ≤ s.numSlots := s.rows_mul_le
      obtain ⟨z', e1, e2, e3, e4⟩ := forN_row (m := s.numFeature) (base := s.slotsPerData * j)
        (body := fun k z => do
          let x ← row (s.dataId b i j) k
          upd z (j * s.slotsPerData + k) x)
        (f := fun c => f (s.dataId b i j) c) (fun k hk z => by
          rw [hrow _ hid k hk, Go.ok_bind, mul_comm]) z (by omega)
      refine ⟨z', e1, e2.trans h1, fun r hr c hc => ?_, fun p hp => ?_, fun r hr => ?_⟩
      · rcases Nat.lt_succ_iff_lt_or_eq.mp hr with hr | rfl
        · rw [e4 _ (Or.inl ?_)]
          · exact h2 r hr c hc
          · calc s.slotsPerData * r + c < s.slotsPerData * r + s.slotsPerData := by omega
              _ = s.slotsPerData * (r + 1) := by ring
              _ ≤ s.slotsPerData * j := Nat.mul_le_mul_left _ hr
        · by_cases hcF : c < s.numFeature
          · rw [if_pos hcF]; exact e3 c hcF
          · rw [if_neg hcF, e4 _ (Or.inr (by omega))]
            exact h3 _ (by omega)
      · rw [mul_add, mul_one] at hp
        rw [e4 p (Or.inr (by omega))]
        exact h3 p (by omega)
      · rcases Nat.lt_succ_iff_lt_or_eq.mp hr with hr | rfl
        · exact h4 r hr
        · exact hid)
  refine ⟨z, h1, h2, fun r c hc => ?_⟩
  by_cases hrk : r < k
  · have hr : r < s.realnumDataPerCt := by omega
    rw [h3 r hrk c hc]
    simp [hr, h5 r hrk]
  · rw [h4 _ (le_trans (Nat.mul_le_mul_left _ (not_lt.mp hrk)) (by omega)), if_neg]
    rintro ⟨⟨hr, hid⟩, -⟩
    rcases h6 with h6 | ⟨-, h6⟩
    · omega
    · have : s.dataId b i k ≤ s.dataId b i r := by
        rw [s.dataId_eq, s.dataId_eq]; omega
      have h7 : s.numTrain ≤ s.dataId b i k := by simpa using h6
      omega

/-- The slot vector of ciphertext `i` of batch `b`: building it never indexes out of range, row `r`
holds the features of record `dataId b i r`, and all other slots are zero. -/
theorem C40_packBatchZ (s : Shape) {data : List (List K)} (hd : s.numTrain ≤ data.length)
    (hrow : ∀ r < s.numTrain, s.numFeature ≤ (data.getD r []).length) (b i : ℕ) :
    ∃ z, packBatchZ s data b i = .ok z ∧ z.length = s.numSlots ∧ ∀ r c, c < s.slotsPerData →
      z.getD (s.slotsPerData * r + c) 0 =
        if (r < s.realnumDataPerCt ∧ s.dataId b i r < s.numTrain) ∧ c < s.numFeature then
          entry data (s.dataId b i r) c else 0 := by
  obtain ⟨z, h1, h2⟩ := packBatch_loop s b i (fun d k => do
    let row ← idx data d
    idx row k) (entry data) (fun d hd' k hk => by
      have hr := hrow d hd'
      have hd'' : d < data.length := by omega
      rw [List.getD_eq_getElem _ _ hd''] at hr
      rw [idx_of_lt hd'', Go.ok_bind, idx_of_lt (by omega), entry,
        List.getD_eq_getElem _ _ hd'', List.getD_eq_getElem _ _ (by omega)])
  refine ⟨z, ?_, h2⟩
  rw [← h1]
  unfold packBatchZ
  simp only [bind_assoc]

/-- The label vector of ciphertext `i` of batch `b` holds the label of record `dataId b i r` beside
each of its features. -/
theorem C40_packBatchLabel (s : Shape) {labels : List K} (hd : s.numTrain ≤ labels.length)
    (b i : ℕ) :
    ∃ z, packBatchLabel s labels b i = .ok z ∧ z.length = s.numSlots ∧ ∀ r c, c < s.slotsPerData →
      z.getD (s.slotsPerData * r + c) 0 =
        if (r < s.realnumDataPerCt ∧ s.dataId b i r < s.numTrain) ∧ c < s.numFeature then
          labels.getD (s.dataId b i r) 0 else 0 :=
  packBatch_loop s b i (fun d _ => idx labels d) (fun d _ => labels.getD d 0) (fun d hd' k _ => by
    rw [idx_of_lt (by omega), List.getD_eq_getElem _ _ (by omega)])

/-- Every record position below the capacity belongs to exactly one batch, ciphertext and row. -/
theorem C40_unique_place (s : Shape) {d : ℕ} (hd : d < s.perBatch * s.numBatch) :
    ∃! t : ℕ × ℕ × ℕ, t.1 < s.numBatch ∧ t.2.1 < s.numCtPerBatch ∧
      t.2.2 < s.realnumDataPerCt ∧ s.dataId t.1 t.2.1 t.2.2 = d := by
  have hp : 0 < s.perBatch := by
    rcases Nat.eq_zero_or_pos s.perBatch with h | h
    · rw [h, zero_mul] at hd; omega
    · exact h
  have hr : 0 < s.realnumDataPerCt := by
    rcases Nat.eq_zero_or_pos s.realnumDataPerCt with h | h
    · rw [Shape.perBatch, h] at hp; omega
    · exact h
  have hm : d % s.perBatch < s.realnumDataPerCt * s.numCtPerBatch := by
    rw [mul_comm]; exact Nat.mod_lt _ hp
  refine ⟨(d / s.perBatch, d % s.perBatch / s.realnumDataPerCt,
    d % s.perBatch % s.realnumDataPerCt), ⟨Nat.div_lt_of_lt_mul hd, Nat.div_lt_of_lt_mul hm,
      Nat.mod_lt _ hr, ?_⟩, ?_⟩
  · simp only [s.dataId_eq]
    rw [Nat.div_add_mod, Nat.div_add_mod]
  · rintro ⟨b, i, j⟩ ⟨h1, h2, h3, rfl⟩
    simp only at h1 h2 h3
    have hin : s.realnumDataPerCt * i + j < s.perBatch := by
      have := coord_lt h2 h3
      rwa [Shape.perBatch]
    simp only [s.dataId_eq]
    rw [coord_div hin, coord_mod hin, coord_div h3, coord_mod h3]

/-- When the batch size is at most the number of rows, or a multiple of it, a batch has exactly
`batchSize` positions; all `numBatch * batchSize` of them are records of the training set. -/
theorem C40_perBatch (s : Shape) (hb : 0 < s.batchSize) (hr : 0 < s.numDataPerCt)
    (h : s.batchSize ≤ s.numDataPerCt ∨ s.numDataPerCt ∣ s.batchSize) :
    s.perBatch = s.batchSize ∧ s.perBatch * s.numBatch ≤ s.numTrain := by
  have key : s.perBatch = s.batchSize := by
    rcases h with h | ⟨k, hk⟩
    · have h1 : s.numCtPerBatch = 1 := by
        unfold Shape.numCtPerBatch
        rw [Nat.div_eq_iff (by omega)]; omega
      rw [Shape.perBatch, h1, Shape.realnumDataPerCt, Nat.min_eq_right h, one_mul]
    · have hk0 : 0 < k := by
        rcases Nat.eq_zero_or_pos k with h | h
        · rw [h] at hk; omega
        · exact h
      have h1 : s.numCtPerBatch = k := by
        unfold Shape.numCtPerBatch
        rw [hk, show s.numDataPerCt * k + s.numDataPerCt - 1 =
          s.numDataPerCt * k + (s.numDataPerCt - 1) by omega, coord_div (by omega)]
      have h2 : s.numDataPerCt ≤ s.batchSize := by
        rw [hk]; exact Nat.le_mul_of_pos_right _ hk0
      rw [Shape.perBatch, h1, Shape.realnumDataPerCt, Nat.min_eq_left h2, hk, mul_comm]
  refine ⟨key, ?_⟩
  rw [key, mul_comm]
  exact Nat.div_mul_le_self _ _

/-- Otherwise a batch has more than `batchSize` positions, although the gradient is divided by
`batchSize`. -/
theorem C40_overfull (s : Shape) (hr : 0 < s.numDataPerCt) (h1 : s.numDataPerCt < s.batchSize)
    (h2 : ¬ s.numDataPerCt ∣ s.batchSize) : s.batchSize < s.perBatch := by
  rw [Shape.perBatch, Shape.realnumDataPerCt, Nat.min_eq_left h1.le]
  unfold Shape.numCtPerBatch
  set q := s.numDataPerCt
  set B := s.batchSize
  have h3 : B % q ≠ 0 := fun h => h2 (Nat.dvd_of_mod_eq_zero h)
  have h4 := Nat.div_add_mod B q
  have h5 : (B + q - 1) / q = B / q + 1 := by
    rw [show B + q - 1 = q * (B / q + 1) + (B % q - 1) by rw [mul_add]; omega,
      coord_div (by have := Nat.mod_lt B hr; omega)]
  rw [h5, add_mul, one_mul, mul_comm]
  have := Nat.mod_lt B hr
  omega

/-! ## The gradient of a batch -/

/-- `Σ_d (sigma3(z_d · v) - y_d) z_{d,c}` over the records `d` of a set. -/
def gradOn (p : Hyper K) (F : ℕ) (S : Finset ℕ) (Z : ℕ → ℕ → K) (y : ℕ → K) (v : ℕ → K) (c : ℕ) :
    K :=
  ∑ d ∈ S, (sigma3 p (∑ k ∈ range F, Z d k * v k) - y d) * Z d c

theorem sum_blocks (f : ℕ → K) (m t : ℕ) :
    ∑ i ∈ range t, ∑ j ∈ range m, f (m * i + j) = ∑ k ∈ range (t * m), f k := by
  induction t with
  | zero => simp
  | succ t ih =>
    rw [sum_range_succ, ih, Nat.succ_mul, sum_range_add]
    congr 1
    exact sum_congr rfl fun j _ => by rw [mul_comm]

theorem batch_grad (s : Shape) (p : Hyper K) (data : List (List K)) (labels : List K) (b : ℕ)
    (v : ℕ → K) (c : ℕ) (hc : c < s.slotsPerData) :
    ∑ i ∈ range s.numCtPerBatch, grad p s.slotsPerData s.numDataPerCt
      (fun r c => if (r < s.realnumDataPerCt ∧ s.dataId b i r < s.numTrain) ∧ c < s.numFeature then
          entry data (s.dataId b i r) c else 0)
      (fun r => labels.getD (s.dataId b i r) 0) v c =
    if c < s.numFeature then gradOn p s.numFeature
      (Ico (s.perBatch * b) (min (s.perBatch * (b + 1)) s.numTrain)) (entry data)
      (fun d => labels.getD d 0) v c else 0 := by
  have h1 : ∀ i, grad p s.slotsPerData s.numDataPerCt
      (fun r c => if (r < s.realnumDataPerCt ∧ s.dataId b i r < s.numTrain) ∧ c < s.numFeature then
          entry data (s.dataId b i r) c else 0)
      (fun r => labels.getD (s.dataId b i r) 0) v c =
      if c < s.numFeature then
        grad p s.numFeature (min s.realnumDataPerCt (s.numTrain - s.dataId b i 0))
          (fun r c => entry data (s.dataId b i r) c) (fun r => labels.getD (s.dataId b i r) 0) v c
      else 0 := by
    intro i
    refine grad_pad s.numFeature_le (le_trans (Nat.min_le_left _ _) s.real_le) ?_
      (fun _ _ => rfl) v c hc
    intro r _ c _
    congr 1
    rw [s.dataId_eq, s.dataId_eq, lt_min_iff]
    apply propext
    constructor <;> rintro ⟨⟨h1, h2⟩, h3⟩ <;> exact ⟨⟨h1, by omega⟩, h3⟩
  by_cases hcF : c < s.numFeature
  · rw [if_pos hcF, sum_congr rfl fun i _ => (h1 i).trans (if_pos hcF)]
    set f : ℕ → K := fun k => if s.perBatch * b + k < s.numTrain then
      (sigma3 p (∑ l ∈ range s.numFeature, entry data (s.perBatch * b + k) l * v l) -
        labels.getD (s.perBatch * b + k) 0) * entry data (s.perBatch * b + k) c else 0 with hf
    have h2 : ∀ i, grad p s.numFeature (min s.realnumDataPerCt (s.numTrain - s.dataId b i 0))
          (fun r c => entry data (s.dataId b i r) c) (fun r => labels.getD (s.dataId b i r) 0) v c =
        ∑ j ∈ range s.realnumDataPerCt, f (s.realnumDataPerCt * i + j) := by
      intro i
      unfold grad
      rw [← sum_subset (range_subset_range.mpr (Nat.min_le_left s.realnumDataPerCt
        (s.numTrain - s.dataId b i 0)))]
      · refine sum_congr rfl fun j hj => ?_
        have hj' := mem_range.mp hj
        rw [s.dataId_eq, lt_min_iff] at hj'
        simp only [hf, s.dataId_eq]
        rw [if_pos (by omega)]
      · intro j hj0 hj
        have hj' : ¬ j < min s.realnumDataPerCt (s.numTrain - s.dataId b i 0) :=
          fun h => hj (mem_range.mpr h)
        have hj1 := mem_range.mp hj0
        rw [s.dataId_eq] at hj'
        simp only [hf]
        rw [if_neg]
        omega
    rw [sum_congr rfl fun i _ => h2 i, sum_blocks]
    unfold gradOn
    rw [sum_Ico_eq_sum_range]
    have hle : min (s.perBatch * (b + 1)) s.numTrain - s.perBatch * b ≤
        s.numCtPerBatch * s.realnumDataPerCt := by
      rw [mul_add, mul_one]
      show _ ≤ s.perBatch
      omega
    rw [← sum_subset (range_subset_range.mpr hle)]
    · refine sum_congr rfl fun k hk => ?_
      have := mem_range.mp hk
      simp only [hf]
      rw [if_pos (by omega)]
    · intro k hk hk2
      have h3 := mem_range.mp hk
      have h4 : ¬ k < min (s.perBatch * (b + 1)) s.numTrain - s.perBatch * b :=
        fun h => hk2 (mem_range.mpr h)
      simp only [hf]
      rw [if_neg]
      rw [mul_add, mul_one] at h4
      change k < s.perBatch at h3
      omega
  · rw [if_neg hcF]
    exact sum_eq_zero fun i _ => (h1 i).trans (if_neg hcF)

theorem gradOn_congr {p : Hyper K} {F : ℕ} {S : Finset ℕ} {Z : ℕ → ℕ → K} {y v w : ℕ → K}
    (h : ∀ k < F, v k = w k) (c : ℕ) : gradOn p F S Z y v c = gradOn p F S Z y w c := by
  unfold gradOn
  refine sum_congr rfl fun r _ => ?_
  rw [sum_congr rfl fun k hk => by rw [h k (mem_range.mp hk)]]

/-- lr_minibatch.go from the table to the trained weights: iteration `a` is the Nesterov step for
the records of batch `a % numBatch`, which are the indices `perBatch * b, …` below `numTrain`.
`maskW` is the period of the mask: the literal `2^3` of the code. -/
theorem C39_minibatch [NeZero n] (s : Shape) {a maskW : ℕ} (hr : s.numDataPerCt = 2 ^ a)
    (hn : n = s.numDataPerCt * s.slotsPerData) (hs : n = s.numSlots) (hm : s.slotsPerData = maskW)
    (p : Hyper K) (h3 : p.c3 ≠ 0) {data : List (List K)} {labels : List K}
    (hnb : 0 < s.numBatch) (hd : s.numTrain ≤ data.length)
    (hrow : ∀ r < s.numTrain, s.numFeature ≤ (data.getD r []).length)
    (hl : s.numTrain ≤ labels.length) (T : ℕ) :
    ∃ z label : ℕ → ℕ → List K, (∀ b i, packBatchZ s data b i = .ok (z b i)) ∧
      (∀ b i, packBatchLabel s labels b i = .ok (label b i)) ∧
      ∃ beta v : Slots n K,
        (mbTrain (slotsHE n K) (constSlots n maskW p) s.numDataPerCt s.slotsPerData s.numBatch
          s.numCtPerBatch (fun b i => dataSlots n p (z b i) (label b i)) (fun _ => (0, 0)) T 0 0 :
          Id _) = (beta, v) ∧
        let st := nesterovRun p (fun a => gradOn p s.numFeature
          (Ico (s.perBatch * (a % s.numBatch))
            (min (s.perBatch * (a % s.numBatch + 1)) s.numTrain)) (entry data)
          (fun d => labels.getD d 0)) T (fun _ => 0, fun _ => 0)
        Replicated s.slotsPerData beta (fun c => if c < s.numFeature then st.1 c else 0) ∧
        Replicated s.slotsPerData v (fun c => if c < s.numFeature then st.2 c else 0) := by
  subst hm
  choose z z1 z2 z3 using fun b i => C40_packBatchZ s hd hrow b i
  choose l l1 l2 l3 using fun b i => C40_packBatchLabel s hl b i
  refine ⟨z, l, z1, l1, ?_⟩
  have hH : ∀ b < s.numBatch, ∀ i < s.numCtPerBatch, Holds n s.numDataPerCt s.slotsPerData (z b i)
      (l b i) (fun r c => if (r < s.realnumDataPerCt ∧ s.dataId b i r < s.numTrain) ∧
        c < s.numFeature then entry data (s.dataId b i r) c else 0)
      (fun r => labels.getD (s.dataId b i r) 0) := by
    intro b _ i _
    refine ⟨(l2 b i).trans hs.symm, fun r _ c hc => z3 b i r c hc, fun r _ c hc h0 => ?_⟩
    rw [l3 b i r c hc, if_pos]
    by_contra h
    exact h0 (if_neg h)
  obtain ⟨beta, v, e, hb, hv⟩ := C39_minibatch_train (cols := s.slotsPerData) hr
    (b := Nat.clog 2 s.numFeature) rfl hn p h3
    hnb hH (replicated_zero s.slotsPerData) (replicated_zero s.slotsPerData) T
  refine ⟨beta, v, e, ?_⟩
  have key := nesterovRun_pad (p := p) s.numFeature_le
    (fun a v c hc => batch_grad s p data labels (a % s.numBatch) v c hc)
    (fun _ v v' h c => gradOn_congr h c) (st := (fun _ => 0, fun _ => 0))
    (st' := (fun _ => 0, fun _ => 0)) (fun _ _ => ⟨rfl, rfl⟩) (fun _ _ _ => ⟨rfl, rfl⟩) T
  refine ⟨hb.congr s.slotsPerData_pos fun c hc => ?_, hv.congr s.slotsPerData_pos fun c hc => ?_⟩
  · by_cases h : c < s.numFeature
    · rw [if_pos h, (key.1 c h).1]
    · rw [if_neg h, (key.2 c (by omega) hc).1]
  · by_cases h : c < s.numFeature
    · rw [if_pos h, (key.1 c h).2]
    · rw [if_neg h, (key.2 c (by omega) hc).2]

/-! ## C41: inference -/

theorem packTest_spec {slotNum F : ℕ} {row : List K} (hF : F ≤ slotNum) (hrow : F ≤ row.length) :
    ∃ z, packTest slotNum F row = .ok z ∧ z.length = slotNum ∧
      ∀ j, z.getD j 0 = if j < F then row.getD j 0 else 0 := by
  unfold packTest
  obtain ⟨z, h1, h2, h3, h4⟩ := forN_row (m := F) (base := 0) (body := fun j z => do
      let x ← idx row j
      upd z j x) (f := fun j => row.getD j 0) (fun k hk z => by
        rw [idx_of_lt (by omega), Go.ok_bind, zero_add, List.getD_eq_getElem _ _ (by omega)])
      (List.replicate slotNum 0) (by simpa using hF)
  refine ⟨z, h1, by simpa using h2, fun j => ?_⟩
  by_cases h : j < F
  · rw [if_pos h]; simpa using h3 j h
  · rw [if_neg h, h4 j (Or.inr (by omega)), getD_replicate_zero]

/-- Slot 0 of the inference result is the cubic sigmoid of the inner product of the record and
the weights, for every number of features up to the slot count. -/
theorem C41_infer [NeZero n] {F w e : ℕ} (hn : n = 2 ^ e) (p : Hyper K) (h3 : p.c3 ≠ 0)
    {row : List K} (hF : F ≤ n) (hrow : F ≤ row.length) {beta : Slots n K} {bb : ℕ → K}
    (hb : Replicated w beta bb) (hw : F ≤ w) :
    ∃ test, packTest n F row = .ok test ∧
      (infer (slotsHE n K) (constSlots n w p) F (toSlots n test) beta : Id (Slots n K)) 0 =
        sigma3 p (∑ j ∈ range F, row.getD j 0 * bb j) := by
  obtain ⟨t, h1, h2, ht⟩ := packTest_spec hF hrow
  refine ⟨t, h1, ?_⟩
  have hle : 2 ^ Nat.clog 2 F ≤ n := by
    rw [hn]; exact Nat.pow_le_pow_right (by norm_num) (Nat.clog_le_of_le_pow (hn ▸ hF))
  have hF2 : F ≤ 2 ^ Nat.clog 2 F := Nat.le_pow_clog (by norm_num) _
  have key := forDouble_rot (n := n) F (fun i => (i : ℤ)) 1 (fun i => by simp)
    (toSlots n t * beta)
  set ip : Slots n K := Id.run (forDouble F 1 (fun i ct => do
    let r ← (slotsHE n K).rotate ct (i : ℤ)
    (slotsHE n K).add ct r) (toSlots n t * beta)) with hip
  replace key : ip = _ := key
  have hip0 : ip 0 = ∑ j ∈ range F, row.getD j 0 * bb j := by
    rw [key]
    show ∑ r ∈ range (2 ^ Nat.clog 2 F), (toSlots n t * beta) (0 + ((1 * r : ℤ) : ZMod n)) = _
    rw [← sum_subset (range_subset_range.mpr hF2)]
    · refine sum_congr rfl fun j hj => ?_
      have hj' := mem_range.mp hj
      have hv : (0 + ((1 * j : ℤ) : ZMod n)).val = j := by
        rw [zero_add, one_mul, Int.cast_natCast, ZMod.val_natCast, Nat.mod_eq_of_lt (by omega)]
      show t.getD (0 + ((1 * j : ℤ) : ZMod n)).val 0 * beta (0 + ((1 * j : ℤ) : ZMod n)) = _
      rw [hb, hv, ht, if_pos hj', Nat.mod_eq_of_lt (by omega)]
    · intro j hj hj2
      have hj' := mem_range.mp hj
      have hv : (0 + ((1 * j : ℤ) : ZMod n)).val = j := by
        rw [zero_add, one_mul, Int.cast_natCast, ZMod.val_natCast, Nat.mod_eq_of_lt (by omega)]
      show t.getD (0 + ((1 * j : ℤ) : ZMod n)).val 0 * beta (0 + ((1 * j : ℤ) : ZMod n)) = 0
      rw [hv, ht, if_neg (fun h => hj2 (mem_range.mpr h)), zero_mul]
  have hrun : (infer (slotsHE n K) (constSlots n w p) F (toSlots n t) beta : Id (Slots n K)) =
    (ip * ip + toSlots n (const5 p n)) * (ip * toSlots n (const8 p n)) +
      toSlots n (const9 p n) := rfl
  refine (congrFun hrun 0).trans ?_
  show (ip 0 * ip 0 + toSlots n (const5 p n) 0) * (ip 0 * toSlots n (const8 p n) 0) +
      toSlots n (const9 p n) 0 = _
  simp only [const5, const8, const9, toSlots_replicate]
  rw [hip0, sigma3]
  field_simp

end MK.Lr
