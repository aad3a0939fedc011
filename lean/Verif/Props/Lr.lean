import Verif.LrSpec

/-!
# Row and column sums, training, packing and inference (C38-C41)
-/

namespace MK.Lr

open Finset

variable {K : Type} [Field K] {n : ℕ}

/-! ## C38: `SumRowVec` and `SumColVec` -/

theorem sum_range_shift {f : ℕ → K} {R : ℕ} (hf : ∀ r, f (r + R) = f r) (a : ℕ) :
    ∑ r ∈ range R, f (r + a) = ∑ r ∈ range R, f r := by
  induction a with
  | zero => rfl
  | succ a ih =>
    rw [← ih]
    have h1 := sum_range_succ (fun r => f (r + a)) R
    have h2 := sum_range_succ' (fun r => f (r + a)) R
    simp only [zero_add] at h2
    rw [h1, show R + a = a + R by ring, hf a] at h2
    have : ∑ r ∈ range R, f (r + (a + 1)) = ∑ r ∈ range R, f (r + 1 + a) :=
      sum_congr rfl fun r _ => by rw [show r + (a + 1) = r + 1 + a by ring]
    rw [this]
    exact (add_right_cancel h2).symm

theorem val_split [NeZero n] (w : ℕ) (i : ZMod n) :
    i = ((w * (i.val / w) + i.val % w : ℕ) : ZMod n) := by
  rw [Nat.div_add_mod, ZMod.natCast_zmod_val]

/-- `SumRowVec` puts into every slot the sum over all rows of the slot's column. -/
theorem C38_SumRowVec [NeZero n] {rows cols a : ℕ} (hr : rows = 2 ^ a) (hn : n = rows * cols)
    (x : Slots n K) (i : ZMod n) :
    (SumRowVec (slotsHE n K) x rows cols : Id (Slots n K)) i =
      ∑ r ∈ range rows, x ((cols * r + i.val % cols : ℕ) : ZMod n) := by
  unfold SumRowVec
  rw [forDouble_rot rows (fun i => ((cols * i : ℕ) : ℤ)) cols (fun i => by push_cast; ring) x]
  have hc : 2 ^ Nat.clog 2 rows = rows := by rw [hr, Nat.clog_pow _ _ (by norm_num)]
  rw [hc]
  set b := i.val / cols
  have hi := val_split cols i
  have := sum_range_shift (f := fun r => x ((cols * r + i.val % cols : ℕ) : ZMod n)) (R := rows)
    (fun r => by
      have hz : ((rows * cols : ℕ) : ZMod n) = 0 := by rw [← hn]; exact ZMod.natCast_self n
      have : ((cols * (r + rows) + i.val % cols : ℕ) : ZMod n) =
          ((cols * r + i.val % cols : ℕ) : ZMod n) := by
        push_cast at hz ⊢
        linear_combination hz
      simp only [this]) b
  rw [← this]
  refine sum_congr rfl fun r _ => ?_
  congr 1
  conv_lhs => rw [hi]
  push_cast
  ring

/-- `SumColVec` puts into every slot of a row the sum of the row, when the mask selects the first
column. -/
theorem C38_SumColVec [NeZero n] {rows cols b : ℕ} (hc : cols = 2 ^ b) (hn : n = rows * cols)
    (x : Slots n K) (i : ZMod n) :
    (SumColVec (slotsHE n K) x (toSlots n (maskVec n cols)) cols : Id (Slots n K)) i =
      ∑ k ∈ range cols, x ((cols * (i.val / cols) + k : ℕ) : ZMod n) := by
  have hcp : 0 < cols := by rw [hc]; positivity
  have hnp : 0 < n := NeZero.pos n
  have e1 := forDouble_rot (n := n) cols (fun i => (i : ℤ)) 1 (fun i => by ring) x
  have hcl : 2 ^ Nat.clog 2 cols = cols := by rw [hc, Nat.clog_pow _ _ (by norm_num)]
  rw [hcl] at e1
  have e0 : (SumColVec (slotsHE n K) x (toSlots n (maskVec n cols)) cols : Id (Slots n K)) =
    forDouble cols 1 (fun i ct => do
      let r ← (slotsHE n K).rotate ct (-(i : ℤ))
      (slotsHE n K).add ct r)
      ((slotsHE n K).mulPtxt (forDouble cols 1 (fun i ct => do
        let r ← (slotsHE n K).rotate ct (i : ℤ)
        (slotsHE n K).add ct r) x : Id (Slots n K)) (toSlots n (maskVec n cols))) := rfl
  rw [e0, e1]
  clear e0 e1
  have e2 := forDouble_rot (n := n) cols (fun i => -(i : ℤ)) (-1) (fun i => by ring)
    ((fun i => ∑ r ∈ range cols, x (i + ((1 * r : ℤ) : ZMod n))) * toSlots n (maskVec n cols))
  rw [hcl] at e2
  refine (congrFun e2 i).trans ?_
  have hmask : ∀ j : ZMod n, toSlots n (maskVec n cols) j = if j.val % cols = 0 then (1 : K) else 0 := by
    intro j
    have hj : j.val < n := ZMod.val_lt j
    simp [toSlots, maskVec, List.getD_eq_getElem?_getD, hj]
  have hlt : i.val % cols < cols := Nat.mod_lt _ hcp
  -- the only surviving shift
  have hshift : ∀ r < cols, ((i + ((-1 * (r : ℤ) : ℤ) : ZMod n)).val % cols = 0 ↔ r = i.val % cols) := by
    intro r hr
    have hdvd : cols ∣ n := ⟨rows, by rw [hn]; ring⟩
    have h1 : (i + ((-1 * (r : ℤ) : ℤ) : ZMod n)) = ((i.val + (n - r % n) : ℕ) : ZMod n) := by
      have : ((r % n : ℕ) : ZMod n) = r := ZMod.natCast_mod r n
      have h2 : r % n ≤ n := (Nat.mod_lt _ hnp).le
      push_cast [Nat.cast_sub h2, this]
      simp
    rw [h1, ZMod.val_natCast, Nat.mod_mod_of_dvd _ hdvd, ← Nat.dvd_iff_mod_eq_zero]
    obtain ⟨t, ht⟩ := hdvd
    have hrn : r % n = r := Nat.mod_eq_of_lt (lt_of_lt_of_le hr (Nat.le_of_dvd hnp ⟨t, ht⟩))
    rw [hrn]
    have hrle : r ≤ n := (lt_of_lt_of_le hr (Nat.le_of_dvd hnp ⟨t, ht⟩)).le
    have hz : ((i.val + (n - r) : ℕ) : ZMod cols) = ((i.val : ℕ) : ZMod cols) - (r : ZMod cols) := by
      have : ((n : ℕ) : ZMod cols) = 0 := by rw [ht]; push_cast; simp
      push_cast [Nat.cast_sub hrle, this]
      ring
    rw [← ZMod.natCast_eq_zero_iff, hz, sub_eq_zero, ZMod.natCast_eq_natCast_iff']
    rw [Nat.mod_eq_of_lt hr]
    exact eq_comm
  rw [sum_eq_single_of_mem (i.val % cols) (mem_range.mpr hlt)]
  · show (∑ r ∈ range cols, x _) * toSlots n (maskVec n cols) _ = _
    rw [hmask, if_pos ((hshift _ hlt).mpr rfl), mul_one]
    refine sum_congr rfl fun k _ => ?_
    congr 1
    have hi := val_split cols i
    simp only [Int.cast_mul, Int.cast_neg, Int.cast_one, Int.cast_natCast, Nat.cast_add,
      Nat.cast_mul] at hi ⊢
    linear_combination hi
  · intro r hr hne
    show (∑ r ∈ range cols, x _) * toSlots n (maskVec n cols) _ = _
    rw [hmask, if_neg (fun h => hne ((hshift r (mem_range.mp hr)).mp h)), mul_zero]

/-! ## C39: a training iteration is a Nesterov step -/

/-- The constants of `main` as slot vectors. -/
def constSlots (n cols : ℕ) (p : Hyper K) : Consts (Slots n K) (Slots n K) where
  mask := toSlots n (maskVec n cols)
  c3 := toSlots n (const3 p n)
  c4 iter := toSlots n (const4 p n iter)
  c5 := toSlots n (const5 p n)
  c6 iter := toSlots n (const6 p n iter)
  c7 iter := toSlots n (const7 p n iter)
  c8 := toSlots n (const8 p n)
  c9 := toSlots n (const9 p n)

/-- The data of one ciphertext as slot vectors. -/
def dataSlots (n : ℕ) (p : Hyper K) (z label : List K) : Data (Slots n K) (Slots n K) where
  z := toSlots n z
  k1 := toSlots n (const1 p label)
  k2 iter := toSlots n (const2 p label iter)

theorem toSlots_replicate [NeZero n] (c : K) (i : ZMod n) :
    toSlots n (List.replicate n c) i = c := by
  have hj : i.val < n := ZMod.val_lt i
  simp [toSlots, List.getD_eq_getElem?_getD, hj]

theorem toSlots_map [NeZero n] (f : K → K) {l : List K} (hl : l.length = n) (i : ZMod n) :
    toSlots n (l.map f) i = f (toSlots n l i) := by
  have hj : i.val < l.length := by rw [hl]; exact ZMod.val_lt i
  simp [toSlots, List.getD_eq_getElem?_getD, hj]

/-- What `depth3` and the products at depth 4 compute in slot `i`. -/
theorem grad_slots [NeZero n] {rows cols b : ℕ} (hc : cols = 2 ^ b) (hn : n = rows * cols)
    (p : Hyper K) (h3 : p.c3 ≠ 0) {z label : List K} (hl : label.length = n) (a : ℕ)
    (v : Slots n K) :
    ∃ z1 z2 m2 m1 s : Slots n K,
      (depth3 (slotsHE n K) (constSlots n cols p) cols a (dataSlots n p z label) v :
        Id _) = (z1, z2, m2, m1, s) ∧ ∀ i : ZMod n,
      (m1 * m2 + z1) i = -(p.gamma / p.batchSize) *
        ((sigma3 p (∑ k ∈ range cols, toSlots n z ((cols * (i.val / cols) + k : ℕ) : ZMod n) *
          v ((cols * (i.val / cols) + k : ℕ) : ZMod n)) - toSlots n label i) * toSlots n z i) ∧
      (s * m2 + z2) i = (1 - p.eta a) * (m1 * m2 + z1) i := by
  refine ⟨_, _, _, _, _, rfl, fun i => ?_⟩
  have hm := C38_SumColVec (K := K) hc hn (toSlots n z * v) i
  set m : Slots n K := Id.run (SumColVec (slotsHE n K) (toSlots n z * v)
    (toSlots n (maskVec n cols)) cols) with hmdef
  replace hm : m i = _ := hm
  constructor
  · show (m i * (toSlots n z i * toSlots n (const3 p n) i)) *
        (m i * m i + toSlots n (const5 p n) i) + toSlots n z i * toSlots n (const1 p label) i = _
    rw [hm]
    simp only [const3, const5, const1, toSlots_replicate, toSlots_map _ hl, sigma3, Pi.mul_apply]
    field_simp
    ring
  · show (toSlots n z i * toSlots n (const4 p n a) i * m i) *
        (m i * m i + toSlots n (const5 p n) i) + toSlots n z i * toSlots n (const2 p label a) i =
      (1 - p.eta a) * ((m i * (toSlots n z i * toSlots n (const3 p n) i)) *
        (m i * m i + toSlots n (const5 p n) i) + toSlots n z i * toSlots n (const1 p label) i)
    simp only [const3, const4, const5, const1, const2, toSlots_replicate, toSlots_map _ hl]
    ring

/-- The records a ciphertext holds: record `r` fills row `r`; the label is only needed where the
record is not zero. -/
structure Holds (n rows cols : ℕ) (z label : List K) (Z : ℕ → ℕ → K) (y : ℕ → K) : Prop where
  len : label.length = n
  z : ∀ r < rows, ∀ c < cols, z.getD (cols * r + c) 0 = Z r c
  label : ∀ r < rows, ∀ c < cols, Z r c ≠ 0 → label.getD (cols * r + c) 0 = y r

theorem coord_lt {rows cols r c : ℕ} (hr : r < rows) (hc : c < cols) :
    cols * r + c < rows * cols := by
  calc cols * r + c < cols * r + cols := by omega
    _ = cols * (r + 1) := by ring
    _ ≤ cols * rows := Nat.mul_le_mul_left _ hr
    _ = rows * cols := by ring

theorem val_coord [NeZero n] {rows cols r c : ℕ} (hn : n = rows * cols) (hr : r < rows)
    (hc : c < cols) : ((cols * r + c : ℕ) : ZMod n).val = cols * r + c := by
  rw [ZMod.val_natCast, Nat.mod_eq_of_lt]
  rw [hn]; exact coord_lt hr hc

theorem coord_div {cols r c : ℕ} (hc : c < cols) : (cols * r + c) / cols = r := by
  rw [Nat.mul_add_div (by omega), Nat.div_eq_of_lt hc, add_zero]

theorem coord_mod {cols r c : ℕ} (hc : c < cols) : (cols * r + c) % cols = c := by
  rw [Nat.mul_add_mod, Nat.mod_eq_of_lt hc]

/-- The contribution of one ciphertext to the gradient sums, in every slot. -/
theorem rowSum_grad [NeZero n] {rows cols b : ℕ} (hc : cols = 2 ^ b)
    (hn : n = rows * cols) (p : Hyper K) (h3 : p.c3 ≠ 0) {z label : List K} {Z : ℕ → ℕ → K}
    {y : ℕ → K} (hd : Holds n rows cols z label Z y) (it : ℕ) {v : Slots n K} {vv : ℕ → K}
    (hv : Replicated cols v vv) :
    ∃ z1 z2 m2 m1 s : Slots n K,
      (depth3 (slotsHE n K) (constSlots n cols p) cols it (dataSlots n p z label) v :
        Id _) = (z1, z2, m2, m1, s) ∧
      (∀ c < cols, ∑ r ∈ range rows, (m1 * m2 + z1) ((cols * r + c : ℕ) : ZMod n) =
        -(p.gamma / p.batchSize * grad p cols rows Z y vv c)) ∧
      ∀ i, (s * m2 + z2) i = (1 - p.eta it) * (m1 * m2 + z1) i := by
  obtain ⟨z1, z2, m2, m1, s, he, hs⟩ := grad_slots hc hn p h3 (z := z) hd.len it v
  refine ⟨z1, z2, m2, m1, s, he, fun c hcc => ?_, fun i => (hs i).2⟩
  unfold grad
  rw [mul_sum, ← sum_neg_distrib]
  refine sum_congr rfl fun r hrr => ?_
  have hr' := mem_range.mp hrr
  have hz : ∀ k < cols, toSlots n z ((cols * r + k : ℕ) : ZMod n) = Z r k := fun k hk => by
    unfold toSlots; rw [val_coord hn hr' hk]; exact hd.z r hr' k hk
  rw [(hs _).1, val_coord hn hr' hcc, coord_div hcc, hz c hcc]
  have hsum : ∑ k ∈ range cols, toSlots n z ((cols * r + k : ℕ) : ZMod n) *
      v ((cols * r + k : ℕ) : ZMod n) = ∑ k ∈ range cols, Z r k * vv k := by
    refine sum_congr rfl fun k hk => ?_
    have hk' := mem_range.mp hk
    rw [hz k hk', hv, val_coord hn hr' hk', coord_mod hk']
  rw [hsum]
  by_cases h0 : Z r c = 0
  · rw [h0]; ring
  · have : toSlots n label ((cols * r + c : ℕ) : ZMod n) = y r := by
      unfold toSlots; rw [val_coord hn hr' hcc]; exact hd.label r hr' c hcc h0
    rw [this]; ring

/-- One iteration of lr.go is one Nesterov step, replicated in every row. -/
theorem C39_iteration [NeZero n] {rows cols a b : ℕ} (hr : rows = 2 ^ a) (hc : cols = 2 ^ b)
    (hn : n = rows * cols) (p : Hyper K) (h3 : p.c3 ≠ 0) {z label : List K} {Z : ℕ → ℕ → K}
    {y : ℕ → K} (hd : Holds n rows cols z label Z y) (it : ℕ) {beta v : Slots n K}
    {bb vv : ℕ → K} (hb : Replicated cols beta bb) (hv : Replicated cols v vv) :
    ∃ beta' v' : Slots n K,
      (lrIter (slotsHE n K) (constSlots n cols p) rows cols (dataSlots n p z label) it (beta, v) :
        Id _) = (beta', v') ∧
      Replicated cols beta' (nesterov p (grad p cols rows Z y) it (bb, vv)).1 ∧
      Replicated cols v' (nesterov p (grad p cols rows Z y) it (bb, vv)).2 := by
  have hcp : 0 < cols := by rw [hc]; positivity
  obtain ⟨z1, z2, m2, m1, s, he, hg, hu⟩ := rowSum_grad hc hn p h3 hd it hv
  have hG := C38_SumRowVec (K := K) hr hn (m1 * m2 + z1)
  have hU := C38_SumRowVec (K := K) hr hn (s * m2 + z2)
  set G : Slots n K := Id.run (SumRowVec (slotsHE n K) (m1 * m2 + z1) rows cols) with hGd
  set U : Slots n K := Id.run (SumRowVec (slotsHE n K) (s * m2 + z2) rows cols) with hUd
  replace hG : ∀ i, G i = _ := hG
  replace hU : ∀ i, U i = _ := hU
  have hrun : (lrIter (slotsHE n K) (constSlots n cols p) rows cols (dataSlots n p z label) it
      (beta, v) : Id _) = (v + G, v * toSlots n (const6 p n it) + beta * toSlots n (const7 p n it)
        + U) := by
    have : (lrIter (slotsHE n K) (constSlots n cols p) rows cols (dataSlots n p z label) it
      (beta, v) : Id _) = (depth3 (slotsHE n K) (constSlots n cols p) cols it
        (dataSlots n p z label) v : Id _) >>= fun (z1, z2, m2, m1, s) =>
          (pure (v + Id.run (SumRowVec (slotsHE n K) (m1 * m2 + z1) rows cols),
            v * toSlots n (const6 p n it) + beta * toSlots n (const7 p n it)
              + Id.run (SumRowVec (slotsHE n K) (s * m2 + z2) rows cols)) : Id _) := rfl
    rw [this, he]
    rfl
  have hbeta : ∀ i, (v + G) i = (nesterov p (grad p cols rows Z y) it (bb, vv)).1 (i.val % cols) := by
    intro i
    show v i + G i = vv (i.val % cols) - _
    rw [hG, hg _ (Nat.mod_lt _ hcp), hv]
    ring
  refine ⟨_, _, hrun, hbeta, fun i => ?_⟩
  have hUG : U i = (1 - p.eta it) * G i := by
    rw [hU, hG, mul_sum]
    exact sum_congr rfl fun r _ => hu _
  show v i * toSlots n (const6 p n it) i + beta i * toSlots n (const7 p n it) i + U i =
    (1 - p.eta it) * (nesterov p (grad p cols rows Z y) it (bb, vv)).1 (i.val % cols) +
      p.eta it * bb (i.val % cols)
  rw [← hbeta i, hUG]
  simp only [const6, const7, toSlots_replicate, Pi.add_apply]
  rw [hb i]
  ring

/-- The training loop of lr.go computes the Nesterov sequence, for any number of iterations. -/
theorem C39_train [NeZero n] {rows cols a b : ℕ} (hr : rows = 2 ^ a) (hc : cols = 2 ^ b)
    (hn : n = rows * cols) (p : Hyper K) (h3 : p.c3 ≠ 0) {z label : List K} {Z : ℕ → ℕ → K}
    {y : ℕ → K} (hd : Holds n rows cols z label Z y) {beta v : Slots n K}
    {bb vv : ℕ → K} (hb : Replicated cols beta bb) (hv : Replicated cols v vv) (T : ℕ) :
    ∃ beta' v' : Slots n K,
      (lrTrain (slotsHE n K) (constSlots n cols p) rows cols (dataSlots n p z label) T beta v :
        Id _) = (beta', v') ∧
      Replicated cols beta' (nesterovRun p (fun _ => grad p cols rows Z y) T (bb, vv)).1 ∧
      Replicated cols v' (nesterovRun p (fun _ => grad p cols rows Z y) T (bb, vv)).2 := by
  induction T with
  | zero => exact ⟨_, _, rfl, hb, hv⟩
  | succ T ih =>
    obtain ⟨b1, v1, h1, hb1, hv1⟩ := ih
    obtain ⟨b2, v2, h2, hb2, hv2⟩ := C39_iteration hr hc hn p h3 hd T hb1 hv1
    refine ⟨b2, v2, ?_, hb2, hv2⟩
    show (lrTrain (slotsHE n K) (constSlots n cols p) rows cols (dataSlots n p z label) T beta v :
      Id _) >>= lrIter (slotsHE n K) (constSlots n cols p) rows cols (dataSlots n p z label) T = _
    rw [h1]
    exact h2

end MK.Lr
