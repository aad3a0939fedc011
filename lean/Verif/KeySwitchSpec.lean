import Verif.KeySwitch

/-!
# Closed forms of `Decompose`, `ExternalProduct` and `ExternalProductHoisted`
-/

noncomputable section

namespace MK

open Finset

variable {C : Ctx}

/-- A switching-key buffer holds the digits `h` in NTT form, as far as operations at level `L`
read it. -/
structure Holds (L : ℕ) (s : SwKey C) (h : ℕ → Nega C.N ℤ) : Prop where
  q : ∀ k < C.beta L, ∀ i ≤ L, (s k).Q.row i = C.nttQ.equiv i (Nega.red (C.q i) (h k))
  p : ∀ k < C.beta L, ∀ j < C.nP, (s k).P.row j = C.nttP.equiv j (Nega.red (C.p j) (h k))

theorem beta_mono {L L' : ℕ} (h : L' ≤ L) : C.beta L' ≤ C.beta L :=
  Nat.div_le_div_right (by omega)

theorem Holds.mono {L L' : ℕ} {s : SwKey C} {h : ℕ → Nega C.N ℤ} (H : Holds L s h)
    (hl : L' ≤ L) : Holds L' s h :=
  ⟨fun k hk i hi => H.q k (hk.trans_le (beta_mono hl)) i (hi.trans hl),
   fun k hk j hj => H.p k (hk.trans_le (beta_mono hl)) j hj⟩

theorem toCoeff_spec (ks : KS C) (L : ℕ) (a : RQ C) :
    ∃ inv, (ks.toCoeff L a).1 = { ks with poolInv := inv } ∧
      ∀ i ≤ L, (⟨(ks.toCoeff L a).2.row i⟩ : Nega C.N (ZMod (C.q i))) = a.val C.nttQ i := by
  unfold KS.toCoeff
  by_cases h : a.isNTT = true
  · rw [if_pos h]
    refine ⟨_, rfl, fun i hi => ?_⟩
    simp only [RPoly.invNttLvl]
    rw [RPoly.write_row_of_le _ _ hi, RPoly.val_true _ h]
  · rw [if_neg h]
    exact ⟨_, rfl, fun i hi => (RPoly.val_false _ (by simpa using h) i).symm⟩

theorem decomposeSingle_rows (hC : C.Good) {L k : ℕ} (hk : k < C.beta L) {c2 : RQ C}
    {c : (i : ℕ) → Nega C.N (ZMod (C.q i))} (hc : ∀ i ≤ L, ⟨c2.row i⟩ = c i) (out : QP C) :
    (∀ i ≤ L, (decomposeSingleNTT L C.lp k c2 out).Q.row i =
      C.nttQ.equiv i (Nega.red (C.q i) (digit C L c k))) ∧
    (∀ j < C.nP, (decomposeSingleNTT L C.lp k c2 out).P.row j =
      C.nttP.equiv j (Nega.red (C.p j) (digit C L c k))) := by
  have hd := digit_congr hC.alpha_pos' hk hc
  constructor
  · intro i hi
    simp only [decomposeSingleNTT, decomposeAndSplit, RPoly.nttLvl, RPoly.readLvl]
    rw [RPoly.write_row_of_le _ _ hi, RPoly.write_row_of_le _ _ hi, hd]
  · intro j hj
    have hj' := hC.lp_lt.mpr hj
    simp only [decomposeSingleNTT, decomposeAndSplit, RPoly.nttLvl, RPoly.readLvl]
    rw [RPoly.write_row_of_le _ _ hj', RPoly.write_row_of_le _ _ hj', hd]

/-- `Decompose` leaves the digits of its input in the output buffer, whatever the scratch and
the buffer held; it changes only `PoolInvNTT`. -/
theorem decompose_spec (hC : C.Good) (ks : KS C) (L : ℕ) (a : RQ C) (ad : SwKey C) :
    ∃ inv, (ks.Decompose L a ad).1 = { ks with poolInv := inv } ∧
      Holds L (ks.Decompose L a ad).2 (digit C L (a.val C.nttQ)) := by
  obtain ⟨inv, h1, h2⟩ := toCoeff_spec ks L a
  refine ⟨inv, h1, ?_, ?_⟩
  · intro k hk i hi
    unfold KS.Decompose
    dsimp only
    rw [forLt_update, if_pos hk]
    exact (decomposeSingle_rows hC hk h2 _).1 i hi
  · intro k hk j hj
    unfold KS.Decompose
    dsimp only
    rw [forLt_update, if_pos hk]
    exact (decomposeSingle_rows hC hk h2 _).2 j hj

theorem symm_mred {N : ℕ} [NeZero N] {m : ℕ → ℕ} (D : Ntt N m) (i : ℕ) (a : Row N (m i))
    (x : Nega N (ZMod (m i))) :
    (D.equiv i).symm (fun j => RPoly.mred (a j) (D.equiv i x j)) = D.dec i a * x := by
  have h : (fun j => RPoly.mred (a j) (D.equiv i x j)) =
      (fun j => (montR : ZMod (m i))⁻¹ * a j) * D.equiv i x := by
    funext j
    simp only [RPoly.mred, Pi.mul_apply]
    ring
  rw [h, map_mul, RingEquiv.symm_apply_apply]
  rfl

/-- The accumulator `c1` after `n ≥ 1` digits. -/
structure AccIs (L n : ℕ) (c1 : QP C) (key : KeyVal C) (h : ℕ → Nega C.N ℤ) : Prop where
  q : ∀ i ≤ L, (C.nttQ.equiv i).symm (c1.Q.row i) =
    ∑ k ∈ range n, key.Q k i * Nega.red (C.q i) (h k)
  p : ∀ j < C.nP, (C.nttP.equiv j).symm (c1.P.row j) =
    ∑ k ∈ range n, key.P k j * Nega.red (C.p j) (h k)

theorem acc_step (hC : C.Good) {L n : ℕ} {c1 : QP C} {key : SwKey C} {h : ℕ → Nega C.N ℤ}
    (H : n = 0 ∨ AccIs L n c1 key.kv h) {hk : QP C}
    (hq : ∀ i ≤ L, hk.Q.row i = C.nttQ.equiv i (Nega.red (C.q i) (h n)))
    (hp : ∀ j < C.nP, hk.P.row j = C.nttP.equiv j (Nega.red (C.p j) (h n))) :
    AccIs L (n + 1) (if n = 0 then QP.mulMontLvl L C.lp (key n) hk c1
      else QP.mulMontAddLvl L C.lp (key n) hk c1) key.kv h := by
  constructor
  · intro i hi
    rw [Finset.sum_range_succ]
    by_cases h0 : n = 0
    · subst h0
      simp only [if_true, QP.mulMontLvl, RPoly.mulMontLvl]
      rw [RPoly.write_row_of_le _ _ hi, hq i hi, symm_mred]
      simp [SwKey.kv]
    · rw [if_neg h0]
      simp only [QP.mulMontAddLvl, RPoly.mulMontAddLvl]
      rw [RPoly.write_row_of_le _ _ hi, hq i hi]
      have : (fun j => c1.Q.row i j + RPoly.mred ((key n).Q.row i j)
          (C.nttQ.equiv i (Nega.red (C.q i) (h n)) j)) = c1.Q.row i +
          fun j => RPoly.mred ((key n).Q.row i j) (C.nttQ.equiv i (Nega.red (C.q i) (h n)) j) :=
        rfl
      rw [this, map_add, symm_mred, (H.resolve_left h0).q i hi]
      rfl
  · intro i hj
    have hi := hC.lp_lt.mpr hj
    rw [Finset.sum_range_succ]
    by_cases h0 : n = 0
    · subst h0
      simp only [if_true, QP.mulMontLvl, RPoly.mulMontLvl]
      rw [RPoly.write_row_of_le _ _ hi, hp i hj, symm_mred]
      simp [SwKey.kv]
    · rw [if_neg h0]
      simp only [QP.mulMontAddLvl, RPoly.mulMontAddLvl]
      rw [RPoly.write_row_of_le _ _ hi, hp i hj]
      have : (fun j => c1.P.row i j + RPoly.mred ((key n).P.row i j)
          (C.nttP.equiv i (Nega.red (C.p i) (h n)) j)) = c1.P.row i +
          fun j => RPoly.mred ((key n).P.row i j) (C.nttP.equiv i (Nega.red (C.p i) (h n)) j) :=
        rfl
      rw [this, map_add, symm_mred, (H.resolve_left h0).p i hj]
      rfl

theorem beta_pos (ha : 0 < C.alpha) (L : ℕ) : 0 < C.beta L := by
  unfold Ctx.beta
  rw [Nat.add_div_right _ ha]
  exact Nat.succ_pos _

theorem extFinish_spec (hC : C.Good) {L : ℕ} {c1 : QP C} {key : KeyVal C}
    {h : ℕ → Nega C.N ℤ} (H : AccIs L (C.beta L) c1 key h) (c : RQ C) :
    (extFinish L c1 c).2 = c.write L fun i => (ext C L h key i).coeff := by
  unfold extFinish modDownQPtoQ
  dsimp only
  unfold RPoly.write
  congr 1
  funext i
  by_cases hi : i ≤ L
  · rw [if_pos hi, if_pos hi]
    dsimp only
    congr 1
    unfold ext
    refine modDown_congr ?_ fun j hj => ?_
    · simp only [RPoly.invNttLvl]
      rw [RPoly.write_row_of_le _ _ hi]
      exact H.q i hi
    · simp only [RPoly.invNttLvl]
      rw [RPoly.write_row_of_le _ _ (hC.lp_lt.mpr hj)]
      exact H.p j hj
  · rw [if_neg hi, if_neg hi]

/-- `ExternalProductHoisted` in closed form. -/
theorem externalProductHoisted_spec (hC : C.Good) (ks : KS C) {L : ℕ} {aH : SwKey C}
    {h : ℕ → Nega C.N ℤ} (H : Holds L aH h) (bg : SwKey C) (c : RQ C) :
    ∃ p1, (ks.ExternalProductHoisted L aH bg c) = ({ ks with pool1 := p1 },
      c.write L fun i => (ext C L h bg.kv i).coeff) := by
  have key : ∀ n ≤ C.beta L, n = 0 ∨ AccIs L n (forLt n (fun i (c1 : QP C) =>
      if i = 0 then QP.mulMontLvl L C.lp (bg i) (aH i) c1
      else QP.mulMontAddLvl L C.lp (bg i) (aH i) c1) ks.pool1) bg.kv h := by
    intro n
    induction n with
    | zero => exact fun _ => Or.inl rfl
    | succ n ih =>
      intro hn
      right
      exact acc_step hC (ih (by omega)) (fun i hi => H.q n (by omega) i hi)
        fun j hj => H.p n (by omega) j hj
  have := (key _ le_rfl).resolve_left (beta_pos hC.alpha_pos' L).ne'
  refine ⟨_, Prod.ext rfl ?_⟩
  exact extFinish_spec hC this c

/-- `ExternalProduct` in closed form. -/
theorem externalProduct_spec (hC : C.Good) (ks : KS C) (L : ℕ) (a : RQ C) (bg : SwKey C)
    (c : RQ C) :
    ∃ inv p0 p1, (ks.ExternalProduct L a bg c) =
      ({ ks with poolInv := inv, pool0 := p0, pool1 := p1 },
      c.write L fun i => (ext C L (digit C L (a.val C.nttQ)) bg.kv i).coeff) := by
  obtain ⟨inv, h1, h2⟩ := toCoeff_spec ks L a
  set aInv := (ks.toCoeff L a).2
  set h := digit C L (a.val C.nttQ)
  have key : ∀ n ≤ C.beta L, n = 0 ∨ AccIs L n (forLt n (fun i (s : QP C × QP C) =>
      (decomposeSingleNTT L C.lp i aInv s.1,
      if i = 0 then QP.mulMontLvl L C.lp (bg i) (decomposeSingleNTT L C.lp i aInv s.1) s.2
      else QP.mulMontAddLvl L C.lp (bg i) (decomposeSingleNTT L C.lp i aInv s.1) s.2))
      ((ks.toCoeff L a).1.pool0, (ks.toCoeff L a).1.pool1)).2 bg.kv h := by
    intro n
    induction n with
    | zero => exact fun _ => Or.inl rfl
    | succ n ih =>
      intro hn
      right
      have hd := decomposeSingle_rows hC (k := n) (by omega) h2
      exact acc_step hC (ih (by omega)) (fun i hi => (hd _).1 i hi) fun j hj => (hd _).2 j hj
  have := (key _ le_rfl).resolve_left (beta_pos hC.alpha_pos' L).ne'
  refine ⟨inv, ?_, ?_, Prod.ext ?_ ?_⟩
  rotate_left 2
  · unfold KS.ExternalProduct
    dsimp only
    rw [h1]
  · exact extFinish_spec hC this c

/-! ## Loops over maps -/

/-- Invariant rule for `range` loops: the invariant is indexed by the set of visited keys. -/
theorem forEach_inv {α σ : Type _} [DecidableEq α] (o : List α) (hn : o.Nodup)
    (body : α → σ → Go σ) (Inv : Finset α → σ → Prop) (s : σ) (h0 : Inv ∅ s)
    (step : ∀ done a s, a ∉ done → a ∈ o → Inv done s →
      ∃ s', body a s = .ok s' ∧ Inv (insert a done) s') :
    ∃ s', forEach o body s = .ok s' ∧ Inv o.toFinset s' := by
  have gen : ∀ (o' : List α) (done : Finset α) (s : σ), o'.Nodup → (∀ a ∈ o', a ∉ done) →
      (∀ a ∈ o', a ∈ o) → Inv done s →
      ∃ s', forEach o' body s = .ok s' ∧ Inv (done ∪ o'.toFinset) s' := by
    intro o'
    induction o' with
    | nil =>
      intro done s _ _ _ h
      exact ⟨s, rfl, by simpa using h⟩
    | cons a o' ih =>
      intro done s hnd hdis hsub hI
      obtain ⟨s1, hs1, hI1⟩ := step done a s (hdis a (by simp)) (hsub a (by simp)) hI
      have hnd' := List.nodup_cons.mp hnd
      obtain ⟨s2, hs2, hI2⟩ := ih (insert a done) s1 hnd'.2 (fun b hb => by
        rw [Finset.mem_insert]
        rintro (rfl | h)
        · exact hnd'.1 hb
        · exact hdis b (by simp [hb]) h) (fun b hb => hsub b (by simp [hb])) hI1
      refine ⟨s2, ?_, ?_⟩
      · simp only [forEach, hs1, Go.ok_bind, hs2]
      · have : done ∪ (a :: o').toFinset = insert a done ∪ o'.toFinset := by
          ext x; simp only [List.toFinset_cons, mem_union, mem_insert]; tauto
        rw [this]; exact hI2
  obtain ⟨s', h1, h2⟩ := gen o ∅ s hn (by simp) (fun a h => h) h0
  exact ⟨s', h1, by simpa using h2⟩

end MK
