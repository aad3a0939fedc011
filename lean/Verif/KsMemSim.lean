import Verif.KsMem

/-!
# Key switching on memory: equations and frames

Every function of `Verif/KsMem.lean` changes the scratch of the key switcher and its output as the
function of `Verif/KeySwitch.lean` says, and nothing else.
-/

noncomputable section

namespace MK

open PMem

variable {C : Ctx}

/-! ## Reading after writing -/

theorem PMem.q_wr_of_ne (m : PMem C) {p r : Ptr} (f : QP C → QP C) (h : r ≠ p) :
    (m.wr p f).q r = m.q r := by
  unfold PMem.q; rw [wr_val_of_ne _ _ h]

theorem PMem.q_wrQ_self (m : PMem C) (p : Ptr) (f : RQ C → RQ C) :
    (m.wrQ p f).q p = f (m.q p) := by
  unfold PMem.q PMem.wrQ; rw [wr_val_self]

theorem PMem.q_wrQ_of_ne (m : PMem C) {p r : Ptr} (f : RQ C → RQ C) (h : r ≠ p) :
    (m.wrQ p f).q r = m.q r := m.q_wr_of_ne _ h

theorem PMem.val_wrQ_of_ne (m : PMem C) {p r : Ptr} (f : RQ C → RQ C) (h : r ≠ p) :
    (m.wrQ p f).val r = m.val r := m.wr_val_of_ne _ h

theorem PMem.q_setObj_of_ne (m : PMem C) {o : ℕ} (v : SwKey C) {p : Ptr} (h : p.o ≠ o) :
    (m.setObj o v).q p = m.q p := by
  unfold PMem.q; rw [setObj_val_of_ne _ _ h]

theorem PMem.obj_wr_of_ne (m : PMem C) {p : Ptr} {o : ℕ} (f : QP C → QP C) (h : p.o ≠ o) :
    (m.wr p f).obj o = m.obj o := by
  funext k
  exact m.wr_val_of_ne _ (by rintro rfl; exact h rfl)

theorem PMem.obj_setObj_of_ne (m : PMem C) {o o' : ℕ} (v : SwKey C) (h : o' ≠ o) :
    (m.setObj o v).obj o' = m.obj o' := by
  funext k
  exact m.setObj_val_of_ne _ h

theorem ptr_ne {p r : Ptr} (h : p.o ≠ r.o) : p ≠ r := by rintro rfl; exact h rfl

/-! ## The scratch -/

namespace KSA

variable (ka : KSA) (m : PMem C)

theorem read_wr_of_not {p : Ptr} (h : ¬ ka.Has p.o) (f : QP C → QP C) :
    ka.read (m.wr p f) = ka.read m := by
  have hn : ∀ j < 9, ∀ k, (⟨ka.base + j, k⟩ : Ptr) ≠ p := by
    rintro j hj k rfl
    exact h ⟨Nat.le_add_right _ _, by dsimp only; omega⟩
  have ho : ∀ j < 9, p.o ≠ ka.base + j := fun j hj hp =>
    hn j hj p.k (by rw [← hp])
  unfold read
  simp only [poolInv, pool0, pool1, pq0, pq1, pq2, swk1, swk2, swk3]
  rw [m.q_wr_of_ne f (show (⟨ka.base, 0⟩ : Ptr) ≠ p from hn 0 (by omega) 0), m.wr_val_of_ne f (hn 1 (by omega) 0),
    m.wr_val_of_ne f (hn 2 (by omega) 0), m.q_wr_of_ne f (hn 3 (by omega) 0),
    m.q_wr_of_ne f (hn 4 (by omega) 0), m.q_wr_of_ne f (hn 5 (by omega) 0),
    m.obj_wr_of_ne f (ho 6 (by omega)), m.obj_wr_of_ne f (ho 7 (by omega)),
    m.obj_wr_of_ne f (ho 8 (by omega))]

theorem read_wr_poolInv (f : RQ C → RQ C) :
    ka.read (m.wrQ ka.poolInv f) = { ka.read m with poolInv := f (m.q ka.poolInv) } := by
  have hn : ∀ j < 9, j ≠ 0 → ∀ k, (⟨ka.base + j, k⟩ : Ptr) ≠ ka.poolInv := fun j _ h0 k =>
    ptr_ne (by simp only [poolInv]; omega)
  have ho : ∀ j < 9, j ≠ 0 → ka.poolInv.o ≠ ka.base + j := fun j _ h0 => by
    simp only [poolInv]; omega
  unfold read
  rw [m.q_wrQ_self, show ka.pool0 = ⟨ka.base + 1, 0⟩ from rfl,
    show ka.pool1 = ⟨ka.base + 2, 0⟩ from rfl,
    show ka.pq0 = ⟨ka.base + 3, 0⟩ from rfl, show ka.pq1 = ⟨ka.base + 4, 0⟩ from rfl,
    show ka.pq2 = ⟨ka.base + 5, 0⟩ from rfl, show ka.swk1 = ka.base + 6 from rfl,
    show ka.swk2 = ka.base + 7 from rfl, show ka.swk3 = ka.base + 8 from rfl]
  unfold PMem.wrQ
  rw [m.wr_val_of_ne _ (hn 1 (by omega) (by omega) 0),
    m.wr_val_of_ne _ (hn 2 (by omega) (by omega) 0), m.q_wr_of_ne _ (hn 3 (by omega) (by omega) 0),
    m.q_wr_of_ne _ (hn 4 (by omega) (by omega) 0), m.q_wr_of_ne _ (hn 5 (by omega) (by omega) 0),
    m.obj_wr_of_ne _ (ho 6 (by omega) (by omega)), m.obj_wr_of_ne _ (ho 7 (by omega) (by omega)),
    m.obj_wr_of_ne _ (ho 8 (by omega) (by omega))]

/-- Cells of different scratch objects are different. -/
theorem cell_ne {i j : ℕ} (h : i ≠ j) (k l : ℕ) :
    (⟨ka.base + i, k⟩ : Ptr) ≠ ⟨ka.base + j, l⟩ :=
  ptr_ne (by dsimp only; omega)

theorem cell0_ne {j : ℕ} (h : 0 ≠ j) (k l : ℕ) :
    (⟨ka.base, k⟩ : Ptr) ≠ ⟨ka.base + j, l⟩ :=
  ptr_ne (by dsimp only; omega)

theorem read_wr_pool0 (f : QP C → QP C) :
    ka.read (m.wr ka.pool0 f) = { ka.read m with pool0 := f (m.val ka.pool0) } := by
  unfold read
  simp only [poolInv, pool0, pool1, pq0, pq1, pq2, swk1, swk2, swk3, wr_val_self]
  rw [m.q_wr_of_ne f (ka.cell0_ne (by omega) 0 0),
    m.wr_val_of_ne f (ka.cell_ne (by omega) 0 0),
    m.q_wr_of_ne f (ka.cell_ne (by omega) 0 0), m.q_wr_of_ne f (ka.cell_ne (by omega) 0 0),
    m.q_wr_of_ne f (ka.cell_ne (by omega) 0 0), m.obj_wr_of_ne f (by dsimp only; omega),
    m.obj_wr_of_ne f (by dsimp only; omega), m.obj_wr_of_ne f (by dsimp only; omega)]

theorem read_wr_pool1 (f : QP C → QP C) :
    ka.read (m.wr ka.pool1 f) = { ka.read m with pool1 := f (m.val ka.pool1) } := by
  unfold read
  simp only [poolInv, pool0, pool1, pq0, pq1, pq2, swk1, swk2, swk3, wr_val_self]
  rw [m.q_wr_of_ne f (ka.cell0_ne (by omega) 0 0),
    m.wr_val_of_ne f (ka.cell_ne (by omega) 0 0),
    m.q_wr_of_ne f (ka.cell_ne (by omega) 0 0), m.q_wr_of_ne f (ka.cell_ne (by omega) 0 0),
    m.q_wr_of_ne f (ka.cell_ne (by omega) 0 0), m.obj_wr_of_ne f (by dsimp only; omega),
    m.obj_wr_of_ne f (by dsimp only; omega), m.obj_wr_of_ne f (by dsimp only; omega)]

theorem read_wr_pq0 (f : RQ C → RQ C) :
    ka.read (m.wrQ ka.pq0 f) = { ka.read m with pq0 := f (m.q ka.pq0) } := by
  unfold read
  rw [m.q_wrQ_self]
  simp only [poolInv, pool0, pool1, pq0, pq1, pq2, swk1, swk2, swk3, PMem.wrQ]
  rw [m.q_wr_of_ne _ (ka.cell0_ne (by omega) 0 0),
    m.wr_val_of_ne _ (ka.cell_ne (by omega) 0 0), m.wr_val_of_ne _ (ka.cell_ne (by omega) 0 0),
    m.q_wr_of_ne _ (ka.cell_ne (by omega) 0 0), m.q_wr_of_ne _ (ka.cell_ne (by omega) 0 0),
    m.obj_wr_of_ne _ (by dsimp only; omega),
    m.obj_wr_of_ne _ (by dsimp only; omega), m.obj_wr_of_ne _ (by dsimp only; omega)]

theorem read_wr_pq1 (f : RQ C → RQ C) :
    ka.read (m.wrQ ka.pq1 f) = { ka.read m with pq1 := f (m.q ka.pq1) } := by
  unfold read
  rw [m.q_wrQ_self]
  simp only [poolInv, pool0, pool1, pq0, pq1, pq2, swk1, swk2, swk3, PMem.wrQ]
  rw [m.q_wr_of_ne _ (ka.cell0_ne (by omega) 0 0),
    m.wr_val_of_ne _ (ka.cell_ne (by omega) 0 0), m.wr_val_of_ne _ (ka.cell_ne (by omega) 0 0),
    m.q_wr_of_ne _ (ka.cell_ne (by omega) 0 0), m.q_wr_of_ne _ (ka.cell_ne (by omega) 0 0),
    m.obj_wr_of_ne _ (by dsimp only; omega),
    m.obj_wr_of_ne _ (by dsimp only; omega), m.obj_wr_of_ne _ (by dsimp only; omega)]

theorem read_wr_pq2 (f : RQ C → RQ C) :
    ka.read (m.wrQ ka.pq2 f) = { ka.read m with pq2 := f (m.q ka.pq2) } := by
  unfold read
  rw [m.q_wrQ_self]
  simp only [poolInv, pool0, pool1, pq0, pq1, pq2, swk1, swk2, swk3, PMem.wrQ]
  rw [m.q_wr_of_ne _ (ka.cell0_ne (by omega) 0 0),
    m.wr_val_of_ne _ (ka.cell_ne (by omega) 0 0), m.wr_val_of_ne _ (ka.cell_ne (by omega) 0 0),
    m.q_wr_of_ne _ (ka.cell_ne (by omega) 0 0), m.q_wr_of_ne _ (ka.cell_ne (by omega) 0 0),
    m.obj_wr_of_ne _ (by dsimp only; omega),
    m.obj_wr_of_ne _ (by dsimp only; omega), m.obj_wr_of_ne _ (by dsimp only; omega)]

theorem read_setObj_of_not {o : ℕ} (h : ¬ ka.Has o) (v : SwKey C) :
    ka.read (m.setObj o v) = ka.read m := by
  have hn : ∀ j < 9, ka.base + j ≠ o := by
    rintro j hj rfl
    exact h ⟨Nat.le_add_right _ _, by omega⟩
  unfold read
  simp only [poolInv, pool0, pool1, pq0, pq1, pq2, swk1, swk2, swk3]
  rw [m.q_setObj_of_ne v (hn 0 (by omega)), m.setObj_val_of_ne v (hn 1 (by omega)),
    m.setObj_val_of_ne v (hn 2 (by omega)), m.q_setObj_of_ne v (hn 3 (by omega)),
    m.q_setObj_of_ne v (hn 4 (by omega)), m.q_setObj_of_ne v (hn 5 (by omega)),
    m.obj_setObj_of_ne v (hn 6 (by omega)), m.obj_setObj_of_ne v (hn 7 (by omega)),
    m.obj_setObj_of_ne v (hn 8 (by omega))]

theorem read_setObj_swk1 (v : SwKey C) :
    ka.read (m.setObj ka.swk1 v) = { ka.read m with swk1 := v } := by
  unfold read
  simp only [poolInv, pool0, pool1, pq0, pq1, pq2, swk1, swk2, swk3, setObj_obj]
  rw [m.q_setObj_of_ne v (by dsimp only; omega), m.setObj_val_of_ne v (by dsimp only; omega),
    m.setObj_val_of_ne v (by dsimp only; omega), m.q_setObj_of_ne v (by dsimp only; omega),
    m.q_setObj_of_ne v (by dsimp only; omega), m.q_setObj_of_ne v (by dsimp only; omega),
    m.obj_setObj_of_ne v (by omega), m.obj_setObj_of_ne v (by omega)]

theorem read_setObj_swk2 (v : SwKey C) :
    ka.read (m.setObj ka.swk2 v) = { ka.read m with swk2 := v } := by
  unfold read
  simp only [poolInv, pool0, pool1, pq0, pq1, pq2, swk1, swk2, swk3, setObj_obj]
  rw [m.q_setObj_of_ne v (by dsimp only; omega), m.setObj_val_of_ne v (by dsimp only; omega),
    m.setObj_val_of_ne v (by dsimp only; omega), m.q_setObj_of_ne v (by dsimp only; omega),
    m.q_setObj_of_ne v (by dsimp only; omega), m.q_setObj_of_ne v (by dsimp only; omega),
    m.obj_setObj_of_ne v (by omega), m.obj_setObj_of_ne v (by omega)]

theorem read_setObj_swk3 (v : SwKey C) :
    ka.read (m.setObj ka.swk3 v) = { ka.read m with swk3 := v } := by
  unfold read
  simp only [poolInv, pool0, pool1, pq0, pq1, pq2, swk1, swk2, swk3, setObj_obj]
  rw [m.q_setObj_of_ne v (by dsimp only; omega), m.setObj_val_of_ne v (by dsimp only; omega),
    m.setObj_val_of_ne v (by dsimp only; omega), m.q_setObj_of_ne v (by dsimp only; omega),
    m.q_setObj_of_ne v (by dsimp only; omega), m.q_setObj_of_ne v (by dsimp only; omega),
    m.obj_setObj_of_ne v (by omega), m.obj_setObj_of_ne v (by omega)]

/-- Objects that `Decompose` and the external products may read: not `PoolInvNTT`, `Pool[0]`,
`Pool[1]`. -/
def Free (o : ℕ) : Prop := o ≠ ka.base ∧ o ≠ ka.base + 1 ∧ o ≠ ka.base + 2

theorem Free.of_not {ka : KSA} {o : ℕ} (h : ¬ ka.Has o) : ka.Free o := by
  unfold Has at h; unfold Free; omega

end KSA

/-! ## Decomposition and external products as equations -/

theorem decomposeSingleM_eq (levelQ k : ℕ) (a out : Ptr) (m : PMem C) :
    decomposeSingleM levelQ k a out m =
      m.wr out (decomposeSingleNTT levelQ C.lp k (m.q a)) := by
  unfold decomposeSingleM PMem.wrQ
  simp only [wr_wr]
  rfl

theorem KSA.toCoeffM_eq (ka : KSA) (levelQ : ℕ) (a : Ptr) (m : PMem C) :
    (ka.toCoeffM levelQ a m).2 =
      m.wrQ ka.poolInv (fun _ => ((ka.read m).toCoeff levelQ (m.q a)).1.poolInv) ∧
    (ka.toCoeffM levelQ a m).2.q (ka.toCoeffM levelQ a m).1 =
      ((ka.read m).toCoeff levelQ (m.q a)).2 ∧
    ((ka.toCoeffM levelQ a m).1 = a ∨ (ka.toCoeffM levelQ a m).1 = ka.poolInv) := by
  unfold KSA.toCoeffM KS.toCoeff
  by_cases h : (m.q a).isNTT = true
  · rw [if_pos h, if_pos h]
    refine ⟨?_, ?_, .inr rfl⟩
    · dsimp only [PMem.wrQ]
      exact m.wr_congr _ rfl
    · exact m.q_wrQ_self _ _
  · rw [if_neg h, if_neg h]
    refine ⟨?_, rfl, .inl rfl⟩
    refine ext' (fun p => ?_) rfl
    unfold PMem.wrQ
    rw [wr_val]
    split
    · rename_i hp; rw [hp]; rfl
    · rfl

theorem KS.toCoeff_fst (ks : KS C) (levelQ : ℕ) (a : RQ C) :
    (ks.toCoeff levelQ a).1 = { ks with poolInv := (ks.toCoeff levelQ a).1.poolInv } := by
  unfold KS.toCoeff
  split <;> rfl

theorem KSA.DecomposeM_eq (ka : KSA) (levelQ : ℕ) {a : Ptr} {ad : ℕ} (m : PMem C)
    (h : a.o ≠ ad) (hI : ad ≠ ka.base) :
    ka.DecomposeM levelQ a ad m =
      (m.wrQ ka.poolInv fun _ => ((ka.read m).Decompose levelQ (m.q a) (m.obj ad)).1.poolInv).setObj
        ad ((ka.read m).Decompose levelQ (m.q a) (m.obj ad)).2 := by
  obtain ⟨h1, h2, h3⟩ := ka.toCoeffM_eq levelQ a m
  unfold KSA.DecomposeM KS.Decompose
  set t := ka.toCoeffM levelQ a m with ht
  obtain ⟨aInv, m1⟩ := t
  dsimp only at h1 h2 h3 ⊢
  have ha : aInv.o ≠ ad := by
    rcases h3 with rfl | rfl
    · exact h
    · exact fun he => hI he.symm
  rw [forLt_obj m1 ad (C.beta levelQ) _ (fun i =>
    decomposeSingleNTT levelQ C.lp i ((ka.read m).toCoeff levelQ (m.q a)).2)]
  · rw [← h1]
    congr 1
    rw [h1, PMem.wrQ, m.obj_wr_of_ne _ (show ka.poolInv.o ≠ ad from fun he => hI he.symm)]
  · intro i v
    rw [decomposeSingleM_eq, m1.q_setObj_of_ne v ha, h2]

theorem KS.Decompose_fst (ks : KS C) (levelQ : ℕ) (a : RQ C) (ad : SwKey C) :
    (ks.Decompose levelQ a ad).1 =
      { ks with poolInv := (ks.Decompose levelQ a ad).1.poolInv } :=
  ks.toCoeff_fst levelQ a

theorem KSA.extFinishM_eq (ka : KSA) (levelQ : ℕ) {c : Ptr} (m : PMem C) (h : c.o ≠ ka.base + 2) :
    ka.extFinishM levelQ c m =
      (m.wr ka.pool1 fun _ => (extFinish levelQ (m.val ka.pool1) (m.q c)).1).wrQ c
        fun _ => (extFinish levelQ (m.val ka.pool1) (m.q c)).2 := by
  unfold KSA.extFinishM
  dsimp only
  have e : ((m.wrQ ka.pool1 fun x => x.invNttLvl C.nttQ levelQ x).wr ka.pool1
      fun x => { x with P := x.P.invNttLvl C.nttP C.lp x.P }) =
      m.wr ka.pool1 fun _ => (extFinish levelQ (m.val ka.pool1) (m.q c)).1 := by
    unfold PMem.wrQ
    rw [wr_wr]
    exact m.wr_congr _ rfl
  rw [e]
  refine wr_congr _ _ ?_
  rw [m.wr_val_self, m.wr_val_of_ne _ (ptr_ne h : c ≠ ka.pool1)]
  rfl

/-- The loop of `ExternalProduct` on memory. -/
theorem KSA.extLoopM_eq (ka : KSA) (levelQ : ℕ) {a : Ptr} {bg : ℕ} (n : ℕ) (m : PMem C)
    (ha : a.o ≠ ka.base + 1 ∧ a.o ≠ ka.base + 2) (hb : ka.Free bg) :
    forLt n (fun i m =>
      let m := decomposeSingleM levelQ i a ka.pool0 m
      if i = 0 then m.op2 (QP.mulMontLvl levelQ C.lp) ⟨bg, i⟩ ka.pool0 ka.pool1
      else m.op2 (QP.mulMontAddLvl levelQ C.lp) ⟨bg, i⟩ ka.pool0 ka.pool1) m =
    let s := forLt n (fun i (s : QP C × QP C) =>
      let c0 := decomposeSingleNTT levelQ C.lp i (m.q a) s.1
      let c1 := if i = 0 then QP.mulMontLvl levelQ C.lp (m.obj bg i) c0 s.2
        else QP.mulMontAddLvl levelQ C.lp (m.obj bg i) c0 s.2
      (c0, c1)) (m.val ka.pool0, m.val ka.pool1)
    (m.wr ka.pool0 fun _ => s.1).wr ka.pool1 fun _ => s.2 := by
  have h01 : ka.pool0 ≠ ka.pool1 := ka.cell_ne (by omega) 0 0
  induction n with
  | zero =>
    refine ext' (fun p => ?_) rfl
    dsimp only [forLt]
    by_cases hp1 : p = ka.pool1
    · rw [hp1, wr_val_self]
    · rw [wr_val_of_ne _ _ hp1]
      by_cases hp0 : p = ka.pool0
      · rw [hp0, wr_val_self]
      · rw [wr_val_of_ne _ _ hp0]
  | succ n ih =>
    simp only [forLt]
    rw [ih]
    dsimp only
    generalize forLt n (fun i (s : QP C × QP C) => _) (m.val ka.pool0, m.val ka.pool1) = s
    obtain ⟨c0, c1⟩ := s
    dsimp only
    have hq : ((m.wr ka.pool0 fun _ => c0).wr ka.pool1 fun _ => c1).q a = m.q a := by
      rw [PMem.q_wr_of_ne _ _ (ptr_ne ha.2), PMem.q_wr_of_ne _ _ (ptr_ne ha.1)]
    have hbg0 : (⟨bg, n⟩ : Ptr) ≠ ka.pool0 := ptr_ne hb.2.1
    have hbg1 : (⟨bg, n⟩ : Ptr) ≠ ka.pool1 := ptr_ne hb.2.2
    rw [decomposeSingleM_eq, hq]
    have e : (((m.wr ka.pool0 fun _ => c0).wr ka.pool1 fun _ => c1).wr ka.pool0
        (decomposeSingleNTT levelQ C.lp n (m.q a))) =
        (m.wr ka.pool0 fun _ => decomposeSingleNTT levelQ C.lp n (m.q a) c0).wr ka.pool1
          fun _ => c1 := by
      refine ext' (fun p => ?_) rfl
      simp only [wr_val]
      by_cases hp0 : p = ka.pool0
      · subst hp0; simp [h01]
      · simp [hp0]
    rw [e]
    by_cases hn : n = 0
    · rw [if_pos hn, if_pos hn]
      unfold PMem.op2
      rw [wr_val_of_ne _ _ hbg1, wr_val_of_ne _ _ hbg0, wr_val_of_ne _ _ h01, wr_val_self,
        wr_wr]
      rfl
    · rw [if_neg hn, if_neg hn]
      unfold PMem.op2
      rw [wr_val_of_ne _ _ hbg1, wr_val_of_ne _ _ hbg0, wr_val_of_ne _ _ h01, wr_val_self,
        wr_wr]
      rfl

theorem KSA.ExternalProductM_eq (ka : KSA) (levelQ : ℕ) {a : Ptr} {bg : ℕ} {c : Ptr} (m : PMem C)
    (ha : ka.Free a.o) (hb : ka.Free bg) (hc : ka.Free c.o) :
    ka.ExternalProductM levelQ a bg c m =
      let r := (ka.read m).ExternalProduct levelQ (m.q a) (m.obj bg) (m.q c)
      (((m.wrQ ka.poolInv fun _ => r.1.poolInv).wr ka.pool0 fun _ => r.1.pool0).wr ka.pool1
        fun _ => r.1.pool1).wrQ c fun _ => r.2 := by
  obtain ⟨h1, h2, h3⟩ := ka.toCoeffM_eq levelQ a m
  unfold KSA.ExternalProductM KS.ExternalProduct
  set t := ka.toCoeffM levelQ a m with ht
  obtain ⟨aInv, m1⟩ := t
  dsimp only at h1 h2 h3 ⊢
  have hai : aInv.o ≠ ka.base + 1 ∧ aInv.o ≠ ka.base + 2 := by
    rcases h3 with rfl | rfl
    · exact ha.2
    · constructor <;> simp [KSA.poolInv]
  rw [ka.extLoopM_eq levelQ _ m1 hai hb, h2]
  have hv0 : m1.val ka.pool0 = (ka.read m).pool0 := by
    rw [h1]; exact m.val_wrQ_of_ne _ (ka.cell0_ne (by omega) 0 0).symm
  have hv1 : m1.val ka.pool1 = (ka.read m).pool1 := by
    rw [h1]; exact m.val_wrQ_of_ne _ (ka.cell0_ne (by omega) 0 0).symm
  have hbg : m1.obj bg = m.obj bg := by
    rw [h1, PMem.wrQ, m.obj_wr_of_ne _ (show ka.poolInv.o ≠ bg from fun he => hb.1 he.symm)]
  have e0 : ((ka.read m).toCoeff levelQ (m.q a)).1.pool0 = (ka.read m).pool0 := by
    rw [KS.toCoeff_fst]
  have e1 : ((ka.read m).toCoeff levelQ (m.q a)).1.pool1 = (ka.read m).pool1 := by
    rw [KS.toCoeff_fst]
  rw [hv0, hv1, hbg, e0, e1]
  generalize forLt (C.beta levelQ) (fun i (s : QP C × QP C) => _)
    ((ka.read m).pool0, (ka.read m).pool1) = s
  obtain ⟨c0, c1⟩ := s
  dsimp only
  have hqc : ((m1.wr ka.pool0 fun _ => c0).wr ka.pool1 fun _ => c1).q c = m.q c := by
    rw [PMem.q_wr_of_ne _ _ (ptr_ne hc.2.2), PMem.q_wr_of_ne _ _ (ptr_ne hc.2.1), h1,
      PMem.q_wrQ_of_ne _ _ (ptr_ne hc.1)]
  rw [ka.extFinishM_eq levelQ _ hc.2.2, hqc, wr_val_self, wr_wr, h1]

theorem KS.ExternalProduct_fst (ks : KS C) (levelQ : ℕ) (a : RQ C) (bg : SwKey C) (c : RQ C) :
    (ks.ExternalProduct levelQ a bg c).1 =
      { ks with
        poolInv := (ks.ExternalProduct levelQ a bg c).1.poolInv
        pool0 := (ks.ExternalProduct levelQ a bg c).1.pool0
        pool1 := (ks.ExternalProduct levelQ a bg c).1.pool1 } := by
  unfold KS.ExternalProduct
  dsimp only
  rw [KS.toCoeff_fst]

theorem KSA.ExternalProductHoistedM_eq (ka : KSA) (levelQ : ℕ) {h bg : ℕ} {c : Ptr} (m : PMem C)
    (hh : ka.Free h) (hb : ka.Free bg) (hc : ka.Free c.o) :
    ka.ExternalProductHoistedM levelQ h bg c m =
      let r := (ka.read m).ExternalProductHoisted levelQ (m.obj h) (m.obj bg) (m.q c)
      (m.wr ka.pool1 fun _ => r.1.pool1).wrQ c fun _ => r.2 := by
  unfold KSA.ExternalProductHoistedM KS.ExternalProductHoisted
  have key : ∀ n, forLt n (fun i (m : PMem C) =>
      if i = 0 then m.op2 (QP.mulMontLvl levelQ C.lp) ⟨bg, i⟩ ⟨h, i⟩ ka.pool1
      else m.op2 (QP.mulMontAddLvl levelQ C.lp) ⟨bg, i⟩ ⟨h, i⟩ ka.pool1) m =
      m.wr ka.pool1 fun _ => forLt n (fun i (c1 : QP C) =>
        if i = 0 then QP.mulMontLvl levelQ C.lp (m.obj bg i) (m.obj h i) c1
        else QP.mulMontAddLvl levelQ C.lp (m.obj bg i) (m.obj h i) c1) (m.val ka.pool1) := by
    intro n
    induction n with
    | zero =>
      refine ext' (fun p => ?_) rfl
      dsimp only [forLt]
      rw [wr_val]
      split
      · rename_i hp; rw [hp]
      · rfl
    | succ n ih =>
      simp only [forLt]
      rw [ih]
      have hbg1 : (⟨bg, n⟩ : Ptr) ≠ ka.pool1 := ptr_ne hb.2.2
      have hh1 : (⟨h, n⟩ : Ptr) ≠ ka.pool1 := ptr_ne hh.2.2
      by_cases hn : n = 0
      · rw [if_pos hn, if_pos hn]
        unfold PMem.op2
        rw [wr_val_of_ne _ _ hbg1, wr_val_of_ne _ _ hh1, wr_wr]
        rfl
      · rw [if_neg hn, if_neg hn]
        unfold PMem.op2
        rw [wr_val_of_ne _ _ hbg1, wr_val_of_ne _ _ hh1, wr_wr]
        rfl
  dsimp only
  rw [key, ka.extFinishM_eq levelQ _ hc.2.2, wr_val_self, PMem.q_wr_of_ne _ _ (ptr_ne hc.2.2),
    wr_wr]
  rfl

theorem mulAccM_eq (level : ℕ) {d h x : ℕ} (m : PMem C) (hd : d ≠ x) (hh : h ≠ x) :
    mulAccM level d h x m = m.setObj x (mulAcc level (m.obj d) (m.obj h) (m.obj x)) := by
  unfold mulAccM mulAcc
  rw [forLt_obj m x (C.beta level) _ fun i =>
    QP.mulMontAddLvl level C.lp (m.obj d i) (m.obj h i)]
  intro i v
  unfold PMem.op2
  rw [m.setObj_val_of_ne v (p := ⟨d, i⟩) hd, m.setObj_val_of_ne v (p := ⟨h, i⟩) hh]
  rfl

theorem mformAllM_eq (level : ℕ) (x : ℕ) (m : PMem C) :
    mformAllM level x m = m.setObj x (mformAll level (m.obj x)) := by
  unfold mformAllM mformAll
  rw [forLt_obj m x (C.beta level) _ fun i v => QP.mformLvl level C.lp v v]
  intro i v
  rw [op1_self]

theorem zeroAllM_eq (level : ℕ) (x : ℕ) (m : PMem C) :
    zeroAllM level x m = m.setObj x (zeroAll level (m.obj x)) := by
  unfold zeroAllM zeroAll
  rw [forLt_obj m x (C.beta level) _ fun i v => ⟨v.Q.zero, v.P.zero⟩]
  intro i v
  rfl

end MK
