import Verif.KeyMem
import Verif.Props.KeyGen

/-!
# C69: key generation on memory
-/

noncomputable section

namespace MK

open PMem

variable {C : Ctx}

theorem keeps_setObj_new {kg : KG} {m m' : PMem C} {o : ℕ} (v : SwKey C) (h : kg.Keeps m m')
    (ho : m.next ≤ o) : kg.Keeps m (m'.setObj o v) := h.setObj v (.inl ho)

theorem ptr_ne_of_lt {p : Ptr} {o k : ℕ} (h : p.o < o) : p ≠ ⟨o, k⟩ := by
  rintro rfl
  exact lt_irrefl _ h

theorem fresh_fresh_val {m : PMem C} {p : Ptr} (h : p.o < m.next) :
    m.fresh.fresh.val p = m.val p := by
  rw [fresh_val_of_ne _ (by rw [fresh_next]; omega), fresh_val_of_ne _ h.ne]

theorem deref_of_none {V : Type} {g : GoMap ℤ V} {i : ℤ} (h : g.get? i = none) :
    g.deref i = .error .nilDeref := by rw [GoMap.deref, h]

theorem readCRS_keeps {kg : KG} {m m' : PMem C} (hw : kg.WF m) (h : kg.Keeps m m') :
    readCRS kg.crs m' = readCRS kg.crs m := by
  unfold readCRS GoMap.mapVals
  congr 1
  exact List.map_congr_left fun e he => by dsimp only; rw [h.obj (hw.crs e he)]

theorem _root_.MK.PMem.New.append {m m1 m2 : PMem C} {l l' : List ℕ} (h : m.New m1 l)
    (h' : m1.New m2 l') (hm : m.next ≤ m1.next) (hm' : m1.next ≤ m2.next) :
    m.New m2 (l ++ l') := by
  refine ⟨List.nodup_append.mpr ⟨h.1, h'.1, fun a ha b hb hab => ?_⟩, fun o ho => ?_⟩
  · have := h.2 _ ha
    have := h'.2 _ hb
    omega
  · rcases List.mem_append.mp ho with ho | ho
    · have := h.2 _ ho
      omega
    · have := h'.2 _ ho
      omega

/-- **C69 (secret keys).** -/
theorem C69_secret_key (kg : KG) (s : Nega C.N ℤ) (id : String) (m : PMem C) :
    kg.Impl m (.ok (GenSecretKey s id)) (.ok (GenSecretKeyM s id m)) SkA.read SkA.objs := by
  refine ⟨⟨id, ⟨m.next, 0⟩⟩, (GenSecretKeyM s id m).2, rfl, ?_, ?_, ?_⟩
  · unfold GenSecretKeyM SkA.read
    simp only [op1_self, wr_wr, wr_val_self]
    rw [m.fresh_val_next rfl]
    rfl
  · unfold GenSecretKeyM
    simp only [op1_self, wr_wr]
    rw [wr_eq_setObj]
    exact keeps_setObj_new _ (.fresh kg m) le_rfl
  · refine ⟨by simp [SkA.objs], fun o ho => ?_⟩
    obtain rfl : o = m.next := by simpa [SkA.objs] using ho
    exact ⟨le_rfl, Nat.lt_succ_self _⟩

/-- **C69 (public keys).** -/
theorem C69_public_key {kg : KG} {m : PMem C} (hw : kg.WF m) (e : Nega C.N ℤ) {sk : SkA}
    (hsk : kg.Owns m sk.value.o) :
    kg.Impl m (GenPublicKey (readCRS kg.crs m) e (sk.read m)) (GenPublicKeyM kg e sk m)
      PkA.read PkA.objs := by
  unfold GenPublicKey GenPublicKeyM
  cases ha : kg.crs.get? 0 with
  | none =>
    rw [GoMap.deref, GoMap.deref, readCRS_get?, ha]
    rfl
  | some a =>
    rw [GoMap.deref_of_get? ha,
      GoMap.deref_of_get? (show (readCRS kg.crs m).get? 0 = some (m.obj a) by
        rw [readCRS_get?, ha]; rfl)]
    have hao := hw.owns ha
    have h1 : (⟨a, 0⟩ : Ptr) ≠ ⟨m.next, 0⟩ := ptr_ne_of_lt hao.1
    have h2 : (⟨a, 0⟩ : Ptr) ≠ ⟨m.next + 1, 0⟩ := ptr_ne_of_lt (Nat.lt_succ_of_lt hao.1)
    have h3 : sk.value ≠ ⟨m.next, 0⟩ := ptr_ne_of_lt hsk.1
    have h4 : sk.value ≠ ⟨m.next + 1, 0⟩ := ptr_ne_of_lt (by have := hsk.1; omega)
    have h5 : (⟨m.next + 1, 0⟩ : Ptr) ≠ ⟨m.next, 0⟩ := by simp
    have ea : m.fresh.fresh.val ⟨a, 0⟩ = m.val ⟨a, 0⟩ := fresh_fresh_val hao.1
    have es : m.fresh.fresh.val sk.value = m.val sk.value := fresh_fresh_val hsk.1
    have e0 : m.fresh.fresh.val ⟨m.next, 0⟩ = QP.new := by
      rw [fresh_val_of_ne _ (by simp), fresh_val_next _ rfl]
    have e1 : m.fresh.fresh.val ⟨m.next + 1, 0⟩ = QP.new := fresh_val_next _ rfl
    refine ⟨_, _, rfl, ?_, ?_, ?_⟩
    · unfold PkA.read
      simp only [op1, op2, wr_val, fresh_next, h1, h2, h3, h4, h5, h5.symm, if_true, if_false,
        ea, es, e0, e1]
      rfl
    · simp only [op1, op2, fresh_next]
      repeat rw [wr_eq_setObj]
      repeat refine KG.Keeps.setObj _ ?_ (.inl (by omega))
      exact (KG.Keeps.fresh kg m).trans (.fresh kg _)
    · refine ⟨by simp [PkA.objs], fun o ho => ?_⟩
      have : o = m.next ∨ o = m.next + 1 := by simpa [PkA.objs] using ho
      simp only [op1, op2, wr_next, fresh_next]
      omega

/-- **C69 (key pairs).** -/
theorem C69_key_pair {kg : KG} {m : PMem C} (hw : kg.WF m) (s e : Nega C.N ℤ) (id : String) :
    kg.Impl m (GenKeyPair (readCRS kg.crs m) s e id) (GenKeyPairM kg s e id m)
      (fun k m => (k.1.read m, k.2.read m)) (fun k => k.1.objs ++ k.2.objs) := by
  obtain ⟨sk, m1, h, hr, hk, hn⟩ := C69_secret_key kg s id m
  have hsk : kg.Owns m1 sk.value.o := ⟨(hn.2 _ (by simp [SkA.objs])).2, ?_, ?_⟩
  · have hp := C69_public_key (hw.mono hk.1) e hsk
    rw [readCRS_keeps hw hk, hr] at hp
    unfold GenKeyPair GenKeyPairM
    injection h with h
    rw [h]
    dsimp only
    cases hx : GenPublicKey (readCRS kg.crs m) e (GenSecretKey s id) with
    | error p =>
      rw [hx] at hp
      have hp : GenPublicKeyM kg e sk m1 = .error p := hp
      rw [hp]
      rfl
    | ok k =>
      rw [hx] at hp
      obtain ⟨pk, m2, h2, hr2, hk2, hn2⟩ := hp
      rw [h2]
      refine ⟨(sk, pk), m2, rfl, ?_, hk.trans hk2, ?_⟩
      · dsimp only
        rw [hr2, ← hr]
        congr 1
        unfold SkA.read
        rw [hk2.2 _ hsk]
      · exact hn.append hn2 hk.1 hk2.1
  · intro h
    have := (hn.2 _ (show sk.value.o ∈ sk.objs by simp [SkA.objs])).1
    have := hw.poolQ
    omega
  · intro h
    have := (hn.2 _ (show sk.value.o ∈ sk.objs by simp [SkA.objs])).1
    have := hw.poolQP
    omega

theorem setObj_obj_of_ne (m : PMem C) {o o' : ℕ} (v : SwKey C) (h : o' ≠ o) :
    (m.setObj o v).obj o' = m.obj o' := funext fun _ => m.setObj_val_of_ne v h

theorem fresh_obj_of_ne (m : PMem C) {o : ℕ} (h : o ≠ m.next) : m.fresh.obj o = m.obj o :=
  funext fun _ => m.fresh_val_of_ne h

theorem setObj_setObj_wr (m : PMem C) {o t : ℕ} (v w : SwKey C) (k : ℕ) (f : QP C → QP C)
    (h : t ≠ o) : ((m.setObj o v).setObj t w).wr ⟨o, k⟩ f =
      (m.setObj o (Function.update v k (f (v k)))).setObj t w := by
  refine PMem.ext' (fun p => ?_) rfl
  by_cases hp : p = ⟨o, k⟩
  · subst hp
    rw [wr_val_self, setObj_val_of_ne _ _ (show (⟨o, k⟩ : Ptr).o ≠ t from Ne.symm h),
      setObj_val_of_ne _ _ (show (⟨o, k⟩ : Ptr).o ≠ t from Ne.symm h),
      setObj_val, setObj_val, Function.update_self]
  · rw [wr_val_of_ne _ _ hp]
    by_cases ht : p.o = t
    · obtain ⟨a, b⟩ := p
      obtain rfl : a = t := ht
      rw [setObj_val, setObj_val]
    · rw [setObj_val_of_ne _ _ ht, setObj_val_of_ne _ _ ht]
      by_cases ho : p.o = o
      · obtain ⟨a, b⟩ := p
        obtain rfl : a = o := ho
        rw [setObj_val, setObj_val, Function.update_of_ne (fun hb => hp (by rw [hb]))]
      · rw [setObj_val_of_ne _ _ ho, setObj_val_of_ne _ _ ho]

/-- The loops `for i { op(a.Value[i], s, out.Value[i]) }`. -/
theorem op2_loop (m : PMem C) (n : ℕ) (f : QP C → QP C → QP C → QP C) {a o : ℕ} {s : Ptr}
    (ha : a ≠ o) (hs : s.o ≠ o) :
    forLt n (fun i m => m.op2 f ⟨a, i⟩ s ⟨o, i⟩) m = m.setObj o
      (forLt n (fun i x => Function.update x i (f (m.obj a i) (m.val s) (x i))) (m.obj o)) := by
  refine m.forLt_obj o n _ (fun i => f (m.obj a i) (m.val s)) fun i v => ?_
  unfold op2
  rw [setObj_val_of_ne _ _ (show (⟨a, i⟩ : Ptr).o ≠ o from ha), setObj_val_of_ne _ _ hs]
  rfl

/-- The loop for `b` (mkrlwe/keygen.go 163-169). -/
theorem b_loop (m : PMem C) (n : ℕ) (e : ℕ → Nega C.N ℤ) {a o : ℕ} {sk : SkA} {tmp : Ptr}
    (ha : a ≠ o) (hat : a ≠ tmp.o) (hs : sk.value.o ≠ o) (hst : sk.value.o ≠ tmp.o)
    (ht : tmp.o ≠ o) : ∃ w,
    forLt n (fun i m =>
      let m := m.op2 (QP.mulMontLvl C.lq C.lp) ⟨a, i⟩ sk.value ⟨o, i⟩
      let m := m.op1 (QP.invMformLvl C.lq C.lp) ⟨o, i⟩ ⟨o, i⟩
      let m := GenGaussianErrorM (e i) tmp m
      let m := m.op2 (QP.subLvl C.lq C.lp) tmp ⟨o, i⟩ ⟨o, i⟩
      m.op1 (QP.mformLvl C.lq C.lp) ⟨o, i⟩ ⟨o, i⟩) m =
    (m.setObj o (forLt n (fun i s => Function.update s i (bEntry (m.obj a) (sk.read m) e i (s i)))
      (m.obj o))).setObj tmp.o w := by
  refine forLt_obj_tmp m n _ _ fun i v w => ?_
  obtain ⟨t, k⟩ := tmp
  refine ⟨Function.update w k (GenGaussianError (e i) (w k)), ?_⟩
  dsimp only at *
  simp only [op2, op1_self, GenGaussianErrorM_eq, setObj_setObj_wr _ _ _ _ _ ht, setObj_wr,
    Function.update_self, Function.update_idem]
  rw [setObj_val_of_ne _ _ (show (⟨a, i⟩ : Ptr).o ≠ t from hat),
    setObj_val_of_ne _ _ (show (⟨a, i⟩ : Ptr).o ≠ o from ha),
    setObj_val_of_ne _ _ hst, setObj_val_of_ne _ _ hs, setObj_val,
    setObj_val_of_ne _ _ (show (⟨o, i⟩ : Ptr).o ≠ t from Ne.symm ht), setObj_val,
    Function.update_self, Function.update_self, subLvl_pool (e i) _ QP.new]
  rfl

/-- **C69 (relinearisation keys).** -/
theorem C69_relin_key {kg : KG} {m : PMem C} (hw : kg.WF m) (eb ed ev : ℕ → Nega C.N ℤ)
    {sk r : SkA} (hsk : kg.Owns m sk.value.o) (hr : kg.Owns m r.value.o) (poolQ : RQ C)
    (poolQP : QP C) :
    kg.Impl m
      (GenRelinearizationKey (readCRS kg.crs m) poolQ poolQP eb ed ev (sk.read m) (r.read m))
      (GenRelinearizationKeyM kg eb ed ev sk r m) RlkA.read RlkA.objs := by
  unfold GenRelinearizationKey GenRelinearizationKeyM
  by_cases hP : C.nP = 0
  · rw [if_pos hP, if_pos hP]; rfl
  rw [if_neg hP, if_neg hP]
  cases ha : kg.crs.get? 0 with
  | none =>
    rw [deref_of_none ha, deref_of_none (show (readCRS kg.crs m).get? 0 = none by
      rw [readCRS_get?, ha]; rfl)]
    rfl
  | some a =>
  cases hu : kg.crs.get? (-1) with
  | none =>
    rw [GoMap.deref_of_get? ha,
      GoMap.deref_of_get? (show (readCRS kg.crs m).get? 0 = some (m.obj a) by
        rw [readCRS_get?, ha]; rfl), deref_of_none hu,
      deref_of_none (show (readCRS kg.crs m).get? (-1) = none by rw [readCRS_get?, hu]; rfl)]
    rfl
  | some u =>
  rw [GoMap.deref_of_get? ha, GoMap.deref_of_get? hu,
    GoMap.deref_of_get? (show (readCRS kg.crs m).get? 0 = some (m.obj a) by
      rw [readCRS_get?, ha]; rfl),
    GoMap.deref_of_get? (show (readCRS kg.crs m).get? (-1) = some (m.obj u) by
      rw [readCRS_get?, hu]; rfl)]
  have hao := hw.owns ha
  have huo := hw.owns hu
  have hp := hw.poolQ
  have hp' := hw.poolQP
  have ha1 := hao.1
  have hu1 := huo.1
  have hs1 := hsk.1
  have hr1 := hr.1
  -- the three new objects
  set m3 := m.fresh.fresh.fresh with hm3
  have k3 : kg.Keeps m m3 := ((KG.Keeps.fresh kg m).trans (.fresh kg _)).trans (.fresh kg _)
  -- b
  obtain ⟨w, hb⟩ := b_loop m3 C.betaMax eb (a := a) (o := m.next) (sk := sk) (tmp := kg.poolQP)
    (by omega) hao.2.2 (by omega) hsk.2.2 (by omega)
  have eb3 : m3.obj m.next = SwKey.new := by
    rw [hm3, fresh_obj_of_ne _ (by simp only [fresh_next]; omega),
      fresh_obj_of_ne _ (by simp only [fresh_next]; omega), fresh_obj]
  have ed3 : m3.obj (m.next + 1) = SwKey.new := by
    rw [hm3, fresh_obj_of_ne _ (by simp only [fresh_next]; omega)]
    exact fresh_obj m.fresh
  have ev3 : m3.obj (m.next + 2) = SwKey.new := fresh_obj m.fresh.fresh
  have es3 : sk.read m3 = sk.read m := by unfold SkA.read; rw [k3.2 _ hsk]
  rw [k3.obj hao, es3, eb3, ← genB_pool (m.obj a) (sk.read m) eb C.betaMax poolQP] at hb
  set B := (forLt C.betaMax (genBStep (m.obj a) (sk.read m) eb) (poolQP, SwKey.new)).2
  set m4 := (m3.setObj m.next B).setObj kg.poolQP.o w with hm4
  have k4 : kg.Keeps m m4 := (k3.setObj _ (.inl le_rfl)).setObj _ (.inr (.inr rfl))
  -- d
  obtain ⟨w1, hd⟩ := GenSwitchingKeyM_obj kg ed sk (swk := m.next + 1) (by omega) m4 poolQ
  have es4 : sk.read m4 = sk.read m := by unfold SkA.read; rw [k4.2 _ hsk]
  have ed4 : m4.obj (m.next + 1) = SwKey.new := by
    rw [hm4, setObj_obj_of_ne _ _ (by omega), setObj_obj_of_ne _ _ (by omega), ed3]
  rw [es4, ed4] at hd
  set D := (GenSwitchingKey poolQ ed (sk.read m) SwKey.new).2
  set m5 := (m4.setObj kg.poolQ.o w1).setObj (m.next + 1) D with hm5
  have k5 : kg.Keeps m m5 := (k4.setObj _ (.inr (.inl rfl))).setObj _ (.inl (by omega))
  have hd2 := op2_loop m5 C.betaMax (QP.mulMontSubLvl C.lq C.lp) (a := a) (o := m.next + 1)
    (s := r.value) (by omega) (by omega)
  rw [k5.obj hao, k5.2 _ hr, show m5.obj (m.next + 1) = D by rw [hm5, setObj_obj]] at hd2
  set D2 := forLt C.betaMax (fun i x => Function.update x i
    (QP.mulMontSubLvl C.lq C.lp (m.obj a i) (m.val r.value) (x i))) D
  set m6 := m5.setObj (m.next + 1) D2 with hm6
  have k6 : kg.Keeps m m6 := k5.setObj _ (.inl (by omega))
  -- v
  obtain ⟨w2, hv⟩ := GenSwitchingKeyM_obj kg ev r (swk := m.next + 2) (by omega) m6
    (GenSwitchingKey poolQ ed (sk.read m) SwKey.new).1
  have er6 : r.read m6 = r.read m := by unfold SkA.read; rw [k6.2 _ hr]
  have ev6 : m6.obj (m.next + 2) = SwKey.new := by
    rw [hm6, setObj_obj_of_ne _ _ (by omega), hm5, setObj_obj_of_ne _ _ (by omega),
      setObj_obj_of_ne _ _ (by omega), hm4, setObj_obj_of_ne _ _ (by omega),
      setObj_obj_of_ne _ _ (by omega), ev3]
  rw [er6, ev6] at hv
  set V := (GenSwitchingKey (GenSwitchingKey poolQ ed (sk.read m) SwKey.new).1 ev (r.read m)
    SwKey.new).2
  set m7 := (m6.setObj kg.poolQ.o w2).setObj (m.next + 2) V with hm7
  have k7 : kg.Keeps m m7 := (k6.setObj _ (.inr (.inl rfl))).setObj _ (.inl (by omega))
  have hv2 := m7.forLt_obj (m.next + 2) C.betaMax (fun i mm =>
      let mm := mm.op2 (QP.mulMontAddLvl C.lq C.lp) ⟨u, i⟩ sk.value ⟨m.next + 2, i⟩
      let mm := mm.op1 (fun a x => { x with Q := RPoly.negLvl C.lq a.Q x.Q }) ⟨m.next + 2, i⟩ ⟨m.next + 2, i⟩
      mm.op1 (fun a x => { x with P := RPoly.negLvl C.lp a.P x.P }) ⟨m.next + 2, i⟩ ⟨m.next + 2, i⟩)
    (fun i x =>
      let vi := QP.mulMontAddLvl C.lq C.lp (m.obj u i) (m.val sk.value) x
      ⟨RPoly.negLvl C.lq vi.Q vi.Q, RPoly.negLvl C.lp vi.P vi.P⟩) (by
    intro i x
    dsimp only
    rw [op1_self, op1_self, op2, wr_wr, wr_wr,
      m7.setObj_val_of_ne x (show (⟨u, i⟩ : Ptr).o ≠ _ by dsimp only; omega),
      m7.setObj_val_of_ne x (show sk.value.o ≠ _ by omega), k7.2 _ hsk, k7.2 ⟨u, i⟩ huo]
    rfl)
  rw [show m7.obj (m.next + 2) = V by rw [hm7, setObj_obj]] at hv2
  set V2 := forLt C.betaMax (fun i s => Function.update s i
    (let vi := QP.mulMontAddLvl C.lq C.lp (m.obj u i) (m.val sk.value) (s i)
     (⟨RPoly.negLvl C.lq vi.Q vi.Q, RPoly.negLvl C.lp vi.P vi.P⟩ : QP C))) V
  refine ⟨⟨sk.id, m.next, m.next + 1, m.next + 2⟩, m7.setObj (m.next + 2) V2, ?_, ?_, ?_, ?_⟩
  · refine congrArg Except.ok (congrArg (Prod.mk _) ?_)
    show forLt _ _ (GenSwitchingKeyM kg ev r (m.next + 2) (forLt _ _
        (GenSwitchingKeyM kg ed sk (m.next + 1) (forLt _ _ m3)))) = _
    have hd2' : forLt C.betaMax (fun i mm => mm.op2 (QP.mulMontSubLvl C.lq C.lp) ⟨a, i⟩ r.value
        ⟨m.fresh.next, i⟩) m5 = m6 := hd2
    rw [hb, hd, hd2', hv]
    exact hv2
  · unfold RlkA.read
    dsimp only
    have e1 : (m7.setObj (m.next + 2) V2).obj m.next = B := by
      rw [setObj_obj_of_ne _ _ (by omega), hm7, setObj_obj_of_ne _ _ (by omega),
        setObj_obj_of_ne _ _ (by omega), hm6, setObj_obj_of_ne _ _ (by omega), hm5,
        setObj_obj_of_ne _ _ (by omega), setObj_obj_of_ne _ _ (by omega), hm4,
        setObj_obj_of_ne _ _ (by omega), setObj_obj]
    have e2 : (m7.setObj (m.next + 2) V2).obj (m.next + 1) = D2 := by
      rw [setObj_obj_of_ne _ _ (by omega), hm7, setObj_obj_of_ne _ _ (by omega),
        setObj_obj_of_ne _ _ (by omega), hm6, setObj_obj]
    rw [e1, e2, setObj_obj]
    rfl
  · exact k7.setObj _ (.inl (by omega))
  · refine ⟨by simp [RlkA.objs], fun o ho => ?_⟩
    have : o = m.next ∨ o = m.next + 1 ∨ o = m.next + 2 := by simpa [RlkA.objs] using ho
    simp only [hm7, hm6, hm5, hm4, hm3, setObj_next, fresh_next]
    omega

/-- The permuted secret key (mkrlwe/keygen.go 214-217, 252-255) in a new object. -/
theorem permuteM_fresh (g : ℕ) {a : Ptr} (m : PMem C) (ha : a.o < m.next) :
    permuteM g a ⟨m.next, 0⟩ m.fresh =
      m.fresh.setObj m.next (Function.update SwKey.new 0 (permuteKey g (m.val a))) := by
  have h : a ≠ ⟨m.next, 0⟩ := ptr_ne_of_lt ha
  unfold permuteM
  dsimp only
  rw [op1, op1, wr_val_of_ne _ _ h, wr_wr, wr_eq_setObj, fresh_obj,
    m.fresh_val_next (p := ⟨m.next, 0⟩) rfl, fresh_val_of_ne _ ha.ne]
  rfl

/-- **C69 (rotation keys).** -/
theorem C69_rotation_key {kg : KG} {m : PMem C} (hw : kg.WF m) (e : ℕ → Nega C.N ℤ) (rot : ℤ)
    {sk : SkA} (hsk : kg.Owns m sk.value.o) (poolQ : RQ C) :
    kg.Impl m (GenRotationKey (readCRS kg.crs m) poolQ e rot (sk.read m))
      (GenRotationKeyM kg e rot sk m) RotA.read RotA.objs := by
  unfold GenRotationKey GenRotationKeyM
  have hhas : (readCRS kg.crs m).has rot = kg.crs.has rot := by
    unfold GoMap.has
    rw [readCRS_get?, Option.isSome_map]
  rw [hhas]
  by_cases hin : kg.crs.has rot = true
  swap
  · rw [Bool.not_eq_true] at hin
    rw [hin]
    rfl
  rw [hin]
  simp only [Bool.not_true, Bool.false_eq_true, if_false]
  cases ha : kg.crs.get? (normRot (C.N / 2) rot) with
  | none =>
    rw [deref_of_none ha, deref_of_none (show (readCRS kg.crs m).get? _ = none by
      rw [readCRS_get?, ha]; rfl)]
    rfl
  | some a =>
  rw [GoMap.deref_of_get? ha,
    GoMap.deref_of_get? (show (readCRS kg.crs m).get? _ = some (m.obj a) by
      rw [readCRS_get?, ha]; rfl)]
  have hao := hw.owns ha
  have hp := hw.poolQ
  have ha1 := hao.1
  have hs1 := hsk.1
  generalize hg : galInv C.N (galCol C.N (normRot (C.N / 2) rot).toNat) = g
  have k1 := KG.Keeps.fresh kg m
  have h1 := permuteM_fresh g m hs1
  set m1 := m.fresh.setObj m.next (Function.update SwKey.new 0 (permuteKey g (m.val sk.value)))
    with hm1
  have k2 : kg.Keeps m m1.fresh := (k1.setObj _ (.inl le_rfl)).trans (.fresh kg _)
  obtain ⟨w, h2⟩ := GenSwitchingKeyM_obj kg e sk (swk := m.next + 1) (by omega) m1.fresh poolQ
  rw [show sk.read m1.fresh = sk.read m by unfold SkA.read; rw [k2.2 _ hsk],
    show m1.fresh.obj (m.next + 1) = SwKey.new from fresh_obj m1] at h2
  set m2 := (m1.fresh.setObj kg.poolQ.o w).setObj (m.next + 1)
    (GenSwitchingKey poolQ e (sk.read m) SwKey.new).2 with hm2
  have k3 : kg.Keeps m m2 := (k2.setObj _ (.inr (.inl rfl))).setObj _ (.inl (by omega))
  have hout : m2.val ⟨m.next, 0⟩ = permuteKey g (m.val sk.value) := by
    rw [hm2, setObj_val_of_ne _ _ (by simp), setObj_val_of_ne _ _ (by dsimp only; omega),
      fresh_val_of_ne _ (by rw [hm1, setObj_next, fresh_next]; simp), hm1, setObj_val,
      Function.update_self]
  have h3 := op2_loop m2 C.betaMax (QP.mulMontSubLvl C.lq C.lp) (a := a) (o := m.next + 1)
    (s := ⟨m.next, 0⟩) (by omega) (by simp)
  rw [k3.obj hao, hout, show m2.obj (m.next + 1) = _ from setObj_obj _ _ _] at h3
  refine ⟨⟨sk.id, (normRot (C.N / 2) rot).toNat, m.next + 1⟩, m2.setObj (m.next + 1) (forLt C.betaMax (fun i x => Function.update x i
      (QP.mulMontSubLvl C.lq C.lp (m.obj a i) (permuteKey g (m.val sk.value)) (x i)))
      (GenSwitchingKey poolQ e (sk.read m) SwKey.new).2), ?_, ?_,
    k3.setObj _ (.inl (Nat.le_succ _)), ?_⟩
  · refine congrArg Except.ok (congrArg (Prod.mk _) ?_)
    show forLt _ _ (GenSwitchingKeyM kg e sk _ (PMem.fresh (permuteM g sk.value ⟨m.next, 0⟩
      m.fresh))) = _
    rw [h1]
    exact (congrArg (forLt _ _) h2).trans h3
  · unfold RotA.read
    dsimp only
    rw [setObj_obj]
    rfl
  · refine ⟨by simp [RotA.objs], fun o ho => ?_⟩
    have : o = m.next + 1 := by simpa [RotA.objs] using ho
    simp only [hm2, hm1, setObj_next, fresh_next]
    omega

/-- **C69 (conjugation keys).** -/
theorem C69_conjugation_key {kg : KG} {m : PMem C} (hw : kg.WF m) (e : ℕ → Nega C.N ℤ)
    {sk : SkA} (hsk : kg.Owns m sk.value.o) (poolQ : RQ C) :
    kg.Impl m (GenConjugationKey (readCRS kg.crs m) poolQ e (sk.read m))
      (GenConjugationKeyM kg e sk m) CjA.read CjA.objs := by
  unfold GenConjugationKey GenConjugationKeyM
  cases ha : kg.crs.get? (-2) with
  | none =>
    rw [deref_of_none ha, deref_of_none (show (readCRS kg.crs m).get? _ = none by
      rw [readCRS_get?, ha]; rfl)]
    rfl
  | some a =>
  rw [GoMap.deref_of_get? ha,
    GoMap.deref_of_get? (show (readCRS kg.crs m).get? _ = some (m.obj a) by
      rw [readCRS_get?, ha]; rfl)]
  have hao := hw.owns ha
  have hp := hw.poolQ
  have ha1 := hao.1
  have hs1 := hsk.1
  generalize hg : galRow C.N = g
  have k1 := KG.Keeps.fresh kg m
  have h1 := permuteM_fresh g m hs1
  set m1 := m.fresh.setObj m.next (Function.update SwKey.new 0 (permuteKey g (m.val sk.value)))
    with hm1
  have k2 : kg.Keeps m m1.fresh := (k1.setObj _ (.inl le_rfl)).trans (.fresh kg _)
  obtain ⟨w, h2⟩ := GenSwitchingKeyM_obj kg e ⟨sk.id, ⟨m.next, 0⟩⟩ (swk := m.next + 1) (by omega)
    m1.fresh poolQ
  rw [show SkA.read ⟨sk.id, ⟨m.next, 0⟩⟩ m1.fresh =
      ⟨sk.id, permuteKey g (m.val sk.value)⟩ by
    unfold SkA.read
    rw [fresh_val_of_ne _ (by rw [hm1, setObj_next, fresh_next]; simp), hm1, setObj_val,
      Function.update_self],
    show m1.fresh.obj (m.next + 1) = SwKey.new from fresh_obj m1] at h2
  set m2 := (m1.fresh.setObj kg.poolQ.o w).setObj (m.next + 1)
    (GenSwitchingKey poolQ e ⟨sk.id, permuteKey g (m.val sk.value)⟩ SwKey.new).2 with hm2
  have k3 : kg.Keeps m m2 := (k2.setObj _ (.inr (.inl rfl))).setObj _ (.inl (by omega))
  have h3 := op2_loop m2 C.betaMax (QP.mulMontSubLvl C.lq C.lp) (a := a) (o := m.next + 1)
    (s := sk.value) (by omega) (by omega)
  rw [k3.obj hao, k3.2 _ hsk, show m2.obj (m.next + 1) = _ from setObj_obj _ _ _] at h3
  refine ⟨⟨sk.id, m.next + 1⟩, m2.setObj (m.next + 1) (forLt C.betaMax (fun i x => Function.update x i
      (QP.mulMontSubLvl C.lq C.lp (m.obj a i) (m.val sk.value) (x i)))
      (GenSwitchingKey poolQ e ⟨sk.id, permuteKey g (m.val sk.value)⟩ SwKey.new).2), ?_, ?_,
    k3.setObj _ (.inl (Nat.le_succ _)), ?_⟩
  · refine congrArg Except.ok (congrArg (Prod.mk _) ?_)
    show forLt _ _ (GenSwitchingKeyM kg e _ _ (PMem.fresh (permuteM g sk.value ⟨m.next, 0⟩
      m.fresh))) = _
    rw [h1]
    exact (congrArg (forLt _ _) h2).trans h3
  · unfold CjA.read
    dsimp only
    rw [setObj_obj]
    rfl
  · refine ⟨by simp [CjA.objs], fun o ho => ?_⟩
    have : o = m.next + 1 := by simpa [CjA.objs] using ho
    simp only [hm2, hm1, setObj_next, fresh_next]
    omega

/-! ### CRS vectors -/

/-- A CRS vector as a value: the uniform polynomials `u i`, in Montgomery form. -/
def crsVec (u : ℕ → QP C) : SwKey C := fun i =>
  if i < C.betaMax then
    ⟨⟨C.nQ, fun j => if j ≤ C.lq then fun x => (montR : ZMod (C.q j)) * (u i).Q.row j x else 0,
      false⟩,
     ⟨C.nP, fun j => if j ≤ C.lp then fun x => (montR : ZMod (C.p j)) * (u i).P.row j x else 0,
      false⟩⟩
  else QP.new

theorem crsFillM_eq (u : ℕ → QP C) (m : PMem C) :
    crsFillM u m.next m.fresh = m.fresh.setObj m.next (crsVec u) := by
  unfold crsFillM
  rw [m.fresh.forLt_obj m.next C.betaMax _ (fun i x => QP.mformLvl C.lq C.lp
    ⟨x.Q.write C.lq (u i).Q.row, x.P.write C.lp (u i).P.row⟩
    ⟨x.Q.write C.lq (u i).Q.row, x.P.write C.lp (u i).P.row⟩)
    (fun i v => by simp only [op1_self, wr_wr]), fresh_obj]
  congr 1
  funext i
  rw [forLt_update C.betaMax (fun i x => QP.mformLvl C.lq C.lp
    ⟨x.Q.write C.lq (u i).Q.row, x.P.write C.lp (u i).P.row⟩
    ⟨x.Q.write C.lq (u i).Q.row, x.P.write C.lp (u i).P.row⟩)]
  unfold crsVec
  by_cases hi : i < C.betaMax
  · rw [if_pos hi, if_pos hi]
    unfold SwKey.new QP.new QP.mformLvl RPoly.mformLvl RPoly.write RPoly.new
    congr 2
    · funext j
      by_cases hj : j ≤ C.lq
      · simp [hj]
      · simp [hj]
    · funext j
      by_cases hj : j ≤ C.lp
      · simp [hj]
      · simp [hj]
  · rw [if_neg hi, if_neg hi]
    rfl

theorem set_mapVals {K V W : Type} [DecidableEq K] (f : V → W) (g : GoMap K V) (k : K) (v : V) :
    (g.set k v).mapVals (fun _ => f) = (g.mapVals fun _ => f).set k (f v) := by
  have hh : (g.mapVals fun _ => f).has k = g.has k := by
    unfold GoMap.has
    rw [GoMap.get?_mapVals, Option.isSome_map]
  unfold GoMap.set
  rw [hh]
  by_cases h : g.has k = true
  · rw [if_pos h, if_pos h]
    unfold GoMap.mapVals
    simp only [List.map_map]
    congr 1
    refine List.map_congr_left fun e _ => ?_
    simp only [Function.comp]
    split <;> rfl
  · rw [if_neg h, if_neg h]
    simp [GoMap.mapVals]

theorem mem_set_entries {K V : Type} [DecidableEq K] {g : GoMap K V} {k : K} {v : V} {e : K × V}
    (h : e ∈ (g.set k v).entries) : e ∈ g.entries ∨ e = (k, v) := by
  unfold GoMap.set at h
  split at h
  · obtain ⟨a, ha, rfl⟩ := List.mem_map.mp h
    split
    · exact .inr rfl
    · exact .inl ha
  · rcases List.mem_append.mp h with h | h
    · exact .inl h
    · exact .inr (by simpa using h)

theorem mapVals_congr {K V W : Type} {f f' : V → W} {g : GoMap K V}
    (h : ∀ e ∈ g.entries, f e.2 = f' e.2) : g.mapVals (fun _ => f) = g.mapVals (fun _ => f') := by
  unfold GoMap.mapVals
  congr 1
  exact List.map_congr_left fun e he => by dsimp only; rw [h e he]

/-- **C69 (CRS).** `AddCRS` puts the uniform polynomials in Montgomery form into a new object
and changes no other entry of the map. -/
theorem C69_add_crs {kg : KG} {m : PMem C} (hw : kg.WF m) (idx : ℤ) (u : ℕ → QP C) :
    KG.WF { kg with crs := (addCRSM kg.crs idx u m).1 } (addCRSM kg.crs idx u m).2 ∧
      kg.Keeps m (addCRSM kg.crs idx u m).2 ∧
      readCRS (addCRSM kg.crs idx u m).1 (addCRSM kg.crs idx u m).2 =
        addCRS (readCRS kg.crs m) idx (crsVec u) := by
  have hk : kg.Keeps m (addCRSM kg.crs idx u m).2 := by
    unfold addCRSM
    rw [crsFillM_eq]
    exact keeps_setObj_new _ (.fresh kg m) le_rfl
  refine ⟨⟨hw.poolQ.trans_le hk.1, hw.poolQP.trans_le hk.1, fun e he => ?_⟩, hk, ?_⟩
  · rcases mem_set_entries he with he | rfl
    · exact (hw.crs e he).mono hk.1
    · have hp := hw.poolQ
      have hp' := hw.poolQP
      refine ⟨?_, ?_, ?_⟩
      · unfold addCRSM
        rw [crsFillM_eq]
        exact Nat.lt_succ_self _
      · dsimp only; omega
      · dsimp only; omega
  · unfold readCRS addCRS
    unfold addCRSM at *
    dsimp only at *
    rw [set_mapVals]
    congr 1
    · exact mapVals_congr fun e he => hk.obj (hw.crs e he)
    · rw [crsFillM_eq, setObj_obj]

theorem crsLoopM_spec (u : ℤ → ℕ → QP C) (l : List ℤ) (g : GoMap ℤ ℕ) (m : PMem C)
    (hg : ∀ e ∈ g.entries, e.2 < m.next) :
    m.next ≤ (crsLoopM u l (g, m)).2.next ∧
    (∀ p : Ptr, p.o < m.next → (crsLoopM u l (g, m)).2.val p = m.val p) ∧
    (∀ e ∈ (crsLoopM u l (g, m)).1.entries, e.2 < (crsLoopM u l (g, m)).2.next) ∧
    readCRS (crsLoopM u l (g, m)).1 (crsLoopM u l (g, m)).2 =
      crsLoop (fun idx => crsVec (u idx)) (readCRS g m) l := by
  induction l generalizing g m with
  | nil => exact ⟨le_rfl, fun _ _ => rfl, hg, rfl⟩
  | cons idx l ih =>
    have hstep : addCRSM g idx (u idx) m =
        (g.set idx m.next, m.fresh.setObj m.next (crsVec (u idx))) := by
      unfold addCRSM
      rw [crsFillM_eq]
    show _ ≤ (crsLoopM u l (addCRSM g idx (u idx) m)).2.next ∧ _
    simp only [crsLoopM, hstep]
    set m1 := m.fresh.setObj m.next (crsVec (u idx)) with hm1
    have hn : m1.next = m.next + 1 := rfl
    have hv : ∀ p : Ptr, p.o < m.next → m1.val p = m.val p := fun p hp => by
      rw [hm1, setObj_val_of_ne _ _ hp.ne, fresh_val_of_ne _ hp.ne]
    obtain ⟨h1, h2, h3, h4⟩ := ih (g.set idx m.next) m1 (fun e he => by
      rcases mem_set_entries he with he | rfl
      · exact (hg e he).trans (by omega)
      · show m.next < m1.next
        omega)
    refine ⟨by omega, fun p hp => ?_, h3, ?_⟩
    · rw [h2 p (by omega), hv p hp]
    · rw [h4]
      show _ = crsLoop _ ((readCRS g m).set idx (crsVec (u idx))) l
      congr 1
      unfold readCRS
      rw [set_mapVals]
      congr 1
      · refine mapVals_congr fun e he => ?_
        funext k
        exact hv _ (hg e he)
      · rw [hm1, setObj_obj]

/-- **C69 (parameters).** After `NewParameters` and `NewKeyGenerator` the generator is well
formed, its CRS map holds the sampled vectors, and the memory that existed before is
unchanged. -/
theorem C69_start (logN : ℕ) (u : ℤ → ℕ → QP C) (m : PMem C) :
    (startM logN u m).kg.WF (startM logN u m).m ∧
    readCRS (startM logN u m).kg.crs (startM logN u m).m =
      newCRS logN (fun idx => crsVec (u idx)) ∧
    (startM logN u m).kg.poolQ.o ≠ (startM logN u m).kg.poolQP.o ∧
    ∀ p : Ptr, p.o < m.next → (startM logN u m).m.val p = m.val p := by
  obtain ⟨h1, h2, h3, h4⟩ := crsLoopM_spec u (crsIdxs logN) GoMap.empty m (by simp [GoMap.empty])
  unfold startM newCRSM newKeyGenM
  dsimp only
  set s := crsLoopM u (crsIdxs logN) (GoMap.empty, m)
  refine ⟨⟨?_, ?_, fun e he => ?_⟩, ?_, ?_, fun p hp => ?_⟩
  · simp only [fresh_next]; omega
  · simp only [fresh_next]; omega
  · have := h3 e he
    refine ⟨?_, ?_, ?_⟩ <;> simp only [fresh_next] <;> omega
  · show readCRS s.1 _ = newCRS logN fun idx => crsVec (u idx)
    refine Eq.trans ?_ h4
    refine mapVals_congr fun e he => ?_
    funext k
    exact fresh_fresh_val (h3 e he)
  · simp only [fresh_next]; omega
  · rw [fresh_fresh_val (by omega), h2 p hp]

/-! ### Copies -/

/-- **C69 (copies).** `CopyNew` of a key is a new key with the same contents. -/
theorem C69_copies {kg : KG} {m : PMem C} {sk : SkA} (hsk : kg.Owns m sk.value.o) {pk : PkA}
    (hpk : ∀ o ∈ pk.objs, kg.Owns m o) :
    kg.Impl m (.ok (sk.read m)) (.ok (sk.CopyNewM m)) SkA.read SkA.objs ∧
    kg.Impl m (.ok (pk.read m)) (.ok (pk.CopyNewM m)) PkA.read PkA.objs := by
  have h0 := hpk pk.value0.o (by simp [PkA.objs])
  have h1 := hpk pk.value1.o (by simp [PkA.objs])
  constructor
  · refine ⟨_, _, rfl, ?_, ?_, ?_⟩
    · unfold SkA.read
      simp only [op1, wr_val_self, fresh_val_of_ne _ hsk.1.ne]
    · rw [op1, wr_eq_setObj]
      exact keeps_setObj_new _ (.fresh kg m) le_rfl
    · refine ⟨by simp [SkA.objs], fun o ho => ?_⟩
      obtain rfl : o = m.next := by simpa [SkA.objs] using ho
      exact ⟨le_rfl, Nat.lt_succ_self _⟩
  · refine ⟨_, _, rfl, ?_, ?_, ?_⟩
    · have hne : (⟨m.next, 0⟩ : Ptr) ≠ ⟨m.next + 1, 0⟩ := by simp
      have e0 := h0.1
      have e1 := h1.1
      unfold PkA.read
      simp only [op1, wr_val_self, fresh_next, wr_next]
      rw [wr_val_of_ne _ _ hne, fresh_val_of_ne _ (by simp), wr_val_self,
        fresh_val_of_ne _ e0.ne,
        fresh_val_of_ne _ (by rw [wr_next, fresh_next]; omega),
        wr_val_of_ne _ _ (ptr_ne_of_lt e1), fresh_val_of_ne _ e1.ne]
    · simp only [op1, wr_eq_setObj]
      refine keeps_setObj_new _ (KG.Keeps.trans (m' := _) ?_ (.fresh kg _)) (by simp)
      exact keeps_setObj_new _ (.fresh kg m) le_rfl
    · refine ⟨by simp [PkA.objs], fun o ho => ?_⟩
      have : o = m.next ∨ o = m.next + 1 := by simpa [PkA.objs] using ho
      simp only [op1, wr_next, fresh_next]
      omega

end MK
