import Verif.Props.DetKeys
import Verif.Props.Toy
import Verif.Props.Ieee

/-!
# C66: the output of the programs does not depend on map iteration orders

Go visits maps in random order.  Every call of a program that visits a map gets its own arbitrary order
(`MainRand.ids`, `sch`, `dec`).  With the same samples, all printed numbers are the same, exactly.  Samples
belong to the party (keys) or to the call (encryptions) they are drawn for, not to the position in a stream.
-/

noncomputable section

namespace MK.Lr

open Finset
open Word (idx idx_of_lt)

variable {C : Ctx}

/-! ## Decryption -/

/-- `c_0 + Σ c_id s_id` modulo `q_i`. -/
def XVal.phase (s : String → Nega C.N ℤ) (x : XVal C) (i : ℕ) : Nega C.N (ZMod (C.q i)) :=
  ∑ id ∈ insert "0" x.S, x.comp id i * Nega.red (C.q i) (Ct.secretOf s id)

/-- The plaintext of a value. -/
def XVal.plain (s : String → Nega C.N ℤ) (x : XVal C) : RQ C :=
  ⟨x.lvl + 1, fun i => (x.phase s i).coeff, false⟩

/-- What decryption and decoding give. -/
def XVal.read {Msg : Type} (E : Encoder C Msg) (s : String → Nega C.N ℤ) (x : XVal C) : Msg :=
  E.decode (x.plain s).lift x.scale

variable {S : Finset String} {s : String → Nega C.N ℤ}

theorem IsX.phase {c : CCt C} {x : XVal C} (h : IsX S c x) {i : ℕ} (hi : i ≤ x.lvl) :
    c.ct.phase s i = x.phase s i := by
  have : c.ct.value.keys.toFinset = insert "0" x.S := by
    ext id
    rw [List.mem_toFinset]
    exact h.ct.mem id
  unfold Ct.phase XVal.phase
  rw [this]
  exact sum_congr rfl fun id hid => by rw [h.comp hid hi]

theorem decrypt_exact {Msg : Type} (hC : C.Good) (E : Encoder C Msg) {dec : CDec C}
    (hd : dec.pool.isNTT = false) {ct : CCt C} {x : XVal C} (hx : IsX S ct x)
    (hlev : x.lvl ≤ dec.pool.level) {skSet : KeySet (SecretKey C)} (hks : KeyedById skSet)
    (hsk : ∀ id ∈ S, ∃ sk, skSet.value.get? id = some sk ∧ IsSK sk (s id)) (π : Sched) :
    ∃ dec', dec.Decrypt E ct skSet π = .ok (dec', x.read E s) ∧ dec'.pool.isNTT = false ∧
      dec'.pool.level = x.lvl := by
  obtain ⟨m, hm⟩ := exists_carries' hC ct.ct s hx.lt
  obtain ⟨dec', e, h1, h2⟩ := C43_Decrypt hC E hd hx.wf.ragged hx.lt hks
    (fun id hid => hsk id (hx.sub (hx.parties ▸ hid))) hm π
  rw [min_eq_left hlev] at e h2
  refine ⟨dec', ?_, h1, h2⟩
  have hl : (x.plain s).level = x.lvl := rfl
  have : (x.plain s).lift = centre (C.qProd x.lvl) m := by
    refine RPoly.lift_eq hC (by rw [hl]; exact hx.lt) ?_
    rw [← hl]
    refine centre_isLift hC fun i hi => ?_
    rw [← hm i hi, hx.phase hi]
    rfl
  rw [e, XVal.read, this, hx.scale]

variable {prm : CPar C} {n : ℕ} [NeZero n] {r : ℚ} {K : ℕ} {rk : String → RelinKey C} {u : SwKey C}
  {rrk : ℕ → String → RotKey C} {ra : ℕ → SwKey C}

/-! ## The loops -/

/-- The exact closed forms with the keys of a run. -/
abbrev xHE (prm : CPar C) (rk : String → RelinKey C) (rrk : ℕ → String → RotKey C) :
    HE Option (XVal C) (RQ C × ℚ) := exactHE prm rk (crsAt prm.crs (-1)) rrk fun i => crsAt prm.crs i

variable {E : Encoder C (List ℂ)} {pk : PublicKey C} {kb : KeyBag C} {M ε δ : ℝ}

omit [NeZero n] in
theorem slice02_read {scale : ℚ} (hE : E.Accurate scale n M ε δ) (h2 : 2 ≤ n) (x : XVal C) :
    slice02 (x.read E s) = .ok ((x.read E s).take 2) := by
  rw [slice02, if_pos]
  rw [XVal.read, hE.len]; exact h2

omit [NeZero n] in
/-- The training loop with its decryptions, exactly. -/
theorem trainLoop_exact {scale : ℚ} (V : Env prm S rk rrk s pk kb) (hE : E.Accurate scale n M ε δ)
    (h2 : 2 ≤ n) {k : Consts (CCt C) (RQ C × ℚ)} {kX : Consts (XVal C) (RQ C × ℚ)}
    (hk : ConstsRel (IsX S) Eq k kX) (numRow numCol : ℕ) {d : Data (CCt C) (RQ C × ℚ)}
    {dX : Data (XVal C) (RQ C × ℚ)} (hd : DataRel (IsX S) Eq d dX) {beta v : CCt C} {bX vX : XVal C}
    (hb : IsX S beta bX) (hv : IsX S v vX) (sch dsch : ℕ → Sched) {X : ℕ → XVal C × XVal C} {T : ℕ}
    (hX : ∀ t ≤ T, lrTrain (xHE prm rk rrk) kX numRow numCol dX t bX vX = some (X t))
    (hl : ∀ t ≤ T, (X t).1.lvl = C.nQ - 1 - 4 * t ∧ (X t).2.lvl = C.nQ - 1 - 4 * t) (t : ℕ) (ht : t ≤ T) :
    ∃ st, forUp t (trainStep E prm kb sch dsch k numRow numCol d)
        ⟨beta, v, Mach.start kb, CDec.new prm, []⟩ = .ok st ∧
      lrTrain (realHE prm kb.rtkSet sch) k numRow numCol d t beta v (Mach.start kb) =
        .ok ((st.beta, st.v), st.mach) ∧
      st.mach.Ok S rk ∧ IsX S st.beta (X t).1 ∧ st.dec.pool.isNTT = false ∧
      C.nQ - 1 - 4 * t ≤ st.dec.pool.level ∧
      st.prints = (List.range t).map fun a =>
        (((X (a + 1)).1.read E s).take 2, ((X (a + 1)).2.read E s).take 2) := by
  induction t with
  | zero =>
    have h0 : X 0 = (bX, vX) := (Option.some.inj (hX 0 ht)).symm
    refine ⟨⟨beta, v, Mach.start kb, CDec.new prm, []⟩, rfl, rfl, V.mach, by rw [h0]; exact hb, rfl, ?_, rfl⟩
    show C.nQ - 1 - 4 * 0 ≤ C.nQ - 1
    omega
  | succ t ih =>
    obtain ⟨st, e1, e2, -, -, d1, d2, p1⟩ := ih (by omega)
    obtain ⟨⟨b', v'⟩, m', e4, hm', s1, s2⟩ := lrTrain_sim (realHE_exact V.x sch) hk numRow
      numCol hd (t + 1) hb hv _ (hX (t + 1) ht) _ V.mach
    have s1 : IsX S b' (X (t + 1)).1 := s1
    have s2 : IsX S v' (X (t + 1)).2 := s2
    have e5 : lrIter (realHE prm kb.rtkSet sch) k numRow numCol d t (st.beta, st.v) st.mach =
        .ok ((b', v'), m') := by
      have : lrTrain (realHE prm kb.rtkSet sch) k numRow numCol d (t + 1) beta v (Mach.start kb) =
          (lrTrain (realHE prm kb.rtkSet sch) k numRow numCol d t beta v (Mach.start kb) >>= fun x =>
            lrIter (realHE prm kb.rtkSet sch) k numRow numCol d t x.1 x.2) := rfl
      rw [this, e2] at e4
      exact e4
    obtain ⟨l1, l2⟩ := hl (t + 1) ht
    obtain ⟨dec1, f1, f2, f3⟩ := decrypt_exact V.x.good E d1 s1 (by omega) V.keyed V.sk (dsch (2 * t))
    obtain ⟨dec2, g1, g2, g3⟩ := decrypt_exact V.x.good E f2 s2 (by omega) V.keyed V.sk (dsch (2 * t + 1))
    refine ⟨⟨b', v', m', dec2, st.prints ++ [(((X (t + 1)).1.read E s).take 2,
      ((X (t + 1)).2.read E s).take 2)]⟩, ?_, e4, hm', s1, g2, by show _ ≤ dec2.pool.level; omega, ?_⟩
    · show (forUp t (trainStep E prm kb sch dsch k numRow numCol d)
        ⟨beta, v, Mach.start kb, CDec.new prm, []⟩ >>= _) = _
      rw [e1]
      simp only [Go.ok_bind, trainStep, e5, f1, slice02_read hE h2, g1, Go.pure_eq]
    · show st.prints ++ _ = _
      rw [p1, List.range_succ, List.map_append]
      rfl

omit [NeZero n] in
/-- The same for the minibatch loop; `en` are the states of the encryptor, `g`, `w` the encryptions of
zero. -/
theorem mbLoop_exact {scale : ℚ} (V : Env prm S rk rrk s pk kb) (hE : E.Accurate scale n M ε δ)
    (h2 : 2 ≤ n) {k : Consts (CCt C) (RQ C × ℚ)} {kX : Consts (XVal C) (RQ C × ℚ)}
    (hk : ConstsRel (IsX S) Eq k kX) {sh : Shape} (hnb : sh.numBatch ≠ 0)
    {d : ℕ → ℕ → Data (CCt C) (RQ C × ℚ)}
    {dX : ℕ → ℕ → Data (XVal C) (RQ C × ℚ)} (hd : ∀ a c, DataRel (IsX S) Eq (d a c) (dX a c))
    {rnd : ℕ → EncRand C} {en : ℕ → CEnc C} {g w : ℕ → CCt C} {mid : ℕ → CEnc C} {zX : ℕ → XVal C × XVal C}
    (hg : ∀ a, (en a).EncryptMsgNew E prm (rnd (2 * a)) (List.replicate sh.numSlots 0) pk =
      .ok (mid a, g a))
    (hw : ∀ a, (mid a).EncryptMsgNew E prm (rnd (2 * a + 1)) (List.replicate sh.numSlots 0) pk =
      .ok (en (a + 1), w a))
    (hz : ∀ a, IsX S (g a) (zX a).1 ∧ IsX S (w a) (zX a).2)
    {beta v : CCt C} {bX vX : XVal C}
    (hb : IsX S beta bX) (hv : IsX S v vX) (sch dsch : ℕ → Sched) {X : ℕ → XVal C × XVal C} {T : ℕ}
    (hX : ∀ t ≤ T, mbTrain (xHE prm rk rrk) kX sh.numDataPerCt sh.slotsPerData sh.numBatch
      sh.numCtPerBatch dX zX t bX vX = some (X t))
    (hl : ∀ t ≤ T, (X t).1.lvl = C.nQ - 1 - 4 * t ∧ (X t).2.lvl = C.nQ - 1 - 4 * t) (t : ℕ) (ht : t ≤ T) :
    ∃ st, forUp t (mbStep E prm kb sch dsch rnd pk k sh d)
        ⟨beta, v, Mach.start kb, CDec.new prm, en 0, []⟩ = .ok st ∧
      mbTrain (realHE prm kb.rtkSet sch) k sh.numDataPerCt sh.slotsPerData sh.numBatch sh.numCtPerBatch d
          (fun a => (g a, w a)) t beta v (Mach.start kb) = .ok ((st.beta, st.v), st.mach) ∧
      st.mach.Ok S rk ∧ IsX S st.beta (X t).1 ∧ st.enc = en t ∧ st.dec.pool.isNTT = false ∧
      C.nQ - 1 - 4 * t ≤ st.dec.pool.level ∧
      st.prints = (List.range t).map fun a =>
        (((X (a + 1)).1.read E s).take 2, ((X (a + 1)).2.read E s).take 2) := by
  induction t with
  | zero =>
    have h0 : X 0 = (bX, vX) := (Option.some.inj (hX 0 ht)).symm
    refine ⟨⟨beta, v, Mach.start kb, CDec.new prm, en 0, []⟩, rfl, rfl, V.mach, by rw [h0]; exact hb, rfl,
      rfl, ?_, rfl⟩
    show C.nQ - 1 - 4 * 0 ≤ C.nQ - 1
    omega
  | succ t ih =>
    obtain ⟨st, e1, e2, -, -, en1, d1, d2, p1⟩ := ih (by omega)
    obtain ⟨⟨b', v'⟩, m', e4, hm', s1, s2⟩ := mbTrain_sim (realHE_exact V.x sch) hk sh.numDataPerCt
      sh.slotsPerData sh.numBatch sh.numCtPerBatch hd
      (fun a => (⟨(hz a).1, (hz a).2⟩ : PairRel (IsX S) (g a, w a) (zX a))) (t + 1) hb hv _
      (hX (t + 1) ht) _ V.mach
    have s1 : IsX S b' (X (t + 1)).1 := s1
    have s2 : IsX S v' (X (t + 1)).2 := s2
    have e5 : mbIter (realHE prm kb.rtkSet sch) k sh.numDataPerCt sh.slotsPerData sh.numBatch
        sh.numCtPerBatch d (fun _ => (g t, w t)) t (st.beta, st.v) st.mach = .ok ((b', v'), m') := by
      have : mbTrain (realHE prm kb.rtkSet sch) k sh.numDataPerCt sh.slotsPerData sh.numBatch
          sh.numCtPerBatch d (fun a => (g a, w a)) (t + 1) beta v (Mach.start kb) =
          (mbTrain (realHE prm kb.rtkSet sch) k sh.numDataPerCt sh.slotsPerData sh.numBatch
            sh.numCtPerBatch d (fun a => (g a, w a)) t beta v (Mach.start kb) >>= fun x =>
            mbIter (realHE prm kb.rtkSet sch) k sh.numDataPerCt sh.slotsPerData sh.numBatch
              sh.numCtPerBatch d (fun a => (g a, w a)) t x.1 x.2) := rfl
      rw [this, e2] at e4
      exact e4
    obtain ⟨l1, l2⟩ := hl (t + 1) ht
    obtain ⟨dec1, f1, f2, f3⟩ := decrypt_exact V.x.good E d1 s1 (by omega) V.keyed V.sk (dsch (2 * t))
    obtain ⟨dec2, g1, g2, g3⟩ := decrypt_exact V.x.good E f2 s2 (by omega) V.keyed V.sk (dsch (2 * t + 1))
    refine ⟨⟨b', v', m', dec2, en (t + 1), st.prints ++ [(((X (t + 1)).1.read E s).take 2,
      ((X (t + 1)).2.read E s).take 2)]⟩, ?_, e4, hm', s1, rfl, g2, by show _ ≤ dec2.pool.level; omega, ?_⟩
    · show (forUp t (mbStep E prm kb sch dsch rnd pk k sh d)
        ⟨beta, v, Mach.start kb, CDec.new prm, en 0, []⟩ >>= _) = _
      rw [e1]
      simp only [Go.ok_bind, mbStep, if_neg hnb, en1, hg, hw, e5, f1, slice02_read hE h2, g1, Go.pure_eq]
    · show st.prints ++ _ = _
      rw [p1, List.range_succ, List.map_append]
      rfl

/-! ## The programs -/

/-- Constants with other ciphertexts. -/
def Consts.withCt {C₁ C₂ P : Type} (k : Consts C₁ P) (c5 c9 : C₂) : Consts C₂ P :=
  ⟨k.mask, k.c3, k.c4, c5, k.c6, k.c7, k.c8, c9⟩

/-- Data with another ciphertext. -/
def Data.withCt {C₁ C₂ P : Type} (d : Data C₁ P) (z : C₂) : Data C₂ P := ⟨z, d.k1, d.k2⟩

/-- The value of a fresh ciphertext. -/
abbrev topOf (c : CCt C) : XVal C := XVal.of (C.nQ - 1) c

omit [NeZero n] in
theorem fresh_isX {η : ℝ} {c : CCt C} {x : Slots n ℂ} (h : Fresh prm s S η c x) :
    IsX S c (topOf c) ∧ TopX prm (topOf c) := ⟨IsX.of h.wf h.lt h.parties, rfl, h.scale⟩

theorem mainConsts_top (E : Encoder C (List ℂ)) (prm : CPar C) (p : Hyper ℂ) (n w : ℕ) (c c' : CCt C)
    {x y : XVal C} (hx : TopX prm x) (hy : TopX prm y) :
    TopConsts prm ((mainConsts E prm p n w c c').withCt x y) :=
  ⟨rfl, rfl, fun _ => rfl, hx, fun _ => rfl, fun _ => rfl, rfl, hy⟩

theorem mainData_top (E : Encoder C (List ℂ)) (prm : CPar C) (p : Hyper ℂ) (c : CCt C) (l : List ℂ)
    {x : XVal C} (hx : TopX prm x) : TopData prm ((mainData E prm p c l).withCt x) :=
  ⟨hx, rfl, fun _ => rfl⟩

theorem mainConsts_isX (E : Encoder C (List ℂ)) (prm : CPar C) (p : Hyper ℂ) (n w : ℕ) {c c' : CCt C}
    {x y : XVal C} (hx : IsX S c x) (hy : IsX S c' y) :
    ConstsRel (IsX S) Eq (mainConsts E prm p n w c c') ((mainConsts E prm p n w c c').withCt x y) :=
  ⟨rfl, rfl, fun _ => rfl, hx, fun _ => rfl, fun _ => rfl, rfl, hy⟩

theorem mainData_isX (E : Encoder C (List ℂ)) (prm : CPar C) (p : Hyper ℂ) {c : CCt C} (c0 : CCt C)
    (l : List ℂ) {x : XVal C} (hx : IsX S c x) :
    DataRel (IsX S) Eq (mainData E prm p c l) ((mainData E prm p c0 l).withCt x) :=
  ⟨hx, rfl, fun _ => rfl⟩

/-! Another rounding: keys, encryption, encoding and decryption do not round. -/

theorem Env.withFl (V : Env prm S rk rrk s pk kb) (G : Fl) : Env (prm.withFl G) S rk rrk s pk kb :=
  ⟨⟨V.x.pow, V.x.good, V.x.crs, V.x.rot⟩, V.mach, V.keyed, V.sk, V.pk⟩

theorem withFl_fl (prm : CPar C) (G : Fl) : (prm.withFl G).fl = G := rfl

theorem encNew_fl (prm : CPar C) (G : Fl) : CEnc.new (prm.withFl G) = CEnc.new prm := rfl

theorem decNew_fl (prm : CPar C) (G : Fl) : CDec.new (prm.withFl G) = CDec.new prm := rfl

theorem encMsg_fl (E : Encoder C (List ℂ)) (prm : CPar C) (G : Fl) (enc : CEnc C) :
    enc.EncryptMsgNew E (prm.withFl G) = enc.EncryptMsgNew E prm := rfl

theorem encMsgExpand_fl (E : Encoder C (List ℂ)) (prm : CPar C) (G : Fl) (enc : CEnc C) :
    enc.EncryptMsgNewExpand E (prm.withFl G) = enc.EncryptMsgNewExpand E prm := rfl

theorem encryptZ_fl (E : Encoder C (List ℂ)) (prm : CPar C) (G : Fl) :
    encryptZ E (prm.withFl G) = encryptZ E prm := rfl

theorem FlSame.congr {prm prm0 : CPar C} {p : Hyper ℂ} {G : Fl} (hs : prm.scale = prm0.scale)
    (hf : prm.fl = prm0.fl) (h : FlSame prm0 p G) : FlSame prm p G := by
  obtain ⟨h0, h1, h2, h3, h4, h5, h6, h7, h8, h9⟩ := h
  unfold SameOps at h0
  rw [← hf] at h0 h1 h2 h3 h4 h5 h6 h7 h8 h9
  rw [← hs] at h0
  exact ⟨h0, h1, h2, h3, h4, h5, h6, h7, h8, h9⟩

attribute [local irreducible] setupCRS

omit [NeZero n] in
/-- lr.go, for all iteration orders and all roundings that agree where needed. -/
theorem lr_main_same {prm0 : CPar C} {logN : ℕ} {cfg : MainCfg} {rnd : MainRand C}
    {data : List (List ℂ)} {labels : List ℂ} {r : ℚ} {K : ℕ} {D B : ℤ}
    (h : MainOk E prm0 logN cfg rnd data labels r K D B M ε δ) :
    ∃ out, ∀ G, FlSame prm0 cfg.hp G → ∀ ids sch dec,
      lrMain E (prm0.withFl G) logN cfg (rnd.reorder ids sch dec) data labels = .ok out := by
  have hn2 := h.two
  have : NeZero cfg.slotNum := ⟨by omega⟩
  have hM0 : 0 ≤ M := zero_le_one.trans h.hyper.one
  have hlv := h.levels
  have hdr := h.drift
  have hps : (mainPar prm0 logN rnd).scale = prm0.scale := rfl
  have hpf : (mainPar prm0 logN rnd).fl = prm0.fl := rfl
  have hpc : (mainPar prm0 logN rnd).crs = setupCRS logN rnd.sample rnd.sample' := rfl
  have hpe : { prm0 with crs := (mainPar prm0 logN rnd).crs } = mainPar prm0 logN rnd := rfl
  generalize mainPar prm0 logN rnd = prm at hps hpf hpc hpe
  have H : Chain prm r K := by
    have := h.chain
    exact ⟨this.one, this.pos, this.pow, by rw [hps]; exact this.scale, by rw [hps]; exact this.lo,
      by rw [hps]; exact this.hi⟩
  have hfl : prm.fl.Ok := by rw [hpf]; exact h.fl
  obtain ⟨l, el, ll, lt, -⟩ := relabel_spec cfg.isCls h.labelLen
  obtain ⟨ids, kb, pk, X⟩ := main_keys h.toRunOk hps hpf hpc
  obtain ⟨z, label, row, test, ez, elb, erow, et, zl, zM, labl, lab01, tl, tM, -⟩ := main_values h H hfl
    (companies cfg.numCompany).toFinset.card (freshErr C prm0.scale B ε) ll lt
  have rl : ∀ c : ℂ, (List.replicate cfg.slotNum c).length = cfg.slotNum := fun c => by simp
  have rz : ∀ x ∈ List.replicate cfg.slotNum (0 : ℂ), ‖x‖ ≤ M := by
    intro x hx
    rw [List.eq_of_mem_replicate hx]; simpa using hM0
  obtain ⟨e1, beta, q1, o1, f1⟩ := X.enc1 (enc := CEnc.new prm) ⟨rfl, rfl⟩ 0 _ (rl 0) rz
  obtain ⟨e2, v, q2, o2, f2⟩ := X.enc1 o1 1 _ (rl 0) rz
  obtain ⟨e3, zc, q3, o3, f3⟩ := X.encAll o2 1 2 z zl zM
  obtain ⟨e4, c5, q4, o4, f4⟩ := X.enc1' o3 3 _ _ (h.hyper.near5 X.fl)
  obtain ⟨e5, c9, q5, o5, f5⟩ := X.enc1' o4 4 _ _ (h.hyper.near9 X.fl)
  obtain ⟨e6, ct, q6, -, f6⟩ := X.encAll o5 2 5 test tl tM
  obtain ⟨i1, u1⟩ := fresh_isX f1
  obtain ⟨i2, u2⟩ := fresh_isX f2
  obtain ⟨-, u3⟩ := fresh_isX f3
  obtain ⟨i4, u4⟩ := fresh_isX f4
  obtain ⟨i5, u5⟩ := fresh_isX f5
  obtain ⟨-, u6⟩ := fresh_isX f6
  have hkT := mainConsts_top E prm cfg.hp cfg.slotNum cfg.numCol c5 c9 u4 u5
  have hkX := mainConsts_isX E prm cfg.hp cfg.slotNum cfg.numCol i4 i5
  generalize ekX : (mainConsts E prm cfg.hp cfg.slotNum cfg.numCol c5 c9).withCt (topOf c5) (topOf c9) = kX
    at hkT hkX
  have hdT := mainData_top E prm cfg.hp zc label u3
  have hdX := fun {c : CCt C} (hc : IsX (companies cfg.numCompany).toFinset c (topOf zc)) =>
    mainData_isX E prm cfg.hp zc label hc
  generalize edX : (mainData E prm cfg.hp zc label).withCt (topOf zc) = dX at hdT hdX
  have htr : ∀ t, ∃ w : XVal C × XVal C, t ≤ cfg.numIter →
      (∀ G, SameOps prm G → lrTrain (xHE (prm.withFl G) kb.rk kb.rrk) kX cfg.numRow cfg.numCol dX t
        (topOf beta) (topOf v) = some w) ∧
      w.1.lvl = C.nQ - 1 - 4 * t ∧ w.2.lvl = C.nQ - 1 - 4 * t ∧
      Near prm.scale r (kAfter t) w.1.scale := by
    intro t
    by_cases ht : t ≤ cfg.numIter
    · have h3 : 3 ^ t ≤ 3 ^ cfg.numIter := Nat.pow_le_pow_right (by norm_num) ht
      obtain ⟨w, hw⟩ := exact_train H h.good hfl hkT cfg.numRow cfg.numCol hdT u1 u2 (t := t) (by omega) (by omega)
        (by unfold kAfter; omega) (rk := kb.rk) (rrk := kb.rrk) (u := crsAt prm.crs (-1))
        (ra := fun i => crsAt prm.crs i)
      exact ⟨w, fun _ => hw⟩
    · exact ⟨(topOf beta, topOf v), fun h => absurd h ht⟩
  choose W hW using htr
  obtain ⟨-, w1, -, w3⟩ := hW cfg.numIter le_rfl
  obtain ⟨R, hR, hRl⟩ := exact_infer H h.good hfl hkT cfg.numFeature u6 w1 (by omega) w3 (by omega)
    (by unfold kAfter; omega) (rk := kb.rk) (rrk := kb.rrk) (u := crsAt prm.crs (-1))
    (ra := fun i => crsAt prm.crs i)
  have ol : 0 < (R.read E fun id => (rnd.party id).s).length := by
    rw [XVal.read, h.accurate.len]; omega
  have tl' : cfg.testId < l.length := by rw [ll]; exact lt_of_lt_of_le h.testId h.labelLen
  refine ⟨⟨(List.range cfg.numIter).map fun a => (((W (a + 1)).1.read E fun id => (rnd.party id).s).take 2,
    ((W (a + 1)).2.read E fun id => (rnd.party id).s).take 2), R.read E fun id => (rnd.party id).s,
    judge ((R.read E fun id => (rnd.party id).s).getD 0 0) (l.getD cfg.testId 0)⟩, fun G hG0 idsO sch dec => ?_⟩
  obtain ⟨ids', kb', pk', X'⟩ := main_keys (h.toRunOk.reorder idsO sch dec) hps hpf hpc
  obtain ⟨rfl, rfl, V⟩ := env_of h.toRunOk hps hpf hpc X idsO sch dec X'
  replace V := V.withFl G
  have hG : FlSame prm cfg.hp G := hG0.congr hps hpf
  have hpe' : { prm0.withFl G with crs := prm.crs } = prm.withFl G := congrArg (fun p => p.withFl G) hpe
  obtain ⟨zc', q3', i3⟩ := expand_env q3 X' o2 rfl zl zM
  obtain ⟨ct', q6', i6⟩ := expand_env q6 X' o5 rfl tl tM
  obtain ⟨st, t1, -, t3, t4, t5, t6, t7⟩ := trainLoop_exact V h.accurate hn2 hkX cfg.numRow cfg.numCol (hdX i3)
    i1 i2 sch dec (fun t ht => (hW t ht).1 G hG.ops) (fun t ht => ⟨(hW t ht).2.1, (hW t ht).2.2.1⟩) cfg.numIter
    le_rfl
  obtain ⟨res, m', g1, g2, g3⟩ := infer_sim (realHE_exact V.x sch) hkX cfg.numFeature i6 t4 _ (hR G hG.ops) st.mach t3
  have g3 : IsX (companies cfg.numCompany).toFinset res R := g3
  obtain ⟨dec', d1, -⟩ := decrypt_exact h.good E t5 g3 (by omega) V.keyed V.sk (dec (2 * cfg.numIter))
  have hfd : ∀ c, mainData E (prm.withFl G) cfg.hp c label = mainData E prm cfg.hp c label := fun c =>
    mainData_fl hG E c lab01
  have hgen := X'.gen
  rw [← hG.c5, ← withFl_fl prm0 G] at q4
  rw [← hG.c9, ← withFl_fl prm0 G] at q5
  unfold lrMain
  unfold MainRand.reorder at hgen q3' q6' ⊢
  simp only [el, X.ids_eq, hgen, hpe', encNew_fl, encMsg_fl, encMsgExpand_fl, hfd, mainConsts_fl hG,
    V.pk, q1, q2, q3', ez, elb, q4, q5, Go.ok_bind]
  erw [t1]
  simp only [Go.ok_bind, erow, et, q6']
  erw [g1]
  simp only [Go.ok_bind, d1, idx_of_lt ol, idx_of_lt tl', Go.pure_eq, t7]
  rw [List.getD_eq_getElem _ _ ol, List.getD_eq_getElem _ _ tl']

omit [NeZero n] in
/-- lr_toy.go, for all iteration orders and all roundings that agree where needed. -/
theorem toy_main_same {prm0 : CPar C} {sq : ℝ → ℝ} {logN : ℕ} {cfg : MainCfg} {rnd : MainRand C}
    {data0 data : List (List ℂ)} {labels : List ℂ} {r : ℚ} {K : ℕ} {D B : ℤ}
    (h : MainOk E prm0 logN cfg rnd data labels r K D B M ε δ) (h210 : 210 ≤ cfg.slotNum) :
    ∃ out, ∀ G, FlSame prm0 cfg.hp G → normalise G sq cfg.hp.batchSize cfg.hp.batchSize cfg.numFeature
        cfg.numData toyCols data0 = .ok data → ∀ ids sch dec,
      lrToyMain E (prm0.withFl G) sq logN cfg (rnd.reorder ids sch dec) data0 labels = .ok out := by
  have hn2 := h.two
  have : NeZero cfg.slotNum := ⟨by omega⟩
  have hM0 : 0 ≤ M := zero_le_one.trans h.hyper.one
  have hlv := h.levels
  have hdr := h.drift
  have hps : (mainPar prm0 logN rnd).scale = prm0.scale := rfl
  have hpf : (mainPar prm0 logN rnd).fl = prm0.fl := rfl
  have hpc : (mainPar prm0 logN rnd).crs = setupCRS logN rnd.sample rnd.sample' := rfl
  have hpe : { prm0 with crs := (mainPar prm0 logN rnd).crs } = mainPar prm0 logN rnd := rfl
  generalize mainPar prm0 logN rnd = prm at hps hpf hpc hpe
  have H : Chain prm r K := by
    have := h.chain
    exact ⟨this.one, this.pos, this.pow, by rw [hps]; exact this.scale, by rw [hps]; exact this.lo,
      by rw [hps]; exact this.hi⟩
  have hfl : prm.fl.Ok := by rw [hpf]; exact h.fl
  obtain ⟨l, el, ll, lt, -⟩ := relabel_spec cfg.isCls h.labelLen
  obtain ⟨ids, kb, pk, X⟩ := main_keys h.toRunOk hps hpf hpc
  obtain ⟨z, label, row, test, ez, elb, erow, et, zl, zM, labl, lab01, tl, tM, -⟩ := main_values h H hfl
    (companies cfg.numCompany).toFinset.card (freshErr C prm0.scale B ε) ll lt
  have rl : ∀ c : ℂ, (List.replicate cfg.slotNum c).length = cfg.slotNum := fun c => by simp
  have rz : ∀ x ∈ List.replicate cfg.slotNum (0 : ℂ), ‖x‖ ≤ M := by
    intro x hx
    rw [List.eq_of_mem_replicate hx]; simpa using hM0
  obtain ⟨e1, beta, q1, o1, f1⟩ := X.enc1 (enc := CEnc.new prm) ⟨rfl, rfl⟩ 0 _ (rl 0) rz
  obtain ⟨e2, v, q2, o2, f2⟩ := X.enc1 o1 1 _ (rl 0) rz
  obtain ⟨e3, zc, q3, o3, f3⟩ := X.encAll o2 1 2 z zl zM
  obtain ⟨e4, c5, q4, o4, f4⟩ := X.enc1' o3 3 _ _ (h.hyper.near5 X.fl)
  obtain ⟨e5, c9, q5, o5, f5⟩ := X.enc1' o4 4 _ _ (h.hyper.near9 X.fl)
  obtain ⟨e6, ct, q6, -, f6⟩ := X.encAll o5 2 5 test tl tM
  obtain ⟨i1, u1⟩ := fresh_isX f1
  obtain ⟨i2, u2⟩ := fresh_isX f2
  obtain ⟨-, u3⟩ := fresh_isX f3
  obtain ⟨i4, u4⟩ := fresh_isX f4
  obtain ⟨i5, u5⟩ := fresh_isX f5
  obtain ⟨-, u6⟩ := fresh_isX f6
  have hkT := mainConsts_top E prm cfg.hp cfg.slotNum cfg.numCol c5 c9 u4 u5
  have hkX := mainConsts_isX E prm cfg.hp cfg.slotNum cfg.numCol i4 i5
  generalize ekX : (mainConsts E prm cfg.hp cfg.slotNum cfg.numCol c5 c9).withCt (topOf c5) (topOf c9) = kX
    at hkT hkX
  have hdT := mainData_top E prm cfg.hp zc label u3
  have hdX := fun {c : CCt C} (hc : IsX (companies cfg.numCompany).toFinset c (topOf zc)) =>
    mainData_isX E prm cfg.hp zc label hc
  generalize edX : (mainData E prm cfg.hp zc label).withCt (topOf zc) = dX at hdT hdX
  obtain ⟨W, hW, w1, -, w3⟩ := exact_train H h.good hfl hkT cfg.numRow cfg.numCol hdT u1 u2
    (t := cfg.numIter) (by omega) (by omega) (by unfold kAfter; omega) (rk := kb.rk) (rrk := kb.rrk)
    (u := crsAt prm.crs (-1)) (ra := fun i => crsAt prm.crs i)
  obtain ⟨R, hR, hRl⟩ := exact_infer H h.good hfl hkT cfg.numFeature u6 w1 (by omega) w3 (by omega)
    (by unfold kAfter; omega) (rk := kb.rk) (rrk := kb.rrk) (u := crsAt prm.crs (-1))
    (ra := fun i => crsAt prm.crs i)
  have ol : 0 < (R.read E fun id => (rnd.party id).s).length := by
    rw [XVal.read, h.accurate.len]; omega
  have zdl : 210 ≤ ((topOf zc).read E fun id => (rnd.party id).s).length := by
    rw [XVal.read, h.accurate.len]; exact h210
  have tl' : cfg.testId < l.length := by rw [ll]; exact lt_of_lt_of_le h.testId h.labelLen
  refine ⟨⟨toySlices.map fun ab => (((topOf zc).read E fun id => (rnd.party id).s).take ab.2).drop ab.1,
    R.read E fun id => (rnd.party id).s,
    judge ((R.read E fun id => (rnd.party id).s).getD 0 0) (l.getD cfg.testId 0)⟩, fun G hG0 hnorm idsO sch dec => ?_⟩
  obtain ⟨ids', kb', pk', X'⟩ := main_keys (h.toRunOk.reorder idsO sch dec) hps hpf hpc
  obtain ⟨rfl, rfl, V⟩ := env_of h.toRunOk hps hpf hpc X idsO sch dec X'
  replace V := V.withFl G
  have hG : FlSame prm cfg.hp G := hG0.congr hps hpf
  have hpe' : { prm0.withFl G with crs := prm.crs } = prm.withFl G := congrArg (fun p => p.withFl G) hpe
  obtain ⟨zc', q3', i3⟩ := expand_env q3 X' o2 rfl zl zM
  obtain ⟨ct', q6', i6⟩ := expand_env q6 X' o5 rfl tl tM
  obtain ⟨dec1, y1, y2, y3⟩ := decrypt_exact h.good E (dec := CDec.new prm) rfl i3 le_rfl V.keyed V.sk (dec 0)
  have y3 : dec1.pool.level = C.nQ - 1 := y3
  obtain ⟨⟨b', v'⟩, m', t1, t2, t3, -⟩ := lrTrain_sim (realHE_exact V.x sch) hkX cfg.numRow cfg.numCol (hdX i3)
    cfg.numIter i1 i2 _ (hW G hG.ops) (Mach.start kb') V.mach
  have t3 : IsX (companies cfg.numCompany).toFinset b' W.1 := t3
  obtain ⟨res, m'', g1, g2, g3⟩ := infer_sim (realHE_exact V.x sch) hkX cfg.numFeature i6 t3 _ (hR G hG.ops) m' t2
  have g3 : IsX (companies cfg.numCompany).toFinset res R := g3
  obtain ⟨dec', d1, -⟩ := decrypt_exact h.good E y2 g3 (by omega) V.keyed V.sk (dec 1)
  have hfd : ∀ c, mainData E (prm.withFl G) cfg.hp c label = mainData E prm cfg.hp c label := fun c =>
    mainData_fl hG E c lab01
  have hgen := X'.gen
  rw [← hG.c5, ← withFl_fl prm0 G] at q4
  rw [← hG.c9, ← withFl_fl prm0 G] at q5
  rw [← withFl_fl prm0 G] at hnorm
  unfold lrToyMain
  unfold MainRand.reorder at hgen q3' q6' ⊢
  simp only [C53_columns, el, X.ids_eq, hgen, hpe', encNew_fl, encMsg_fl, encMsgExpand_fl, decNew_fl, hfd, mainConsts_fl hG,
    V.pk, q1, q2, hnorm, q3', y1, toySlices_ok zdl,
    ez, elb, q4, q5, Go.ok_bind]
  erw [t1]
  simp only [Go.ok_bind, erow, et, q6']
  erw [g1]
  simp only [Go.ok_bind, d1, idx_of_lt ol, idx_of_lt tl', Go.pure_eq]
  rw [List.getD_eq_getElem _ _ ol, List.getD_eq_getElem _ _ tl']

/-! ## Minibatches -/

/-- Two loops that go through the same states and compute related entries. -/
theorem tabulate_rel {σ α β : Type} {m : ℕ} {f : ℕ → σ → Go (σ × α)} {g : ℕ → σ → Go (σ × β)}
    {Inv : σ → Prop} {R : α → β → Prop}
    (hf : ∀ i < m, ∀ s, Inv s → ∃ s' x y, f i s = .ok (s', x) ∧ g i s = .ok (s', y) ∧ Inv s' ∧ R x y)
    {s : σ} (hs : Inv s) :
    ∃ s' l l', tabulate m f s = .ok (s', l) ∧ tabulate m g s = .ok (s', l') ∧ Inv s' ∧
      List.Forall₂ R l l' := by
  unfold tabulate
  induction m with
  | zero => exact ⟨s, [], [], rfl, rfl, hs, .nil⟩
  | succ m ih =>
    obtain ⟨s1, l, l', e1, e1', h1, h2⟩ := ih fun i hi => hf i (by omega)
    obtain ⟨s2, x, y, e2, e2', h3, h4⟩ := hf m (by omega) s1 h1
    refine ⟨s2, l ++ [x], l' ++ [y], ?_, ?_, h3, List.rel_append h2 (.cons h4 .nil)⟩
    · show (forUp m _ (s, []) >>= _) = _
      rw [e1]
      simp only [Go.ok_bind, e2, Go.pure_eq]
    · show (forUp m _ (s, []) >>= _) = _
      rw [e1']
      simp only [Go.ok_bind, e2', Go.pure_eq]

theorem getD_rel {α β : Type} {R : α → β → Prop} {l : List α} {l' : List β} (h : List.Forall₂ R l l')
    {x : α} {y : β} (hxy : R x y) (i : ℕ) : R (l.getD i x) (l'.getD i y) := by
  induction h generalizing i with
  | nil => simpa using hxy
  | cons h _ ih =>
    cases i with
    | zero => simpa using h
    | succ i => simpa using ih i

theorem at2_rel {α β : Type} {R : α → β → Prop} {l : List (List α)} {l' : List (List β)}
    (h : List.Forall₂ (List.Forall₂ R) l l') {x : α} {y : β} (hxy : R x y) (b i : ℕ) :
    R (at2 x l b i) (at2 y l' b i) := getD_rel (getD_rel h .nil b) hxy i

theorem labels01 {sh : Shape} {labels : List ℂ} {L : ℕ → ℕ → List ℂ}
    (h : ∀ b i, packBatchLabel sh labels b i = .ok (L b i)) (h01 : ∀ b i, ∀ y ∈ L b i, y = 0 ∨ y = 1)
    {l : List (List (List ℂ))} (e : labelVectors sh labels = .ok l) (b i : ℕ) :
    ∀ y ∈ at2 [] l b i, y = 0 ∨ y = 1 := by
  obtain ⟨st, l1, l2, e1, -, -, hf⟩ := tabulate_rel (m := sh.numBatch) (Inv := fun _ : Unit => True)
    (R := List.Forall₂ fun x (_ : List ℂ) => ∀ y ∈ x, y = 0 ∨ y = 1)
    (f := fun b => tabulate sh.numCtPerBatch fun i _ => do
      let l ← packBatchLabel sh labels b i
      return ((), l))
    (g := fun b => tabulate sh.numCtPerBatch fun i _ => do
      let l ← packBatchLabel sh labels b i
      return ((), l))
    (fun b _ _ _ => tabulate_rel (fun i _ _ _ => ⟨(), L b i, L b i, by rw [h b i]; rfl, by rw [h b i]; rfl,
      trivial, h01 b i⟩) trivial) (s := ()) trivial
  rw [labelVectors, e1] at e
  cases e
  exact at2_rel hf (x := []) (y := []) (by simp) b i

omit [NeZero n] in
/-- Encryption of the data in another order. -/
theorem encryptZ_env {n logN numCompany : ℕ} [NeZero n] {rnd rnd' : MainRand C} {D B : ℤ} {η : ℝ}
    {ids : IDSet} {kb kb' : KeyBag C} (X : MainKeys E prm n logN numCompany rnd D B M η ids kb pk)
    (X' : MainKeys E prm n logN numCompany rnd' D B M η ids kb' pk) (hr : rnd'.enc = rnd.enc) {sh : Shape}
    {data : List (List ℂ)} {Z : ℕ → ℕ → List ℂ} (h : ∀ b i, packBatchZ sh data b i = .ok (Z b i))
    (hl : ∀ b i, (Z b i).length = n) (hM : ∀ b i, ∀ x ∈ Z b i, ‖x‖ ≤ M) (t k : ℕ → ℕ → ℕ)
    {enc : CEnc C} (he : EncOk prm enc) :
    ∃ enc' z z', encryptZ E prm sh (fun b i => rnd.enc (t b i))
        (fun b i => rnd.ids.f (k b i) (GoMap.keys ids)) pk data enc = .ok (enc', z) ∧
      encryptZ E prm sh (fun b i => rnd.enc (t b i))
        (fun b i => rnd'.ids.f (k b i) (GoMap.keys ids)) pk data enc = .ok (enc', z') ∧ EncOk prm enc' ∧
      List.Forall₂ (List.Forall₂ fun c c' =>
        TopX prm (topOf c) ∧ IsX (companies numCompany).toFinset c' (topOf c)) z z' := by
  unfold encryptZ
  refine tabulate_rel (Inv := EncOk prm) (fun b _ enc henc => ?_) he
  refine tabulate_rel (Inv := EncOk prm) (fun i _ enc henc => ?_) henc
  obtain ⟨enc', ct, q1, q2, q3⟩ := X.encAll henc (k b i) (t b i) (Z b i) (hl b i) (hM b i)
  obtain ⟨ct', q1', q3'⟩ := expand_env q1 X' henc hr (hl b i) (hM b i)
  exact ⟨enc', ct, ct', by rw [h b i]; exact q1, by rw [h b i]; exact q1', q2, (fresh_isX q3).2, q3'⟩

/-- A sequence of states. -/
theorem exists_seq {σ : Type} {Inv : σ → Prop} {P : ℕ → σ → σ → Prop}
    (h : ∀ i s, Inv s → ∃ s', Inv s' ∧ P i s s') {s0 : σ} (h0 : Inv s0) :
    ∃ en : ℕ → σ, en 0 = s0 ∧ ∀ i, Inv (en i) ∧ P i (en i) (en (i + 1)) := by
  choose! f hf using h
  let en : ℕ → σ := fun i => Nat.rec s0 (fun i s => f i s) i
  have h1 : ∀ i, Inv (en i) := by
    intro i
    induction i with
    | zero => exact h0
    | succ i ih => exact (hf i _ ih).1
  exact ⟨en, rfl, fun i => ⟨h1 i, (hf i _ (h1 i)).2⟩⟩

omit [NeZero n] in
/-- The zeros that the iterations encrypt: the same ciphertexts in every run. -/
theorem zeros_seq {n logN numCompany : ℕ} [NeZero n] {rnd : MainRand C} {D B : ℤ} {η : ℝ}
    {ids : IDSet} {kb : KeyBag C} (X : MainKeys E prm n logN numCompany rnd D B M η ids kb pk) (hM : 0 ≤ M)
    (o : ℕ) {enc : CEnc C} (he : EncOk prm enc) :
    ∃ (en mid : ℕ → CEnc C) (g w : ℕ → CCt C), en 0 = enc ∧
      (∀ a, (en a).EncryptMsgNew E prm (rnd.enc (o + 2 * a)) (List.replicate n 0) pk = .ok (mid a, g a)) ∧
      (∀ a, (mid a).EncryptMsgNew E prm (rnd.enc (o + (2 * a + 1))) (List.replicate n 0) pk =
        .ok (en (a + 1), w a)) ∧ (∀ a, EncOk prm (en a)) ∧
      (∀ a, IsX (companies numCompany).toFinset (g a) (topOf (g a)) ∧
        IsX (companies numCompany).toFinset (w a) (topOf (w a))) ∧
      ∀ a, TopX prm (topOf (g a)) ∧ TopX prm (topOf (w a)) := by
  have rl : (List.replicate n (0 : ℂ)).length = n := by simp
  have rz : ∀ x ∈ List.replicate n (0 : ℂ), ‖x‖ ≤ M := by
    intro x hx
    rw [List.eq_of_mem_replicate hx]; simpa using hM
  obtain ⟨en, h0, hen⟩ := exists_seq (Inv := EncOk prm) (P := fun a s s' => ∃ (mid : CEnc C) (g w : CCt C),
      s.EncryptMsgNew E prm (rnd.enc (o + 2 * a)) (List.replicate n 0) pk = .ok (mid, g) ∧
      mid.EncryptMsgNew E prm (rnd.enc (o + (2 * a + 1))) (List.replicate n 0) pk = .ok (s', w) ∧
      (IsX (companies numCompany).toFinset g (topOf g) ∧ IsX (companies numCompany).toFinset w (topOf w)) ∧
      TopX prm (topOf g) ∧ TopX prm (topOf w))
    (fun a s hs => by
      obtain ⟨s1, g, q1, o1, f1⟩ := X.enc1 hs (o + 2 * a) _ rl rz
      obtain ⟨s2, w, q2, o2, f2⟩ := X.enc1 o1 (o + (2 * a + 1)) _ rl rz
      obtain ⟨i1, u1⟩ := fresh_isX f1
      obtain ⟨i2, u2⟩ := fresh_isX f2
      exact ⟨s2, o2, s1, g, w, q1, q2, ⟨i1, i2⟩, u1, u2⟩) he
  have hen' := fun a => (hen a).2
  choose mid g w h1 h2 h3 h4 using hen'
  exact ⟨en, mid, g, w, h0, h1, h2, fun a => (hen a).1, h3, h4⟩

omit [NeZero n] in
/-- lr_minibatch.go, for all iteration orders and all roundings that agree where needed. -/
theorem mb_main_same {prm0 : CPar C} {logN : ℕ} {cfg : MbCfg} {rnd : MainRand C} {data : List (List ℂ)}
    {labels : List ℂ} {r : ℚ} {K : ℕ} {D B : ℤ} (h : MbOk E prm0 logN cfg rnd data labels r K D B M ε δ) :
    ∃ out, ∀ G, FlSame prm0 cfg.hp G → ∀ ids sch dec,
      mbMain E (prm0.withFl G) logN cfg (rnd.reorder ids sch dec) data labels = .ok out := by
  have hn2 := h.two
  have : NeZero cfg.numSlots := ⟨by omega⟩
  have hM0 : 0 ≤ M := zero_le_one.trans h.hyper.one
  have hlv := h.levels
  have hdr := h.drift
  have hps : (mainPar prm0 logN rnd).scale = prm0.scale := rfl
  have hpf : (mainPar prm0 logN rnd).fl = prm0.fl := rfl
  have hpc : (mainPar prm0 logN rnd).crs = setupCRS logN rnd.sample rnd.sample' := rfl
  have hpe : { prm0 with crs := (mainPar prm0 logN rnd).crs } = mainPar prm0 logN rnd := rfl
  generalize mainPar prm0 logN rnd = prm at hps hpf hpc hpe
  have H : Chain prm r K := by
    have := h.chain
    exact ⟨this.one, this.pos, this.pow, by rw [hps]; exact this.scale, by rw [hps]; exact this.lo,
      by rw [hps]; exact this.hi⟩
  have hfl : prm.fl.Ok := by rw [hpf]; exact h.fl
  obtain ⟨l, el, ll, lt, -⟩ := relabel_spec cfg.isCls h.labelLen
  obtain ⟨ids, kb, pk, X⟩ := main_keys h.toRunOk hps hpf hpc
  obtain ⟨pz, pl, zl, zM, -, h01⟩ := mb_packs h ll lt
  obtain ⟨-, row, -, erow, et, tl, tM, -⟩ := mb_values h H hfl (freshErr C prm0.scale B ε) ll lt
  have rl : (List.replicate cfg.numSlots (0 : ℂ)).length = cfg.numSlots := by simp
  have rz : ∀ x ∈ List.replicate cfg.numSlots (0 : ℂ), ‖x‖ ≤ M := by
    intro x hx
    rw [List.eq_of_mem_replicate hx]; simpa using hM0
  obtain ⟨e1, beta, q1, o1, f1⟩ := X.enc1 (enc := CEnc.new prm) ⟨rfl, rfl⟩ 0 _ rl rz
  obtain ⟨e2, v, q2, o2, f2⟩ := X.enc1 o1 1 _ rl rz
  obtain ⟨e3, zc, z0, q3, -, o3, f3⟩ := encryptZ_env X X rfl pz zl zM
    (fun b i => 5 + b * cfg.shape.numCtPerBatch + i) (fun b i => 2 + b * cfg.shape.numCtPerBatch + i) o2
  obtain ⟨lv, elv, -⟩ := labelVectors_spec pl
  obtain ⟨e4, c5, q4, o4, f4⟩ := X.enc1' o3 2 _ _ (h.hyper.near5 X.fl)
  obtain ⟨e5, c9, q5, o5, f5⟩ := X.enc1' o4 3 _ _ (h.hyper.near9 X.fl)
  obtain ⟨en, mid, g, w, rfl, hg, hw, hen, hzX, hzT⟩ := zeros_seq X hM0
    (5 + cfg.shape.numBatch * cfg.shape.numCtPerBatch) o5
  obtain ⟨e6, ct, q6, -, f6⟩ := X.encAll (hen cfg.numIter) 1 4 (mbTest cfg data) tl tM
  obtain ⟨i1, u1⟩ := fresh_isX f1
  obtain ⟨i2, u2⟩ := fresh_isX f2
  have u3 : ∀ b i, TopX prm (topOf (at2 beta zc b i)) := fun b i => (at2_rel f3 ⟨u1, i1⟩ b i).1
  obtain ⟨i4, u4⟩ := fresh_isX f4
  obtain ⟨i5, u5⟩ := fresh_isX f5
  obtain ⟨-, u6⟩ := fresh_isX f6
  have hkT := mainConsts_top E prm cfg.hp cfg.numSlots cfg.maskW c5 c9 u4 u5
  have hkX := mainConsts_isX E prm cfg.hp cfg.numSlots cfg.maskW i4 i5
  generalize ekX : (mainConsts E prm cfg.hp cfg.numSlots cfg.maskW c5 c9).withCt (topOf c5) (topOf c9) = kX
    at hkT hkX
  have hdT := fun b i => mainData_top E prm cfg.hp (at2 beta zc b i) (at2 [] lv b i) (u3 b i)
  obtain ⟨dX, edX⟩ : ∃ dX : ℕ → ℕ → Data (XVal C) (RQ C × ℚ), dX = fun b i =>
      (mainData E prm cfg.hp (at2 beta zc b i) (at2 [] lv b i)).withCt (topOf (at2 beta zc b i)) := ⟨_, rfl⟩
  have hdT : ∀ b i, TopData prm (dX b i) := by
    rw [edX]; exact hdT
  have hdX : ∀ z' : List (List (CCt C)),
      (∀ b i, IsX (companies cfg.numCompany).toFinset (at2 beta z' b i) (topOf (at2 beta zc b i))) →
      ∀ b i, DataRel (IsX (companies cfg.numCompany).toFinset) Eq
        (mainData E prm cfg.hp (at2 beta z' b i) (at2 [] lv b i)) (dX b i) := by
    intro z' hz' b i
    rw [edX]
    exact mainData_isX E prm cfg.hp (at2 beta zc b i) (at2 [] lv b i) (hz' b i)
  obtain ⟨ra, hra⟩ := h.rows
  have hct := numCtPerBatch_pos h.batches (by rw [hra]; positivity)
  have hnb : cfg.shape.numBatch ≠ 0 := h.batches.ne'
  have htr : ∀ t, ∃ W : XVal C × XVal C, t ≤ cfg.numIter →
      (∀ G, SameOps prm G → mbTrain (xHE (prm.withFl G) kb.rk kb.rrk) kX cfg.shape.numDataPerCt
        cfg.shape.slotsPerData cfg.shape.numBatch cfg.shape.numCtPerBatch dX
        (fun a => (topOf (g a), topOf (w a))) t (topOf beta) (topOf v) = some W) ∧
      W.1.lvl = C.nQ - 1 - 4 * t ∧ W.2.lvl = C.nQ - 1 - 4 * t ∧ Near prm.scale r (kAfter t) W.1.scale := by
    intro t
    by_cases ht : t ≤ cfg.numIter
    · have h3 : 3 ^ t ≤ 3 ^ cfg.numIter := Nat.pow_le_pow_right (by norm_num) ht
      obtain ⟨W, hW⟩ := exact_mbTrain H h.good hfl hkT cfg.shape.numDataPerCt
        cfg.shape.slotsPerData cfg.shape.numBatch hct hdT (z := fun a => (topOf (g a), topOf (w a))) hzT u1 u2
        (t := t) (by omega) (by omega) (by unfold kAfter; omega) (rk := kb.rk) (rrk := kb.rrk)
        (u := crsAt prm.crs (-1)) (ra := fun i => crsAt prm.crs i)
      exact ⟨W, fun _ => hW⟩
    · exact ⟨(topOf beta, topOf v), fun h => absurd h ht⟩
  choose W hW using htr
  obtain ⟨R, hR, hRl⟩ := exact_infer H h.good hfl hkT cfg.numFeature u6 (hW cfg.numIter le_rfl).2.1 (by omega)
    (hW cfg.numIter le_rfl).2.2.2 (by omega) (by unfold kAfter; omega) (rk := kb.rk) (rrk := kb.rrk)
    (u := crsAt prm.crs (-1)) (ra := fun i => crsAt prm.crs i)
  have ol : 0 < (R.read E fun id => (rnd.party id).s).length := by
    rw [XVal.read, h.accurate.len]; omega
  have tl' : cfg.testId < l.length := by rw [ll]; exact lt_of_lt_of_le h.testId h.labelLen
  refine ⟨⟨(List.range cfg.numIter).map fun a => (((W (a + 1)).1.read E fun id => (rnd.party id).s).take 2,
      ((W (a + 1)).2.read E fun id => (rnd.party id).s).take 2), R.read E fun id => (rnd.party id).s,
    judge ((R.read E fun id => (rnd.party id).s).getD 0 0) (l.getD cfg.testId 0)⟩, fun G hG0 idsO sch dec => ?_⟩
  obtain ⟨ids', kb', pk', X'⟩ := main_keys (h.toRunOk.reorder idsO sch dec) hps hpf hpc
  obtain ⟨rfl, rfl, V⟩ := env_of h.toRunOk hps hpf hpc X idsO sch dec X'
  replace V := V.withFl G
  have hG : FlSame prm cfg.hp G := hG0.congr hps hpf
  have hpe' : { prm0.withFl G with crs := prm.crs } = prm.withFl G := congrArg (fun p => p.withFl G) hpe
  obtain ⟨e3', zc', z', q3a, q3', -, f3'⟩ := encryptZ_env X X' rfl pz zl zM
    (fun b i => 5 + b * cfg.shape.numCtPerBatch + i) (fun b i => 2 + b * cfg.shape.numCtPerBatch + i) o2
  obtain ⟨rfl, rfl⟩ : e3 = e3' ∧ zc = zc' := by
    have := Except.ok.inj (q3.symm.trans q3a)
    exact ⟨congrArg Prod.fst this, congrArg Prod.snd this⟩
  have i3 : ∀ b i, IsX (companies cfg.numCompany).toFinset (at2 beta z' b i) (topOf (at2 beta zc b i)) :=
    fun b i => (at2_rel f3' ⟨u1, i1⟩ b i).2
  obtain ⟨ct', q6', i6⟩ := expand_env q6 X' (hen cfg.numIter) rfl tl tM
  obtain ⟨st, t1, -, t2, t3, t4, t5, t6, t7⟩ := mbLoop_exact V h.accurate hn2 hkX hnb (sh := cfg.shape)
    (hdX z' i3) (rnd := fun t => rnd.enc (5 + cfg.shape.numBatch * cfg.shape.numCtPerBatch + t)) hg hw
    (zX := fun a => (topOf (g a), topOf (w a))) hzX i1 i2 sch dec (X := W) (T := cfg.numIter)
    (fun t ht => (hW t ht).1 G hG.ops) (fun t ht => ⟨(hW t ht).2.1, (hW t ht).2.2.1⟩) cfg.numIter le_rfl
  obtain ⟨res, m'', g1, g2, g3⟩ := infer_sim (realHE_exact V.x sch) hkX cfg.numFeature i6 t3 _ (hR G hG.ops) st.mach t2
  have g3 : IsX (companies cfg.numCompany).toFinset res R := g3
  obtain ⟨dec', d1, -⟩ := decrypt_exact h.good E t5 g3 (by omega) V.keyed V.sk (dec (2 * cfg.numIter))
  have hfd : ∀ c b i, mainData E (prm.withFl G) cfg.hp c (at2 [] lv b i) =
      mainData E prm cfg.hp c (at2 [] lv b i) := fun c b i => mainData_fl hG E c (labels01 pl h01 elv b i)
  have hgen := X'.gen
  rw [← hG.c5, ← withFl_fl prm0 G] at q4
  rw [← hG.c9, ← withFl_fl prm0 G] at q5
  unfold mbMain
  unfold MainRand.reorder at hgen q3' q6' ⊢
  simp only [el, X.ids_eq, hgen, hpe', encNew_fl, encMsg_fl, encMsgExpand_fl, encryptZ_fl, hfd, mainConsts_fl hG,
    V.pk, q1, q2, q3', elv, q4, q5, Go.ok_bind]
  erw [t1]
  simp only [Go.ok_bind, erow, et, t4, q6']
  erw [g1]
  simp only [Go.ok_bind, d1, idx_of_lt ol, idx_of_lt tl', Go.pure_eq, t7]
  rw [List.getD_eq_getElem _ _ ol, List.getD_eq_getElem _ _ tl']

omit [NeZero n] in
/-- The inference loop; `en` are the states of the encryptor, `c` the encryptions of the records. -/
theorem inferLoop_exact {scale : ℚ} (V : Env prm S rk rrk s pk kb) (hE : E.Accurate scale n M ε δ)
    (h2 : 2 ≤ n) {k : Consts (CCt C) (RQ C × ℚ)} {kX : Consts (XVal C) (RQ C × ℚ)}
    (hk : ConstsRel (IsX S) Eq k kX) {F : ℕ} {data : List (List ℂ)} {l : List ℂ} {beta : CCt C} {bX : XVal C}
    (hb : IsX S beta bX) {t L : ℕ} {test : ℕ → List ℂ} {R cX : ℕ → XVal C}
    (hrow : ∀ i < t, ∃ row, idx data i = .ok row ∧ packTest n F row = .ok (test i)) (hl : t ≤ l.length)
    {rnd : ℕ → EncRand C} {ids : ℕ → List String} {en : ℕ → CEnc C}
    (he : ∀ i < t, ∃ c, (en i).EncryptMsgNewExpand E prm (rnd i) (test i) pk (ids i) = .ok (en (i + 1), c) ∧
      IsX S c (cX i))
    (hR : ∀ i < t, infer (xHE prm rk rrk) kX F (cX i) bX = some (R i)) (hL : ∀ i < t, (R i).lvl = L)
    (sch dsch : ℕ → Sched) {mach : Mach C} {dec : CDec C}
    (hm : mach.Ok S rk) (hd : dec.pool.isNTT = false) (hdL : L ≤ dec.pool.level) :
    ∃ st, forUp t (inferStep E prm kb sch dsch rnd ids pk k n F data l beta) ⟨mach, dec, en 0, [], 0⟩ =
        .ok st ∧
      st.mach.Ok S rk ∧ st.dec.pool.isNTT = false ∧ L ≤ st.dec.pool.level ∧ st.enc = en t ∧
      st.results = (List.range t).map (fun i => (R i).read E s) ∧
      st.correct = ∑ i ∈ range t, judge (((R i).read E s).getD 0 0) (l.getD i 0) := by
  induction t with
  | zero => exact ⟨_, rfl, hm, hd, hdL, rfl, rfl, by simp⟩
  | succ t ih =>
    obtain ⟨st, e1, m1, d1, d2, o1, p1, p2⟩ := ih (fun i hi => hrow i (by omega)) (by omega)
      (fun i hi => he i (by omega)) (fun i hi => hR i (by omega)) (fun i hi => hL i (by omega))
    obtain ⟨row, erow, et⟩ := hrow t (by omega)
    obtain ⟨ct, q, f⟩ := he t (by omega)
    obtain ⟨res, m', g1, g2, g3⟩ := infer_sim (realHE_exact V.x sch) hk F f hb _ (hR t (by omega)) st.mach m1
    have g3 : IsX S res (R t) := g3
    obtain ⟨dec', y1, y2, y3⟩ := decrypt_exact V.x.good E d1 g3
      (by rw [hL t (by omega)]; exact d2) V.keyed V.sk (dsch t)
    have ol : 0 < ((R t).read E s).length := by
      rw [XVal.read, hE.len]; omega
    have tl : t < l.length := by omega
    refine ⟨⟨m', dec', en (t + 1), st.results ++ [(R t).read E s],
      st.correct + judge (((R t).read E s).getD 0 0) (l.getD t 0)⟩, ?_, g2, y2,
      by show L ≤ dec'.pool.level; rw [y3, hL t (by omega)], rfl, ?_, ?_⟩
    · show (forUp t (inferStep E prm kb sch dsch rnd ids pk k n F data l beta)
        ⟨mach, dec, en 0, [], 0⟩ >>= _) = _
      rw [e1]
      simp only [Go.ok_bind, inferStep, erow, et, o1, q]
      erw [g1]
      simp only [Go.ok_bind, y1, idx_of_lt ol, idx_of_lt tl, Go.pure_eq]
      rw [List.getD_eq_getElem _ _ ol, List.getD_eq_getElem _ _ tl]
    · show st.results ++ _ = _
      rw [p1, List.range_succ, List.map_append]
      rfl
    · show st.correct + _ = _
      rw [p2, sum_range_succ]

omit [NeZero n] in
/-- lr_minibatch_toy.go, for all iteration orders and all roundings that agree where needed. -/
theorem mb_toy_main_same {prm0 : CPar C} {sq : ℝ → ℝ} {logN : ℕ} {cfg : MbCfg} {rnd : MainRand C}
    {data0 data : List (List ℂ)} {labels : List ℂ} {r : ℚ} {K : ℕ} {D B : ℤ}
    (h : MbOk E prm0 logN cfg rnd data labels r K D B M ε δ) :
    ∃ out, ∀ G, FlSame prm0 cfg.hp G → normalise G sq cfg.numTrain (cfg.numTrain - 1) cfg.numFeature
        cfg.numData toyCols data0 = .ok data → ∀ ids sch dec,
      mbToyMain E (prm0.withFl G) sq logN cfg (rnd.reorder ids sch dec) data0 labels = .ok out := by
  have hn2 := h.two
  have : NeZero cfg.numSlots := ⟨by omega⟩
  have hM0 : 0 ≤ M := zero_le_one.trans h.hyper.one
  have hlv := h.levels
  have hdr := h.drift
  have hps : (mainPar prm0 logN rnd).scale = prm0.scale := rfl
  have hpf : (mainPar prm0 logN rnd).fl = prm0.fl := rfl
  have hpc : (mainPar prm0 logN rnd).crs = setupCRS logN rnd.sample rnd.sample' := rfl
  have hpe : { prm0 with crs := (mainPar prm0 logN rnd).crs } = mainPar prm0 logN rnd := rfl
  generalize mainPar prm0 logN rnd = prm at hps hpf hpc hpe
  have H : Chain prm r K := by
    have := h.chain
    exact ⟨this.one, this.pos, this.pow, by rw [hps]; exact this.scale, by rw [hps]; exact this.lo,
      by rw [hps]; exact this.hi⟩
  have hfl : prm.fl.Ok := by rw [hpf]; exact h.fl
  obtain ⟨l, el, ll, lt, -⟩ := relabel_spec cfg.isCls h.labelLen
  obtain ⟨ids, kb, pk, X⟩ := main_keys h.toRunOk hps hpf hpc
  obtain ⟨pz, pl, zl, zM, -, h01⟩ := mb_packs h ll lt
  have hinf := fun i (hi : i < cfg.numData) => (mb_values (h.at hi) H hfl (freshErr C prm0.scale B ε) ll lt).2
  have rl : (List.replicate cfg.numSlots (0 : ℂ)).length = cfg.numSlots := by simp
  have rz : ∀ x ∈ List.replicate cfg.numSlots (0 : ℂ), ‖x‖ ≤ M := by
    intro x hx
    rw [List.eq_of_mem_replicate hx]; simpa using hM0
  obtain ⟨e1, beta, q1, o1, f1⟩ := X.enc1 (enc := CEnc.new prm) ⟨rfl, rfl⟩ 0 _ rl rz
  obtain ⟨e2, v, q2, o2, f2⟩ := X.enc1 o1 1 _ rl rz
  obtain ⟨e3, zc, z0, q3, -, o3, f3⟩ := encryptZ_env X X rfl pz zl zM
    (fun b i => 4 + b * cfg.shape.numCtPerBatch + i) (fun b i => 1 + b * cfg.shape.numCtPerBatch + i) o2
  obtain ⟨lv, elv, -⟩ := labelVectors_spec pl
  obtain ⟨e4, c5, q4, o4, f4⟩ := X.enc1' o3 2 _ _ (h.hyper.near5 X.fl)
  obtain ⟨e5, c9, q5, o5, f5⟩ := X.enc1' o4 3 _ _ (h.hyper.near9 X.fl)
  obtain ⟨en, mid, g, w, rfl, hg, hw, hen, hzX, hzT⟩ := zeros_seq X hM0
    (4 + cfg.shape.numBatch * cfg.shape.numCtPerBatch) o5
  obtain ⟨es, hes0, hes⟩ := exists_seq (Inv := EncOk prm) (P := fun i e e' => ∃ c : CCt C, i < cfg.numData →
      e.EncryptMsgNewExpand E prm (rnd.enc (4 + cfg.shape.numBatch * cfg.shape.numCtPerBatch +
          2 * cfg.numIter + i)) (mbTest (cfg.at i) data) pk
        (rnd.ids.f (1 + cfg.shape.numBatch * cfg.shape.numCtPerBatch + i) (GoMap.keys ids)) = .ok (e', c) ∧
      TopX prm (topOf c))
    (fun i e he => by
      by_cases hi : i < cfg.numData
      · obtain ⟨row, w, -, -, h1, h2, -⟩ := hinf i hi
        obtain ⟨e', c, q, o, f⟩ := X.encAll he (1 + cfg.shape.numBatch * cfg.shape.numCtPerBatch + i)
          (4 + cfg.shape.numBatch * cfg.shape.numCtPerBatch + 2 * cfg.numIter + i) _ h1 h2
        exact ⟨e', o, c, fun _ => ⟨q, (fresh_isX f).2⟩⟩
      · exact ⟨e, he, beta, fun h => absurd h hi⟩) (hen cfg.numIter)
  have hes' := fun i => (hes i).2
  choose ct q6 using hes'
  obtain ⟨i1, u1⟩ := fresh_isX f1
  obtain ⟨i2, u2⟩ := fresh_isX f2
  have u3 : ∀ b i, TopX prm (topOf (at2 beta zc b i)) := fun b i => (at2_rel f3 ⟨u1, i1⟩ b i).1
  obtain ⟨i4, u4⟩ := fresh_isX f4
  obtain ⟨i5, u5⟩ := fresh_isX f5
  have hkT := mainConsts_top E prm cfg.hp cfg.numSlots cfg.maskW c5 c9 u4 u5
  have hkX := mainConsts_isX E prm cfg.hp cfg.numSlots cfg.maskW i4 i5
  generalize ekX : (mainConsts E prm cfg.hp cfg.numSlots cfg.maskW c5 c9).withCt (topOf c5) (topOf c9) = kX
    at hkT hkX
  have hdT := fun b i => mainData_top E prm cfg.hp (at2 beta zc b i) (at2 [] lv b i) (u3 b i)
  obtain ⟨dX, edX⟩ : ∃ dX : ℕ → ℕ → Data (XVal C) (RQ C × ℚ), dX = fun b i =>
      (mainData E prm cfg.hp (at2 beta zc b i) (at2 [] lv b i)).withCt (topOf (at2 beta zc b i)) := ⟨_, rfl⟩
  have hdT : ∀ b i, TopData prm (dX b i) := by
    rw [edX]; exact hdT
  have hdX : ∀ z' : List (List (CCt C)),
      (∀ b i, IsX (companies cfg.numCompany).toFinset (at2 beta z' b i) (topOf (at2 beta zc b i))) →
      ∀ b i, DataRel (IsX (companies cfg.numCompany).toFinset) Eq
        (mainData E prm cfg.hp (at2 beta z' b i) (at2 [] lv b i)) (dX b i) := by
    intro z' hz' b i
    rw [edX]
    exact mainData_isX E prm cfg.hp (at2 beta zc b i) (at2 [] lv b i) (hz' b i)
  obtain ⟨ra, hra⟩ := h.rows
  have hct := numCtPerBatch_pos h.batches (by rw [hra]; positivity)
  have hnb : cfg.shape.numBatch ≠ 0 := h.batches.ne'
  have htr : ∀ t, ∃ W : XVal C × XVal C, t ≤ cfg.numIter →
      (∀ G, SameOps prm G → mbTrain (xHE (prm.withFl G) kb.rk kb.rrk) kX cfg.shape.numDataPerCt
        cfg.shape.slotsPerData cfg.shape.numBatch cfg.shape.numCtPerBatch dX
        (fun a => (topOf (g a), topOf (w a))) t (topOf beta) (topOf v) = some W) ∧
      W.1.lvl = C.nQ - 1 - 4 * t ∧ W.2.lvl = C.nQ - 1 - 4 * t ∧ Near prm.scale r (kAfter t) W.1.scale := by
    intro t
    by_cases ht : t ≤ cfg.numIter
    · have h3 : 3 ^ t ≤ 3 ^ cfg.numIter := Nat.pow_le_pow_right (by norm_num) ht
      obtain ⟨W, hW⟩ := exact_mbTrain H h.good hfl hkT cfg.shape.numDataPerCt
        cfg.shape.slotsPerData cfg.shape.numBatch hct hdT (z := fun a => (topOf (g a), topOf (w a))) hzT u1 u2
        (t := t) (by omega) (by omega) (by unfold kAfter; omega) (rk := kb.rk) (rrk := kb.rrk)
        (u := crsAt prm.crs (-1)) (ra := fun i => crsAt prm.crs i)
      exact ⟨W, fun _ => hW⟩
    · exact ⟨(topOf beta, topOf v), fun h => absurd h ht⟩
  choose W hW using htr
  have hRe : ∀ i, ∃ R : XVal C, i < cfg.numData →
      (∀ G, SameOps prm G → infer (xHE (prm.withFl G) kb.rk kb.rrk) kX cfg.numFeature (topOf (ct i))
        (W cfg.numIter).1 = some R) ∧
      R.lvl = C.nQ - 1 - 4 * cfg.numIter - 3 := by
    intro i
    by_cases hi : i < cfg.numData
    · obtain ⟨R, hR⟩ := exact_infer H h.good hfl hkT cfg.numFeature (q6 i hi).2 (hW cfg.numIter le_rfl).2.1
        (by omega) (hW cfg.numIter le_rfl).2.2.2 (by omega) (by unfold kAfter; omega) (rk := kb.rk)
        (rrk := kb.rrk) (u := crsAt prm.crs (-1)) (ra := fun i => crsAt prm.crs i)
      exact ⟨R, fun _ => hR⟩
    · exact ⟨topOf beta, fun h => absurd h hi⟩
  choose R hR using hRe
  refine ⟨⟨(List.range cfg.numIter).map fun a => (((W (a + 1)).1.read E fun id => (rnd.party id).s).take 2,
      ((W (a + 1)).2.read E fun id => (rnd.party id).s).take 2),
    (List.range cfg.numData).map fun i => (R i).read E fun id => (rnd.party id).s,
    ∑ i ∈ range cfg.numData, judge (((R i).read E fun id => (rnd.party id).s).getD 0 0) (l.getD i 0)⟩,
    fun G hG0 hnorm idsO sch dec => ?_⟩
  obtain ⟨ids', kb', pk', X'⟩ := main_keys (h.toRunOk.reorder idsO sch dec) hps hpf hpc
  obtain ⟨rfl, rfl, V⟩ := env_of h.toRunOk hps hpf hpc X idsO sch dec X'
  replace V := V.withFl G
  have hG : FlSame prm cfg.hp G := hG0.congr hps hpf
  have hpe' : { prm0.withFl G with crs := prm.crs } = prm.withFl G := congrArg (fun p => p.withFl G) hpe
  obtain ⟨e3', zc', z', q3a, q3', -, f3'⟩ := encryptZ_env X X' rfl pz zl zM
    (fun b i => 4 + b * cfg.shape.numCtPerBatch + i) (fun b i => 1 + b * cfg.shape.numCtPerBatch + i) o2
  obtain ⟨rfl, rfl⟩ : e3 = e3' ∧ zc = zc' := by
    have := Except.ok.inj (q3.symm.trans q3a)
    exact ⟨congrArg Prod.fst this, congrArg Prod.snd this⟩
  have i3 : ∀ b i, IsX (companies cfg.numCompany).toFinset (at2 beta z' b i) (topOf (at2 beta zc b i)) :=
    fun b i => (at2_rel f3' ⟨u1, i1⟩ b i).2
  obtain ⟨st, t1, -, t2, t3, t4, t5, t6, t7⟩ := mbLoop_exact V h.accurate hn2 hkX hnb (sh := cfg.shape)
    (hdX z' i3) (rnd := fun t => rnd.enc (4 + cfg.shape.numBatch * cfg.shape.numCtPerBatch + t)) hg hw
    (zX := fun a => (topOf (g a), topOf (w a))) hzX i1 i2 sch dec (X := W) (T := cfg.numIter)
    (fun t ht => (hW t ht).1 G hG.ops) (fun t ht => ⟨(hW t ht).2.1, (hW t ht).2.2.1⟩) cfg.numIter le_rfl
  obtain ⟨it, j1, -, -, -, -, j2, j3⟩ := inferLoop_exact V h.accurate hn2 hkX (F := cfg.numFeature)
    (data := data) (l := l) t3 (t := cfg.numData) (L := C.nQ - 1 - 4 * cfg.numIter - 3)
    (test := fun i => mbTest (cfg.at i) data) (R := R) (cX := fun i => topOf (ct i))
    (fun i hi => by
      obtain ⟨row, w, h1, h2, -⟩ := hinf i hi
      exact ⟨row, h1, h2⟩)
    (by rw [ll]; exact h.labelLen)
    (rnd := fun i => rnd.enc (4 + cfg.shape.numBatch * cfg.shape.numCtPerBatch + 2 * cfg.numIter + i))
    (ids := fun i => (rnd.reorder idsO sch dec).ids.f
      (1 + cfg.shape.numBatch * cfg.shape.numCtPerBatch + i) (GoMap.keys ids')) (en := es)
    (fun i hi => by
      obtain ⟨row, w, -, -, h1, h2, -⟩ := hinf i hi
      rw [encMsgExpand_fl]
      exact expand_env (q6 i hi).1 X' (hes i).1 rfl h1 h2)
    (fun i hi => (hR i hi).1 G hG.ops) (fun i hi => (hR i hi).2) sch (fun i => dec (2 * cfg.numIter + i)) t2 t5
    (by omega)
  have hfd : ∀ c b i, mainData E (prm.withFl G) cfg.hp c (at2 [] lv b i) =
      mainData E prm cfg.hp c (at2 [] lv b i) := fun c b i => mainData_fl hG E c (labels01 pl h01 elv b i)
  have hgen := X'.gen
  rw [← hG.c5, ← withFl_fl prm0 G] at q4
  rw [← hG.c9, ← withFl_fl prm0 G] at q5
  rw [← withFl_fl prm0 G] at hnorm
  unfold mbToyMain
  unfold MainRand.reorder at hgen q3' j1 ⊢
  simp only [C53_columns, el, X.ids_eq, hgen, hpe', encNew_fl, encMsg_fl, encryptZ_fl, hfd, mainConsts_fl hG,
    V.pk, q1, q2, hnorm, q3', elv, q4, q5, Go.ok_bind]
  erw [t1]
  rw [hes0, ← t4] at j1
  simp only [Go.ok_bind]
  erw [j1]
  simp only [Go.ok_bind, Go.pure_eq, t7, j2, j3]

/-! ## C66 -/

omit [NeZero n] in
/-- **C66 (lr.go).** With the same samples every run of `main` prints the same numbers, whatever the
orders are in which the maps are visited. -/
theorem C66_lr_main {prm0 : CPar C} {logN : ℕ} {cfg : MainCfg} {rnd : MainRand C}
    {data : List (List ℂ)} {labels : List ℂ} {r : ℚ} {K : ℕ} {D B : ℤ}
    (h : MainOk E prm0 logN cfg rnd data labels r K D B M ε δ) :
    ∃ out, ∀ ids sch dec, lrMain E prm0 logN cfg (rnd.reorder ids sch dec) data labels = .ok out := by
  obtain ⟨out, ho⟩ := lr_main_same h
  exact ⟨out, ho prm0.fl (FlSame.refl _ _)⟩

omit [NeZero n] in
/-- **C66 (lr_toy.go).** With the same samples the printed slices, the result and the verdict are the same
in every run, whatever the orders are in which the maps are visited. -/
theorem C66_toy_main {prm0 : CPar C} {sq : ℝ → ℝ} {logN : ℕ} {cfg : MainCfg} {rnd : MainRand C}
    {data0 data : List (List ℂ)} {labels : List ℂ} {r : ℚ} {K : ℕ} {D B : ℤ}
    (hnorm : normalise prm0.fl sq cfg.hp.batchSize cfg.hp.batchSize cfg.numFeature cfg.numData toyCols
      data0 = .ok data)
    (h : MainOk E prm0 logN cfg rnd data labels r K D B M ε δ) (h210 : 210 ≤ cfg.slotNum) :
    ∃ out, ∀ ids sch dec,
      lrToyMain E prm0 sq logN cfg (rnd.reorder ids sch dec) data0 labels = .ok out := by
  obtain ⟨out, ho⟩ := toy_main_same (sq := sq) (data0 := data0) h h210
  exact ⟨out, ho prm0.fl (FlSame.refl _ _) hnorm⟩

omit [NeZero n] in
/-- **C66 (lr_minibatch.go).** With the same samples every run of `main` prints the same numbers, whatever
the orders are in which the maps are visited. -/
theorem C66_mb_main {prm0 : CPar C} {logN : ℕ} {cfg : MbCfg} {rnd : MainRand C} {data : List (List ℂ)}
    {labels : List ℂ} {r : ℚ} {K : ℕ} {D B : ℤ} (h : MbOk E prm0 logN cfg rnd data labels r K D B M ε δ) :
    ∃ out, ∀ ids sch dec, mbMain E prm0 logN cfg (rnd.reorder ids sch dec) data labels = .ok out := by
  obtain ⟨out, ho⟩ := mb_main_same h
  exact ⟨out, ho prm0.fl (FlSame.refl _ _)⟩

omit [NeZero n] in
/-- **C66 (lr_minibatch_toy.go).** With the same samples every run prints the same numbers, gets the same
result for every record and counts the same `correct`, whatever the orders are in which the maps are
visited. -/
theorem C66_mb_toy_main {prm0 : CPar C} {sq : ℝ → ℝ} {logN : ℕ} {cfg : MbCfg} {rnd : MainRand C}
    {data0 data : List (List ℂ)} {labels : List ℂ} {r : ℚ} {K : ℕ} {D B : ℤ}
    (hnorm : normalise prm0.fl sq cfg.numTrain (cfg.numTrain - 1) cfg.numFeature cfg.numData toyCols
      data0 = .ok data) (h : MbOk E prm0 logN cfg rnd data labels r K D B M ε δ) :
    ∃ out, ∀ ids sch dec, mbToyMain E prm0 sq logN cfg (rnd.reorder ids sch dec) data0 labels = .ok out := by
  obtain ⟨out, ho⟩ := mb_toy_main_same (sq := sq) (data0 := data0) h
  exact ⟨out, ho prm0.fl (FlSame.refl _ _) hnorm⟩

end MK.Lr
