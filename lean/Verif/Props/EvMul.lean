import Verif.Props.Rescale
import Verif.Props.Sets

/-!
# C06, C21 – C23: `MulRelinNew` and `MulRelinHoistedNew`
-/

noncomputable section

namespace MK

open Finset

variable {C : Ctx}

/-! ## Orders -/

theorem Sched.partyOrder (π : Sched) (n : ℕ) {ct : Ct C} (h : ct.value.WF) :
    ct.PartyOrder (π.f n (ct.value.keys.filter (· ≠ "0"))) := by
  have hp := π.perm n (ct.value.keys.filter (· ≠ "0"))
  refine ⟨hp.nodup_iff.mpr (h.filter _), fun id => ?_⟩
  rw [hp.mem_iff, mem_parties]
  simp

theorem Sched.mulOrd_ok (π : Sched) {op0 op1 out : Ct C} (h0 : op0.value.WF) (h1 : op1.value.WF) :
    (π.mulOrd op0 op1 out).Ok op0 op1 out where
  i0 := π.isOrder 0 _
  i1 := π.isOrder 1 _
  x := π.partyOrder 2 h0
  y := π.partyOrder 3 h1
  t0 := π.partyOrder 4 h0
  t1 := π.partyOrder 5 h1
  inv := π.isOrder 6 _
  e1 := π.partyOrder 7 h1
  e0 := π.partyOrder 8 h0

/-! ## Hoisted forms -/

/-- The level at which the digits of an operand are taken: the level of the product if there is
no hoisted form, else the level of the hoisted form. -/
def HoistAt (L : ℕ) (op : Ct C) (h : Option (HoistedCt C)) (Lh : ℕ) : Prop :=
  L ≤ Lh ∧ Lh < C.nQ ∧ (h = none → Lh = L) ∧ ∀ Hc, h = some Hc → IsHoisted Lh op Hc

theorem HoistAt.digSrc {L Lh : ℕ} {op : Ct C} {h : Option (HoistedCt C)} (H : HoistAt L op h Lh)
    {id : String} (hid : id ∈ op.parties) : DigSrc L op h (digit C Lh (op.comp id)) id := by
  cases h with
  | none => rw [H.2.2.1 rfl]; exact digSrc_none hid
  | some Hc =>
    obtain ⟨sk, h1, h2⟩ := H.2.2.2 Hc rfl id hid
    exact ⟨sk, h1, h2.mono H.1⟩

/-- The product as ring elements, with the digits taken at levels `L0` and `L1`. -/
def mulInAt (L L0 L1 : ℕ) (op0 op1 : Ct C) (rk : String → RelinKey C) (u : SwKey C) : MulIn C :=
  { mulInOf L op0 op1 rk u with
    h0 := fun id => digit C L0 (op0.comp id)
    h1 := fun id => digit C L1 (op1.comp id) }

/-- The keys of the parties in `S`. -/
def HasKeys (rlk : RlkSet C) (S : Finset String) (rk : String → RelinKey C) : Prop :=
  ∀ id ∈ S, rlk.value.get? id = some (rk id)

/-- Closed form of `MulRelinHoistedNew`. -/
theorem mulRelinHoistedNew_spec (hC : C.Good) {prm : CPar C} {ev : Ev C} (hok : ev.Ok)
    {a b : CCt C} {la lb La Lb n : ℕ} (wa : a.ct.Wf la false) (wb : b.ct.Wf lb false)
    {u : SwKey C} (hu : prm.crs.get? (-1) = some u) {rlk : RlkSet C} {rk : String → RelinKey C}
    (hrk : HasKeys rlk (a.ct.parties ∪ b.ct.parties) rk) {h0 h1 : Option (HoistedCt C)}
    (H0 : HoistAt (min la lb) a.ct h0 La) (H1 : HoistAt (min la lb) b.ct h1 Lb)
    (hn : RescaleBy prm.fl C.q prm.scale (prm.fl.rnd (a.scale * b.scale)) (min la lb) n)
    (π : Sched) :
    ∃ ev' r, ev.MulRelinHoistedNew prm a b h0 h1 rlk π = .ok (ev',
        ⟨r, scaleSeq prm.fl C.q (min la lb) (prm.fl.rnd (a.scale * b.scale)) n⟩) ∧ ev'.Ok ∧
      CtIs r (min la lb - n) (insert "0" (a.ct.parties ∪ b.ct.parties)) (fun id => divSeq (fun i =>
        ((mulInAt (min la lb) La Lb a.ct b.ct rk u).res id i).coeff) (min la lb) n) := by
  obtain ⟨out, e0, hout⟩ := newCiphertextBinary_spec wa wb (π.sub 0)
  have wout := hout.toWf (mem_insert_self _ _)
  set o := ((π.sub 1).sub 1).mulOrd a.ct b.ct out
  have hpre : MulPre a.ct b.ct out h0 h1 rlk rk o (mulInAt (min la lb) La Lb a.ct b.ct rk u) u :=
    { wf0 := ⟨la, min_le_left _ _, wa⟩
      wf1 := ⟨lb, min_le_right _ _, wb⟩
      wfOut := wout
      keysOut := fun id => by rw [hout.mem]; simp
      S0 := rfl
      S1 := rfl
      c0 := rfl
      c1 := rfl
      rk0 := fun id h => hrk id (mem_union_left _ h)
      rk1 := fun id h => hrk id (mem_union_right _ h)
      d := rfl
      b := rfl
      v := rfl
      u := rfl
      h0 := fun id h => H0.digSrc h
      h1 := fun id h => H1.digSrc h
      ord := Sched.mulOrd_ok _ wa.wf wb.wf }
  obtain ⟨ks', ct', e1, hks, hct⟩ := mulCore_spec hC hpre (lastHoisted_spec hC hu _) ev.ksw hok.ksw
  obtain ⟨err, pool, r, e2, hr, _⟩ := rescaleSelf_spec (prm := prm) (ms := prm.scale)
    (ct := ⟨ct', prm.fl.rnd (a.scale * b.scale)⟩) (ev := { ev with ksw := ks' })
    (mem_insert_self _ _) hct hn ((π.sub 1).sub 2)
  refine ⟨{ ev with ksw := ks', polyQ := pool },  r, ?_, ⟨hks, hok.pool⟩, hr⟩
  unfold Ev.MulRelinHoistedNew
  simp only [e0, Go.ok_bind]
  unfold Ev.mulRelinHoisted
  have hmin : min (min la lb) (min la lb) = min la lb := min_self _
  simp only [wa.level, wb.level, wout.level, Go.ok_bind, hmin, lt_irrefl, if_false, Go.pure_eq]
  have e1' : ev.ksw.MulAndRelinHoisted prm.crs a.ct b.ct h0 h1 rlk out o = .ok (ks', ct') := e1
  rw [show (((π.sub 1).sub 1).mulOrd a.ct b.ct out) = o from rfl]

  simp only [e1', Go.ok_bind, e2]
  rfl


/-- The loop storing digits in a pool. -/
theorem hoistInto_spec (hC : C.Good) {level : ℕ} {op : Ct C} {o : List String}
    (ho : o.Nodup) (hoP : ∀ id, id ∈ o ↔ id ∈ op.parties) {ks : KS C} (hks : ks.Ok)
    {pool : HoistedCt C} (hp : ∀ id ∈ op.parties, pool.has id = true) :
    ∃ ks' pool', hoistInto level op o (ks, pool) = .ok (ks', pool') ∧ ks'.Ok ∧
      IsHoisted level op pool' ∧ (∀ id, pool'.has id = pool.has id) := by
  have hoS : o.toFinset = op.parties := by ext id; rw [List.mem_toFinset, hoP]
  obtain ⟨s, e, h1, h2, h3⟩ := forEach_inv o ho (fun id (s : KS C × HoistedCt C) => do
      let a ← op.value.deref id
      let ad ← s.2.deref id
      let (ks, ad) := s.1.Decompose level a ad
      return (ks, s.2.set id ad)) (fun done s => s.1.Ok ∧
        (∀ id ∈ done, ∃ sk, s.2.get? id = some sk ∧ Holds level sk (digit C level (op.comp id))) ∧
        ∀ id, s.2.has id = pool.has id) (ks, pool)
    ⟨hks, by simp, fun _ => rfl⟩ (by
      rintro done a ⟨k, pl⟩ hnd ha ⟨i1, i2, i3⟩
      have haP : a ∈ op.parties := (hoP a).mp ha
      obtain ⟨p, hp'⟩ := GoMap.exists_get?_of_mem (mem_parties.mp haP).1
      obtain ⟨ad, had⟩ : ∃ ad, pl.get? a = some ad := by
        have := hp a haP
        rw [← i3] at this
        unfold GoMap.has at this
        exact Option.isSome_iff_exists.mp this
      obtain ⟨inv, hd1, hd2⟩ := decompose_spec hC k level p ad
      refine ⟨((k.Decompose level p ad).1, pl.set a (k.Decompose level p ad).2), ?_, ?_, ?_, ?_⟩
      · simp only [GoMap.deref_of_get? hp', GoMap.deref_of_get? had, Go.ok_bind, Go.pure_eq]
      · exact i1.decompose level p ad
      · intro id hid
        by_cases hida : id = a
        · subst hida
          refine ⟨_, GoMap.get?_set_self _ _ _, ?_⟩
          have : op.comp id = p.val C.nttQ := by funext i; exact Ct.comp_of_get? hp' i
          rw [this]; exact hd2
        · obtain ⟨sk, q1, q2⟩ := i2 id (by simpa [hida] using hid)
          exact ⟨sk, by rw [GoMap.get?_set_of_ne _ _ hida]; exact q1, q2⟩
      · intro id
        unfold GoMap.has at i3 ⊢
        by_cases hida : id = a
        · subst hida
          rw [GoMap.get?_set_self, ← i3, had]; rfl
        · rw [GoMap.get?_set_of_ne _ _ hida]; exact i3 id)
  exact ⟨s.1, s.2, e, h1, fun id hid => h2 id (by rw [hoS]; exact hid), h3⟩

/-- Keys and pools of the parties in `S` are present (C06). -/
structure RlkFor (rlk : RlkSet C) (S : Finset String) (rk : String → RelinKey C) : Prop where
  keys : HasKeys rlk S rk
  pool0 : ∀ id ∈ S, rlk.pool0.has id = true
  pool1 : ∀ id ∈ S, rlk.pool1.has id = true

/-- Closed form of `MulRelinNew`, both for different objects and for the same object. -/
theorem mulRelinNew_spec (hC : C.Good) {prm : CPar C} {ev : Ev C} (hok : ev.Ok)
    {a b : CCt C} {la lb n : ℕ} (same : Bool) (hsame : same = true → a = b) (wa : a.ct.Wf la false)
    (wb : b.ct.Wf lb false) (hla : la < C.nQ) (hlb : lb < C.nQ)
    {u : SwKey C} (hu : prm.crs.get? (-1) = some u) {rlk : RlkSet C} {rk : String → RelinKey C}
    (hrk : RlkFor rlk (a.ct.parties ∪ b.ct.parties) rk)
    (hn : RescaleBy prm.fl C.q prm.scale (prm.fl.rnd (a.scale * b.scale)) (min la lb) n)
    (π : Sched) :
    ∃ ev' rlk' r, ev.MulRelinNew prm a b same rlk π = .ok (ev', rlk',
        ⟨r, scaleSeq prm.fl C.q (min la lb) (prm.fl.rnd (a.scale * b.scale)) n⟩) ∧ ev'.Ok ∧
      (rlk'.value = rlk.value ∧ (∀ id, rlk'.pool0.has id = rlk.pool0.has id) ∧
        ∀ id, rlk'.pool1.has id = rlk.pool1.has id) ∧
      CtIs r (min la lb - n) (insert "0" (a.ct.parties ∪ b.ct.parties)) (fun id => divSeq (fun i =>
        ((mulInAt (min la lb) la lb a.ct b.ct rk u).res id i).coeff) (min la lb) n) := by
  obtain ⟨ids0, e0, w0, m0⟩ := a.ct.IDSet_parties (π.isOrder 0 a.ct.value)
  have ho0 := π.isOrder 1 ids0
  obtain ⟨ks0, p0, eh0, hks0, hh0, hp0⟩ := hoistInto_spec hC (level := la) (ho0.nodup w0)
    (fun id => (ho0.mem).trans (m0 id)) hok.ksw
    (pool := rlk.pool0) (fun id h => hrk.pool0 id (mem_union_left _ h))
  cases same with
  | true =>
    have := hsame rfl
    subst this
    have hll : la = lb := by
      have := wa.level.symm.trans wb.level
      injection this
    subst hll
    have hat : HoistAt (min la la) a.ct (some p0) la :=
      ⟨by simp, hla, by simp, fun Hc h => by cases h; exact hh0⟩
    obtain ⟨ev', r, e1, hev, hr⟩ := mulRelinHoistedNew_spec hC (prm := prm)
      (ev := { ev with ksw := ks0 }) ⟨hks0, hok.pool⟩ wa wa hu
      (rlk := { rlk with pool0 := p0 }) hrk.keys hat hat hn (π.sub 2)
    refine ⟨ev', { rlk with pool0 := p0 }, r, ?_, hev, ⟨rfl, hp0, fun _ => rfl⟩, hr⟩
    unfold Ev.MulRelinNew
    rw [if_pos rfl]
    simp only [e0, wa.level, eh0, Go.ok_bind, e1, Go.pure_eq]
  | false =>
    obtain ⟨ids1, e1, w1, m1⟩ := b.ct.IDSet_parties (π.isOrder 3 b.ct.value)
    have ho1 := π.isOrder 4 ids1
    obtain ⟨ks1, p1, eh1, hks1, hh1, hp1⟩ := hoistInto_spec hC (level := lb) (ho1.nodup w1)
      (fun id => (ho1.mem).trans (m1 id)) hks0
      (pool := rlk.pool1) (fun id h => hrk.pool1 id (mem_union_right _ h))
    have hat0 : HoistAt (min la lb) a.ct (some p0) la :=
      ⟨min_le_left _ _, hla, by simp, fun Hc h => by cases h; exact hh0⟩
    have hat1 : HoistAt (min la lb) b.ct (some p1) lb :=
      ⟨min_le_right _ _, hlb, by simp, fun Hc h => by cases h; exact hh1⟩
    obtain ⟨ev', r, e2, hev, hr⟩ := mulRelinHoistedNew_spec hC (prm := prm)
      (ev := { ev with ksw := ks1 }) ⟨hks1, hok.pool⟩ wa wb hu
      (rlk := { rlk with pool0 := p0, pool1 := p1 }) hrk.keys hat0 hat1 hn (π.sub 2)
    refine ⟨ev', { rlk with pool0 := p0, pool1 := p1 }, r, ?_, hev, ⟨rfl, hp0, hp1⟩, hr⟩
    unfold Ev.MulRelinNew
    rw [if_neg (by simp)]
    simp only [e0, e1, wa.level, wb.level, eh0, eh1, Go.ok_bind, e2, Go.pure_eq]

/-! ## C21 -/

/-- The noise law for the closed form. -/
theorem mulAt_phase (hC : C.Good) (hF : C.Fits) {a b : Ct C} {la lb : ℕ} {L La Lb : ℕ}
    (wa : a.Wf la false) (wb : b.Wf lb false) (hLa : L ≤ La) (hLb : L ≤ Lb) (hLa' : La < C.nQ)
    (hLb' : Lb < C.nQ) {rk : String → RelinKey C} {cr u : SwKey C}
    {s r : String → Nega C.N ℤ} {eb ed er : String → ℕ → Nega C.N ℤ}
    (hk : RelinFor (a.parties ∪ b.parties) rk cr u s r eb ed er) {D T B : ℤ}
    (hDa : ∀ k < C.beta La, (2 * blockSetProd C La k : ℤ) ≤ D)
    (hDb : ∀ k < C.beta Lb, (2 * blockSetProd C Lb k : ℤ) ≤ D)
    (hDL : ∀ k < C.beta L, (2 * blockSetProd C L k : ℤ) ≤ D)
    (hb : RelinBdd C (a.parties ∪ b.parties) s r eb ed er T B) :
    ∃ W : Nega C.N ℤ, (∀ x, C.P * |Nega.coeff W x| ≤
        mulNoise C L a.parties.card b.parties.card D D D T B) ∧
      ∀ i ≤ L, ringPhase (a.parties ∪ b.parties) (mulInAt L La Lb a b rk u).res s i =
        a.phase s i * b.phase s i + Nega.red (C.q i) W := by
  have conv : ∀ {L' : ℕ}, (∀ k < C.beta L', (2 * blockSetProd C L' k : ℤ) ≤ D) → digitBound C L' D :=
    fun h k hk' => by rw [blockProd_eq hC.alpha_pos' hk']; exact h k hk'
  obtain ⟨W, hW, hph⟩ := mul_phase hC hF (mulInAt L La Lb a b rk u) (lt_of_le_of_lt hLa hLa')
    (zero_notMem_parties _) (zero_notMem_parties _) hk rfl rfl rfl rfl
    (fun id _ => (digit_isDigits hC hLa' _).mono hLa) (fun id _ => (digit_isDigits hC hLb' _).mono hLb)
    (fun id _ k hk' => digit_Bdd hC hF (conv hDa) (lt_of_lt_of_le hk' (beta_mono hLa)) _)
    (fun id _ k hk' => digit_Bdd hC hF (conv hDb) (lt_of_lt_of_le hk' (beta_mono hLb)) _)
    (conv hDL) hb.s hb.r (fun id h k _ => hb.eb id h k) (fun id h k _ => hb.ed id h k)
    (fun id h k _ => hb.ev id h k)
  refine ⟨W, fun x => ?_, fun i hi => ?_⟩
  · have := hW x
    rw [Nega.coeff_natCast_mul, abs_mul, Nat.abs_cast] at this
    exact this
  · rw [phase_eq_ringPhase wa.zero_mem, phase_eq_ringPhase wb.zero_mem]
    exact hph i hi

/-- The largest digit at any level up to the top. -/
def digitMax (C : Ctx) (D : ℤ) : Prop :=
  ∀ L < C.nQ, ∀ k < C.beta L, (2 * blockSetProd C L k : ℤ) ≤ D

/-- **C21 (`MulRelinNew`).** For all ciphertexts `a`, `b` of any party sets and levels (different
objects, or the same object), all key sets holding the parties' generated keys, all scratch
contents and iteration orders: with `n` moduli dropped by the final rescaling (`n = 0` if
`Rescale` fails, which is ignored),
`(q_L ⋯ q_{L-n+1}) · phase(out) = phase(a)·phase(b) + W + Σ_k (q_L ⋯ q_{L-k+1}) e_k`
where `W` is the relinearization noise and the `e_k` are the rounding errors. If the operands
carry integer polynomials, the result carries one for which this holds over the integers. -/
theorem C21_MulRelinNew (hC : C.Good) (hF : C.Fits) {prm : CPar C} {ev : Ev C} (hok : ev.Ok)
    {a b : CCt C} {la lb n : ℕ} (same : Bool) (hsame : same = true → a = b) (wa : a.ct.Wf la false)
    (wb : b.ct.Wf lb false) (hla : la < C.nQ) (hlb : lb < C.nQ)
    {cr u : SwKey C} (hu : prm.crs.get? (-1) = some u) {rlk : RlkSet C} {rk : String → RelinKey C}
    (hrk : RlkFor rlk (a.ct.parties ∪ b.ct.parties) rk)
    {s r : String → Nega C.N ℤ} {eb ed er : String → ℕ → Nega C.N ℤ}
    (hk : RelinFor (a.ct.parties ∪ b.ct.parties) rk cr u s r eb ed er) {D T B : ℤ}
    (hD : digitMax C D) (hb : RelinBdd C (a.ct.parties ∪ b.ct.parties) s r eb ed er T B)
    (hn : RescaleBy prm.fl C.q prm.scale (prm.fl.rnd (a.scale * b.scale)) (min la lb) n)
    (π : Sched) :
    ∃ ev' rlk' out W, ev.MulRelinNew prm a b same rlk π = .ok (ev', rlk', out) ∧
      out.ct.Wf (min la lb - n) false ∧ out.ct.parties = a.ct.parties ∪ b.ct.parties ∧
      out.scale = scaleSeq prm.fl C.q (min la lb) (prm.fl.rnd (a.scale * b.scale)) n ∧
      (∀ x, C.P * |Nega.coeff W x| ≤
        mulNoise C (min la lb) a.ct.parties.card b.ct.parties.card D D D T B) ∧
      ∃ e : ℕ → Nega C.N ℤ,
        (∀ k < n, Nega.Bdd (e k) (((C.q (min la lb - k) / 2 : ℕ) : ℤ) *
          (1 + (a.ct.parties ∪ b.ct.parties).card * C.N * T))) ∧
        (∀ i ≤ min la lb - n,
          ((∏ m ∈ range n, C.q (min la lb - m) : ℕ) : Nega C.N (ZMod (C.q i))) * out.ct.phase s i =
          a.ct.phase s i * b.ct.phase s i + Nega.red (C.q i) (W +
            ∑ k ∈ range n, ((∏ m ∈ range k, C.q (min la lb - m) : ℕ) : Nega C.N ℤ) * e k)) ∧
        ∀ ma mb, a.ct.Carries s (min la lb) ma → b.ct.Carries s (min la lb) mb →
          ∃ m', out.ct.Carries s (min la lb - n) m' ∧
          ((∏ m ∈ range n, C.q (min la lb - m) : ℕ) : Nega C.N ℤ) * m' = ma * mb + (W +
            ∑ k ∈ range n, ((∏ m ∈ range k, C.q (min la lb - m) : ℕ) : Nega C.N ℤ) * e k) := by
  have hL : min la lb < C.nQ := lt_of_le_of_lt (min_le_left _ _) hla
  obtain ⟨ev', rlk', rr, e, _, _, hr⟩ := mulRelinNew_spec hC hok same hsame wa wb hla hlb hu hrk hn π
  have hS : "0" ∉ a.ct.parties ∪ b.ct.parties := by
    rw [mem_union, not_or]
    exact ⟨zero_notMem_parties _, zero_notMem_parties _⟩
  obtain ⟨W, hW, hWp⟩ := mulAt_phase hC hF wa wb (min_le_left la lb) (min_le_right la lb) hla hlb hk
    (hD la hla) (hD lb hlb) (hD _ hL) hb
  obtain ⟨ek, hek, hph⟩ := divs_phase hC hL (S := a.ct.parties ∪ b.ct.parties) (fun id i =>
    ((mulInAt (min la lb) la lb a.ct b.ct rk u).res id i).coeff) hb.s
  have hout : ∀ i ≤ min la lb - n, rr.phase s i = ringPhase (a.ct.parties ∪ b.ct.parties)
      (fun id i => ⟨divSeq (fun i => ((mulInAt (min la lb) la lb a.ct b.ct rk u).res id i).coeff)
        (min la lb) n i⟩) s i := fun i hi =>
    CtIs.phase (F := fun id i => ⟨divSeq (fun i =>
      ((mulInAt (min la lb) la lb a.ct b.ct rk u).res id i).coeff) (min la lb) n i⟩) hS hr s hi
  refine ⟨ev', rlk', _, W, e, hr.toWf (mem_insert_self _ _), hr.parties hS, rfl, hW, ek,
    fun k _ => hek k, fun i hi => ?_, fun ma mb hma hmb => ?_⟩
  · rw [hout i hi, (hph n hn.le).1 i hi, map_add, ← add_assoc, ← hWp i (hi.trans (Nat.sub_le _ _))]
  · obtain ⟨m', h1, h2⟩ := (hph n hn.le).2 (ma * mb + W) fun i hi => by
      rw [map_add, map_mul, ← hma i hi, ← hmb i hi, ← hWp i hi]
    exact ⟨m', fun i hi => (hout i hi).trans (h2 i hi), by rw [h1, add_assoc]⟩

/-! ## C22 -/

theorem Ct.Same.parties {a b : Ct C} (h : a.Same b) : a.parties = b.parties := by
  ext id
  rw [mem_parties, mem_parties]
  have := h.none_iff id
  rw [GoMap.get?_eq_none_iff, GoMap.get?_eq_none_iff] at this
  tauto

/-- **C22.** `MulRelinNew(ct, ct)` with one object (and therefore one shared hoisting pool)
returns the same ciphertext as multiplying `ct` with its copy `CopyNew(ct)`, whatever the
evaluators and pools of both calls contain. -/
theorem C22_square (hC : C.Good) {prm : CPar C} {ev ev' : Ev C} (hok : ev.Ok) (hok' : ev'.Ok)
    {a : CCt C} {la n : ℕ} (wa : a.ct.Wf la false) (hla : la < C.nQ)
    {u : SwKey C} (hu : prm.crs.get? (-1) = some u) {rlk rlk' : RlkSet C}
    {rk : String → RelinKey C} (hrk : RlkFor rlk a.ct.parties rk) (hrk' : RlkFor rlk' a.ct.parties rk)
    (hn : RescaleBy prm.fl C.q prm.scale (prm.fl.rnd (a.scale * a.scale)) la n)
    (π π' : Sched) {o : List String} (ho : a.ct.value.IsOrder o) :
    ∃ b e1 e2 k1 k2 r1 r2, a.CopyNew o = .ok b ∧
      ev.MulRelinNew prm a a true rlk π = .ok (e1, k1, r1) ∧
      ev'.MulRelinNew prm a b false rlk' π' = .ok (e2, k2, r2) ∧
      r1.ct.Same r2.ct ∧ r1.scale = r2.scale := by
  obtain ⟨c, ec, wc, gc⟩ := a.ct.CopyNew_spec wa.zero_mem ho
  have hmem := fun id => Ct.mem_keys_congr gc id
  have hwf : c.Wf la false := ⟨wc, (hmem _).mpr wa.zero_mem,
    fun id p hp => wa.len id p (by rw [← gc]; exact hp),
    fun id p hp => wa.ntt id p (by rw [← gc]; exact hp)⟩
  have hpar : c.parties = a.ct.parties := by
    ext id; rw [mem_parties, mem_parties, hmem]
  have hcomp : c.comp = a.ct.comp := by
    funext id i; unfold Ct.comp; rw [gc]
  have hu1 : a.ct.parties ∪ a.ct.parties = a.ct.parties := union_self _
  rw [← min_self la] at hn
  obtain ⟨e1, k1, r1, q1, _, _, hr1⟩ := mulRelinNew_spec hC hok true (fun _ => rfl) wa wa hla hla hu
    (by rw [hu1]; exact hrk) hn π
  obtain ⟨e2, k2, r2, q2, _, _, hr2⟩ := mulRelinNew_spec hC hok' false (b := ⟨c, a.scale⟩) (by simp)
    wa hwf hla hla hu (by rw [show (CCt.mk c a.scale).ct.parties = a.ct.parties from hpar, hu1]; exact hrk')
    hn π'
  refine ⟨⟨c, a.scale⟩, e1, e2, k1, k2, _, _, ?_, q1, q2, ?_, rfl⟩
  · unfold CCt.CopyNew; rw [ec]; rfl
  · have hin : mulInAt (min la la) la la a.ct c rk u = mulInAt (min la la) la la a.ct a.ct rk u := by
      unfold mulInAt mulInOf
      rw [hcomp, hpar]
    rw [show (CCt.mk c a.scale).ct.parties = a.ct.parties from hpar,
      show (CCt.mk c a.scale).ct = c from rfl, hin] at hr2
    exact hr1.same hr2

/-! ## C23 -/

/-- **C23 (`MulRelinHoistedNew`).** With hoisted forms made at the operands' levels, the hoisted
product is exactly `MulRelinNew`'s. -/
theorem C23_MulRelinHoistedNew (hC : C.Good) {prm : CPar C} {ev ev' : Ev C} (hok : ev.Ok)
    (hok' : ev'.Ok) {a b : CCt C} {la lb n : ℕ} (same : Bool) (hsame : same = true → a = b)
    (wa : a.ct.Wf la false) (wb : b.ct.Wf lb false) (hla : la < C.nQ) (hlb : lb < C.nQ)
    {u : SwKey C} (hu : prm.crs.get? (-1) = some u) {rlk rlk' : RlkSet C}
    {rk : String → RelinKey C} (hrk : RlkFor rlk (a.ct.parties ∪ b.ct.parties) rk)
    (hrk' : HasKeys rlk' (a.ct.parties ∪ b.ct.parties) rk)
    {ha hb : HoistedCt C} (Ha : IsHoisted la a.ct ha) (Hb : IsHoisted lb b.ct hb)
    (hn : RescaleBy prm.fl C.q prm.scale (prm.fl.rnd (a.scale * b.scale)) (min la lb) n)
    (π π' : Sched) :
    ∃ e1 e2 k1 r1 r2, ev.MulRelinNew prm a b same rlk π = .ok (e1, k1, r1) ∧
      ev'.MulRelinHoistedNew prm a b (some ha) (some hb) rlk' π' = .ok (e2, r2) ∧
      r1.ct.Same r2.ct ∧ r1.scale = r2.scale := by
  obtain ⟨e1, k1, r1, q1, _, _, hr1⟩ := mulRelinNew_spec hC hok same hsame wa wb hla hlb hu hrk hn π
  obtain ⟨e2, r2, q2, _, hr2⟩ := mulRelinHoistedNew_spec hC hok' wa wb hu hrk'
    (h0 := some ha) (h1 := some hb) (La := la) (Lb := lb)
    ⟨min_le_left _ _, hla, by simp, fun Hc h => by cases h; exact Ha⟩
    ⟨min_le_right _ _, hlb, by simp, fun Hc h => by cases h; exact Hb⟩ hn π'
  exact ⟨e1, e2, k1, _, _, q1, q2, hr1.same hr2, rfl⟩

/-- **C23 (either operand hoisted or not).** For operands of equal level, `nil` and a hoisted form
give the same result for either operand: any two choices agree with each other. -/
theorem C23_MulRelinHoistedNew_nil (hC : C.Good) {prm : CPar C} {ev ev' : Ev C} (hok : ev.Ok)
    (hok' : ev'.Ok) {a b : CCt C} {l n : ℕ} (wa : a.ct.Wf l false) (wb : b.ct.Wf l false)
    (hl : l < C.nQ) {u : SwKey C} (hu : prm.crs.get? (-1) = some u) {rlk rlk' : RlkSet C}
    {rk : String → RelinKey C} (hrk : HasKeys rlk (a.ct.parties ∪ b.ct.parties) rk)
    (hrk' : HasKeys rlk' (a.ct.parties ∪ b.ct.parties) rk)
    {ha ha' hb hb' : Option (HoistedCt C)} (Ha : HoistOpt l a.ct ha) (Hb : HoistOpt l b.ct hb)
    (Ha' : HoistOpt l a.ct ha') (Hb' : HoistOpt l b.ct hb')
    (hn : RescaleBy prm.fl C.q prm.scale (prm.fl.rnd (a.scale * b.scale)) l n) (π π' : Sched) :
    ∃ e1 e2 r1 r2, ev.MulRelinHoistedNew prm a b ha hb rlk π = .ok (e1, r1) ∧
      ev'.MulRelinHoistedNew prm a b ha' hb' rlk' π' = .ok (e2, r2) ∧
      r1.ct.Same r2.ct ∧ r1.scale = r2.scale := by
  have at' : ∀ {ct : Ct C} {h : Option (HoistedCt C)}, HoistOpt l ct h → HoistAt (min l l) ct h l :=
    fun H => ⟨by simp, hl, by simp, H⟩
  rw [← min_self l] at hn
  obtain ⟨e1, r1, q1, _, hr1⟩ := mulRelinHoistedNew_spec hC hok wa wb hu hrk (at' Ha) (at' Hb) hn π
  obtain ⟨e2, r2, q2, _, hr2⟩ := mulRelinHoistedNew_spec hC hok' wa wb hu hrk' (at' Ha') (at' Hb') hn π'
  exact ⟨e1, e2, _, _, q1, q2, hr1.same hr2, rfl⟩

/-- `HoistedForm` makes a hoisted form at the level of its argument. -/
theorem C23_HoistedForm (hC : C.Good) {ev : Ev C} (hok : ev.Ok) {a : CCt C} {la : ℕ}
    (wa : a.ct.Wf la false) (π : Sched) :
    ∃ ev' H, ev.HoistedForm a π = .ok (ev', H) ∧ ev'.Ok ∧ IsHoisted la a.ct H := by
  obtain ⟨ids, e0, w0, m0⟩ := a.ct.IDSet_parties (π.isOrder 0 a.ct.value)
  have ho := π.isOrder 1 ids
  have hoS : (π.f 1 (GoMap.keys ids)).toFinset = a.ct.parties := by
    ext id; rw [List.mem_toFinset, ho.mem, m0]
  obtain ⟨s, e, h1, h2⟩ := forEach_inv (π.f 1 (GoMap.keys ids)) (ho.nodup w0)
    (fun id (s : KS C × HoistedCt C) => do
      let H := s.2.set id SwKey.new
      let level ← a.ct.Level
      let p ← a.ct.value.deref id
      let ad ← H.deref id
      let (ks, ad) := s.1.Decompose level p ad
      return (ks, H.set id ad)) (fun done s => s.1.Ok ∧
        ∀ id ∈ done, ∃ sk, s.2.get? id = some sk ∧ Holds la sk (digit C la (a.ct.comp id)))
    (ev.ksw, GoMap.empty) ⟨hok.ksw, by simp⟩ (by
      rintro done x ⟨k, H⟩ hnd hx ⟨i1, i2⟩
      have hxP : x ∈ a.ct.parties := (m0 x).mp (ho.mem.mp hx)
      obtain ⟨p, hp⟩ := GoMap.exists_get?_of_mem (mem_parties.mp hxP).1
      obtain ⟨inv, hd1, hd2⟩ := decompose_spec hC k la p SwKey.new
      refine ⟨((k.Decompose la p SwKey.new).1, (H.set x SwKey.new).set x (k.Decompose la p SwKey.new).2),
        ?_, ?_, ?_⟩
      · simp only [wa.level, GoMap.deref_of_get? hp, GoMap.deref_of_get? (GoMap.get?_set_self H x SwKey.new),
          Go.ok_bind, Go.pure_eq]
      · exact i1.decompose la p SwKey.new
      · intro id hid
        by_cases hida : id = x
        · subst hida
          refine ⟨_, GoMap.get?_set_self _ _ _, ?_⟩
          have : a.ct.comp id = p.val C.nttQ := by funext i; exact Ct.comp_of_get? hp i
          rw [this]; exact hd2
        · obtain ⟨sk, q1, q2⟩ := i2 id (by simpa [hida] using hid)
          exact ⟨sk, by rw [GoMap.get?_set_of_ne _ _ hida, GoMap.get?_set_of_ne _ _ hida]; exact q1, q2⟩)
  refine ⟨{ ev with ksw := s.1 }, s.2, ?_, ⟨h1, hok.pool⟩, fun id hid => h2 id (by rw [hoS]; exact hid)⟩
  unfold Ev.HoistedForm
  rw [e0, Go.ok_bind, e]
  rfl

/-! ## C06 -/

theorem Go.panics_of_post {α : Type _} {x : Go α} (h : Go.Post x fun _ => False) : x.panics := by
  cases x with
  | error e => exact ⟨e, rfl⟩
  | ok a => exact (h a rfl).elim

theorem forEach_never {α σ : Type _} {body : α → σ → Go σ} {o : List α} {a : α} (ha : a ∈ o)
    (h : ∀ s, Go.Post (body a s) fun _ => False) (s : σ) :
    Go.Post (forEach o body s) fun _ => False := by
  induction o generalizing s with
  | nil => cases ha
  | cons b o ih =>
    rcases List.mem_cons.mp ha with rfl | ha'
    · exact Go.Post.bind (h s) fun _ hf => hf.elim
    · exact Go.Post.bind' fun s' => ih ha' s'

/-- Without the key of a participant of either operand a multiplication never returns. -/
theorem mulCore_never {η : Type _} {last : ℕ → SwKey C → String → KS C × Ct C → Go (KS C × Ct C)}
    (ks : KS C) {op0 op1 : Ct C} {h0 h1 : Option (HoistedCt C)} {rlk : RelinKeySet (RelinKey C) η}
    (ctOut : Ct C) {o : MulOrd} {id : String} (hid : id ∈ o.x ∨ id ∈ o.y)
    (hk : rlk.value.get? id = none) :
    Go.Post (ks.mulCore last op0 op1 h0 h1 rlk ctOut o) fun _ => False := by
  have hd : Go.Post (rlk.value.deref id) fun _ => False := by
    obtain ⟨e, he⟩ := (GoMap.deref_panics_iff _ _).mpr hk
    rw [he]; exact Go.Post.error
  unfold KS.mulCore
  refine Go.Post.bind' fun l => Go.Post.bind' fun l0 => ?_
  split
  · exact Go.Post.error
  refine Go.Post.bind' fun _ => Go.Post.bind' fun _ => ?_
  rcases hid with hid | hid
  · refine Go.Post.bind (forEach_never hid (fun s => ?_) _) fun _ h => h.elim
    exact Go.Post.bind' fun _ => Go.Post.bind hd fun _ h => h.elim
  · refine Go.Post.bind' fun _ => ?_
    refine Go.Post.bind (forEach_never hid (fun s => ?_) _) fun _ h => h.elim
    exact Go.Post.bind' fun _ => Go.Post.bind hd fun _ h => h.elim

/-- **C06 (`MulRelinNew` and unregistered parties).** If some participant of an operand has no
relinearization key, `MulRelinNew` panics, whatever the pools, evaluator and ciphertexts contain
(in particular after `DelRelinearizationKey`, which leaves the pools alone). -/
theorem C06_MulRelinNew_panics (prm : CPar C) (ev : Ev C) (a b : CCt C) (same : Bool)
    (rlk : RlkSet C) {id : String} (hid : id ∈ a.ct.parties ∪ b.ct.parties)
    (hk : rlk.value.get? id = none) (π : Sched) :
    (ev.MulRelinNew prm a b same rlk π).panics := by
  refine Go.panics_of_post ?_
  have hmem : ∀ (ct : Ct C) (σ : Sched) (n : ℕ), id ∈ ct.parties →
      id ∈ σ.f n (ct.value.keys.filter (· ≠ "0")) := by
    intro ct σ n h
    rw [(σ.perm n _).mem_iff, List.mem_filter]
    have := mem_parties.mp h
    exact ⟨this.1, by simpa using this.2⟩
  have core : ∀ (ev : Ev C) (h0 h1 : Option (HoistedCt C)) (rlk' : RlkSet C) (σ : Sched),
      rlk'.value = rlk.value →
      Go.Post (ev.MulRelinHoistedNew prm a b h0 h1 rlk' σ) fun _ => False := by
    intro ev h0 h1 rlk' σ hv
    unfold Ev.MulRelinHoistedNew
    refine Go.Post.bind' fun out => ?_
    unfold Ev.mulRelinHoisted
    refine Go.Post.bind' fun _ => Go.Post.bind' fun _ => Go.Post.bind' fun _ => ?_
    have key : ∀ (out' : Ct C) (σ' : Sched), Go.Post (KS.MulAndRelinHoisted prm.crs ev.ksw a.ct b.ct
        h0 h1 rlk' out' (σ'.mulOrd a.ct b.ct out')) fun _ => False := by
      intro out' σ'
      refine mulCore_never ev.ksw out' (id := id) ?_ (by rw [hv]; exact hk)
      rcases mem_union.mp hid with h | h
      · exact Or.inl (hmem a.ct _ _ h)
      · exact Or.inr (hmem b.ct _ _ h)
    dsimp only
    split
    · exact Go.Post.bind' fun out' => Go.Post.bind (key _ _) fun _ h => h.elim
    · exact Go.Post.bind' fun out' => Go.Post.bind (key _ _) fun _ h => h.elim
  unfold Ev.MulRelinNew
  split
  · refine Go.Post.bind' fun _ => Go.Post.bind' fun _ => Go.Post.bind' fun x => ?_
    exact Go.Post.bind (core _ _ _ _ _ rfl) fun _ h => h.elim
  · refine Go.Post.bind' fun _ => Go.Post.bind' fun _ => Go.Post.bind' fun _ => Go.Post.bind' fun x =>
      Go.Post.bind' fun _ => Go.Post.bind' fun y => ?_
    exact Go.Post.bind (core _ _ _ _ _ rfl) fun _ h => h.elim

/-- **C06 (`MulRelinNew` and registered parties).** After any history of added and deleted keys,
if every participant has a key the product is computed without panicking, for any schedule, unless
the scale exceeds the modulus chain (then `Rescale` panics, C17). -/
theorem C06_MulRelinNew_ok (hC : C.Good) {prm : CPar C} {ev : Ev C} (hok : ev.Ok)
    {a b : CCt C} {la lb n : ℕ} (same : Bool) (hsame : same = true → a = b) (wa : a.ct.Wf la false)
    (wb : b.ct.Wf lb false) (hla : la < C.nQ) (hlb : lb < C.nQ) {u : SwKey C}
    (hu : prm.crs.get? (-1) = some u) (h : List (KeyCall (RelinKey C)))
    (hreg : ∀ id ∈ a.ct.parties ∪ b.ct.parties, ∃ k, KeyCall.LastAdd RelinKey.id h id k)
    (hn : RescaleBy prm.fl C.q prm.scale (prm.fl.rnd (a.scale * b.scale)) (min la lb) n)
    (π : Sched) :
    ∃ x, ev.MulRelinNew prm a b same (runRelin RelinKey.id SwKey.new RelinKeySet.new h) π = .ok x := by
  set rlk : RlkSet C := runRelin RelinKey.id SwKey.new RelinKeySet.new h with hrlk
  have hget : ∀ id ∈ a.ct.parties ∪ b.ct.parties, ∃ k, rlk.get id = .ok k := by
    intro id hid
    obtain ⟨k, hk⟩ := hreg id hid
    exact ⟨k, ((C06_relin_keyset_history RelinKey.id SwKey.new h id).1 k).mpr hk⟩
  have hrk : RlkFor rlk (a.ct.parties ∪ b.ct.parties) (fun id => (rlk.value.get? id).getD
      ⟨"", SwKey.new, SwKey.new, SwKey.new⟩) := by
    refine ⟨fun id hid => ?_, fun id hid => ?_, fun id hid => ?_⟩
    · obtain ⟨k, hk⟩ := hget id hid
      unfold RelinKeySet.get at hk
      cases hg : rlk.value.get? id with
      | none => rw [hg] at hk; cases hk
      | some v => rfl
    · obtain ⟨⟨p, hp⟩, _⟩ := (C06_relin_keyset_history RelinKey.id SwKey.new h id).2.2 (hget id hid)
      unfold GoMap.deref at hp
      unfold GoMap.has
      cases hg : rlk.pool0.get? id with
      | none => rw [← hrlk, hg] at hp; cases hp
      | some v => rfl
    · obtain ⟨_, p, hp⟩ := (C06_relin_keyset_history RelinKey.id SwKey.new h id).2.2 (hget id hid)
      unfold GoMap.deref at hp
      unfold GoMap.has
      cases hg : rlk.pool1.get? id with
      | none => rw [← hrlk, hg] at hp; cases hp
      | some v => rfl
  obtain ⟨e1, k1, r1, q1, _⟩ := mulRelinNew_spec hC hok same hsame wa wb hla hlb hu hrk hn π
  exact ⟨_, q1⟩

end MK
