import Verif.CBench
import Verif.Props.CTestMore
import Verif.Props.Missing

/-!
# The benchmarks of mkckks, and its tests with the keys it generates (C73)
-/

noncomputable section

namespace MK.CT

open Finset Lr

variable {C : Ctx} {E : Encoder C (List ℂ)} {prm : CPar C} {kb : KeyBag C}
  {s e : String → Nega C.N ℤ} {S : List String} {enc : CEnc C} {dec : CDec C} {ev : Ev C}
  {users : List String} {d : ℕ → Draw C} {M ε δ W : ℝ}

/-! ## Loops -/

/-- A loop whose body keeps an invariant runs to its end; every result has the body's property. -/
theorem iterate_spec {σ ρ : Type _} {body : ℕ → σ → Go (σ × ρ)} {P : σ → Prop} {R : ρ → Prop}
    (hb : ∀ i s, P s → ∃ s' r, body i s = .ok (s', r) ∧ P s' ∧ R r) (n : ℕ) :
    ∀ (i : ℕ) (s : σ), P s → ∃ s' rs, iterate body i n s = .ok (s', rs) ∧ P s' ∧ rs.length = n ∧
      ∀ r ∈ rs, R r := by
  induction n with
  | zero => exact fun i s h => ⟨s, [], rfl, h, rfl, by simp⟩
  | succ n ih =>
    intro i s h
    obtain ⟨s1, r, e1, h1, hr⟩ := hb i s h
    obtain ⟨s2, rs, e2, h2, hl, hrs⟩ := ih (i + 1) s1 h1
    refine ⟨s2, r :: rs, ?_, h2, by simp [hl], ?_⟩
    · rw [iterate, e1, Go.ok_bind]
      dsimp only
      rw [e2]
      rfl
    · intro x hx
      rcases List.mem_cons.mp hx with rfl | hx
      exacts [hr, hrs x hx]

theorem doubling_spec {σ : Type _} {body : ℕ → σ → Go σ} {P : σ → Prop} {max : ℕ}
    (hb : ∀ k s, 0 < k → k ≤ max → P s → ∃ s', body k s = .ok s' ∧ P s') (k : ℕ) (s : σ) (h : P s) :
    ∃ s', doubling body max k s = .ok s' ∧ P s' := by
  induction hn : max + 1 - k using Nat.strong_induction_on generalizing k s with
  | _ n ih =>
    rw [doubling]
    split_ifs with hk
    · obtain ⟨s1, e1, h1⟩ := hb k s hk.1 hk.2 h
      obtain ⟨s2, e2, h2⟩ := ih (max + 1 - k * 2) (by omega) (k * 2) s1 h1 rfl
      exact ⟨s2, by rw [e1, Go.ok_bind, e2], h2⟩
    · exact ⟨s, rfl, h⟩

/-- `SubNew` leaves the evaluator in order. -/
theorem Sees.minus' (hC : C.Good) (hfl : prm.fl.Ok) {ev : Ev C} (hok : ev.Ok) {L : ℕ} {sc : ℚ}
    {a b : CCt C} {x y : ℕ → ℂ} {η θ : ℝ} (ha : Sees s S L sc a x η) (hb : Sees s S L sc b y θ)
    (π : Sched) : ∃ ev' r, ev.SubNew prm a b π = .ok (ev', r) ∧ ev'.Ok ∧
      Sees s S L sc r (fun j => x j - y j) (η + θ) := by
  have hsc : a.scale = b.scale := ha.scale.trans hb.scale.symm
  have I : BinIn prm ev a b L L := ⟨hok, ha.wf, hb.wf, ha.lt, hb.lt, hfl, by
    rw [hsc, alignInt_self]; norm_num, by rw [hsc, alignInt_self]; norm_num⟩
  obtain ⟨pool, r, e1, hp, -⟩ := subNew_spec hC I π
  obtain ⟨ev', r', e2, h2⟩ := ha.minus hC hfl hok hb π
  obtain ⟨rfl, rfl⟩ : { ev with pool := pool } = ev' ∧ (⟨r, max a.scale b.scale⟩ : CCt C) = r' := by
    have := e1.symm.trans e2
    simpa using this
  exact ⟨_, _, e1, ⟨hok.ksw, hp⟩, h2⟩

theorem sumDiff_spec (hC : C.Good) (hfl : prm.fl.Ok) {L : ℕ} {sc : ℚ} {x : CCt C → ℕ → ℂ} {η : ℝ}
    (π : ℕ → Sched) (cts : List (CCt C)) (hc : ∀ c ∈ cts, Sees s S L sc c (x c) η) :
    ∀ (i : ℕ) (ev : Ev C) (ct0 ct1 : CCt C) (y0 y1 : ℕ → ℂ) (θ : ℝ), ev.Ok →
      Sees s S L sc ct0 y0 θ → Sees s S L sc ct1 y1 θ →
    ∃ ev' r0 r1, sumDiff prm π i cts ev ct0 ct1 = .ok (ev', r0, r1) ∧ ev'.Ok ∧
      Sees s S L sc r0 (fun j => y0 j + (cts.map (x · j)).sum) (θ + cts.length * η) ∧
      Sees s S L sc r1 (fun j => y1 j - (cts.map (x · j)).sum) (θ + cts.length * η) := by
  induction cts with
  | nil =>
    intro i ev ct0 ct1 y0 y1 θ hok h0 h1
    exact ⟨ev, ct0, ct1, rfl, hok, by simpa using h0, by simpa using h1⟩
  | cons c l ih =>
    intro i ev ct0 ct1 y0 y1 θ hok h0 h1
    obtain ⟨ev1, a, e1, hok1, g0⟩ := h0.add hC hfl hok (hc c (by simp)) (π (2 * i))
    obtain ⟨ev2, b, e2, hok2, g1⟩ := h1.minus' hC hfl hok1 (hc c (by simp)) (π (2 * i + 1))
    obtain ⟨ev3, r0, r1, e3, hok3, k0, k1⟩ := ih (fun c hc' => hc c (by simp [hc'])) (i + 1) ev2 a b
      _ _ (θ + η) hok2 g0 g1
    refine ⟨ev3, r0, r1, ?_, hok3, k0.congr (fun j _ => ?_) (le_of_eq ?_),
      k1.congr (fun j _ => ?_) (le_of_eq ?_)⟩
    · rw [sumDiff, e1, Go.ok_bind]
      dsimp only
      rw [e2, Go.ok_bind]
      exact e3
    · simp only [List.map_cons, List.sum_cons]; ring
    · push_cast [List.length_cons]; ring
    · simp only [List.map_cons, List.sum_cons]; ring
    · push_cast [List.length_cons]; ring

theorem sumCts_spec (hC : C.Good) (hfl : prm.fl.Ok) {L : ℕ} {sc : ℚ} {x : CCt C → ℕ → ℂ} {η : ℝ}
    (π : ℕ → Sched) (cts : List (CCt C)) (hc : ∀ c ∈ cts, Sees s S L sc c (x c) η) :
    ∀ (i : ℕ) (ev : Ev C) (ct : CCt C) (y : ℕ → ℂ) (θ : ℝ), ev.Ok → Sees s S L sc ct y θ →
    ∃ ev' r, sumCts prm π i cts ev ct = .ok (ev', r) ∧ ev'.Ok ∧
      Sees s S L sc r (fun j => y j + (cts.map (x · j)).sum) (θ + cts.length * η) := by
  induction cts with
  | nil => exact fun i ev ct y θ hok h => ⟨ev, ct, rfl, hok, by simpa using h⟩
  | cons c l ih =>
    intro i ev ct y θ hok h
    obtain ⟨ev1, a, e1, hok1, g⟩ := h.add hC hfl hok (hc c (by simp)) (π i)
    obtain ⟨ev3, r, e3, hok3, k⟩ := ih (fun c hc' => hc c (by simp [hc'])) (i + 1) ev1 a
      _ (θ + η) hok1 g
    refine ⟨ev3, r, ?_, hok3, k.congr (fun j _ => ?_) (le_of_eq ?_)⟩
    · rw [sumCts, e1, Go.ok_bind]
      exact e3
    · simp only [List.map_cons, List.sum_cons]; ring
    · push_cast [List.length_cons]; ring

/-! ## Products -/

/-- What multiplication needs of keys and parameters. -/
structure MulKit (prm : CPar C) (rk : String → RelinKey C) (s : String → Nega C.N ℤ)
    (S : List String) (L : ℕ) (sc : ℚ) (D T B : ℤ) : Prop where
  fits : C.Fits
  D0 : 0 ≤ D
  T0 : 0 ≤ T
  B0 : 0 ≤ B
  digits : digitMax C D
  resc : RescaleBy prm.fl C.q prm.scale (prm.fl.rnd (sc * sc)) L 1
  keys : ∃ cr u r eb ed er, prm.crs.get? (-1) = some u ∧
    RelinFor S.toFinset rk cr u s r eb ed er ∧ RelinBdd C S.toFinset s r eb ed er T B

/-- The product of two ciphertexts of one level and scale: closed form shared by `MulRelinNew` and
`MulRelinHoistedNew`. -/
theorem Sees.mul (hC : C.Good) (hfl : prm.fl.Ok) {ev : Ev C} (hok : ev.Ok) {a b : CCt C} {L : ℕ}
    {sc : ℚ} (hsc : 0 < sc) {x y : ℕ → ℂ} {η θ X Y : ℝ} (ha : Sees s S L sc a x η)
    (hb : Sees s S L sc b y θ) (hX : ∀ j < C.N / 2, ‖x j‖ ≤ X) (hY : ∀ j < C.N / 2, ‖y j‖ ≤ Y)
    {rk : String → RelinKey C} {D T B : ℤ} (K : MulKit prm rk s S L sc D T B) {rlk : RlkSet C}
    (hrk : RlkFor rlk S.toFinset rk) (same : Bool) (hsame : same = true → a = b) (π : Sched) :
    ∃ ev' rlk' out, ev.MulRelinNew prm a b same rlk π = .ok (ev', rlk', out) ∧ ev'.Ok ∧
      RlkFor rlk' S.toFinset rk ∧
      Sees s S (L - 1) (prodScale prm.fl C.q L sc sc) out (fun j => x j * y j)
        (prodErr X Y η θ (mulEta C S.toFinset.card D T B L) (C.q L) sc sc
          (prodScale prm.fl C.q L sc sc)) := by
  obtain ⟨cr, u, r, eb, ed, er, hu, hk, hbd⟩ := K.keys
  obtain ⟨m, hm, hx⟩ := ha.val
  obtain ⟨m2, hm2, hy⟩ := hb.val
  have hsub := union_subset ha.sub hb.sub
  have hn' := K.resc
  have hss : sc * sc = a.scale * b.scale := by rw [ha.scale, hb.scale]
  rw [hss, ← min_self L] at hn'
  obtain ⟨ev', rlk', out, m', e1, w, hp, hsc', hm', herr⟩ := C21_MulRelinNew_slots hC K.fits hok
    same hsame ha.wf hb.wf ha.lt hb.lt hu (RlkFor.mono hsub hrk) (RelinFor.mono hsub hk) K.digits
    (RelinBdd.mono hsub hbd) hn' π hm hm2
  obtain ⟨ev3, rlk3, r3, e3, hok3, hpool, -⟩ := mulRelinNew_spec hC hok same hsame ha.wf hb.wf ha.lt
    hb.lt hu (RlkFor.mono hsub hrk) hn' π
  rw [e1] at e3
  simp only [Except.ok.injEq, Prod.mk.injEq] at e3
  obtain ⟨rfl, rfl, -⟩ := e3
  rw [min_self] at w hsc' hm' herr
  have hq : 0 < C.q L := hC.posQ _
  have hP : (0 : ℝ) < C.P := by exact_mod_cast hC.P_pos
  refine ⟨ev', rlk', out, e1, hok3, ⟨fun id hi => ?_, fun id hi => ?_, fun id hi => ?_⟩, w,
    by have := ha.lt; omega, fun id hi => ?_, ?_, m', hm', fun j hj => ?_⟩
  · rw [hpool.1]; exact hrk.keys id hi
  · rw [hpool.2.1]; exact hrk.pool0 id hi
  · rw [hpool.2.2]; exact hrk.pool1 id hi
  · rw [hp] at hi
    rcases mem_union.mp hi with h | h
    exacts [ha.parties id h, hb.parties id h]
  · rw [hsc', ← hss]; rfl
  · refine prod_show hsc hsc (prodScale_pos hfl hq hsc hsc) hq (hx j hj) (hy j hj) (hX j hj) (hY j hj) ?_
    have := herr j
    rw [prod_range_one, Nat.sub_zero] at this
    have h1 : ((mulNoise C L a.ct.parties.card b.ct.parties.card D D D T B : ℤ) : ℝ)
        ≤ (mulNoise C L S.toFinset.card S.toFinset.card D D D T B : ℤ) := by
      exact_mod_cast mulNoise_mono K.D0 K.T0 K.B0 (card_le_card ha.sub) (card_le_card hb.sub)
    have h2 : ((rescaleErr C L 1 (a.ct.parties ∪ b.ct.parties).card T : ℤ) : ℝ)
        ≤ (rescaleErr C L 1 S.toFinset.card T : ℤ) := by
      exact_mod_cast rescaleErr_mono K.T0 (card_le_card hsub)
    unfold mulEta
    have h3 : ‖(C.q L : ℂ) * islot m' j - islot m j * islot m2 j‖ ≤
        C.N * ((mulNoise C L a.ct.parties.card b.ct.parties.card D D D T B +
          C.P * rescaleErr C L 1 (a.ct.parties ∪ b.ct.parties).card T : ℤ) : ℝ) / C.P := by
      rw [le_div_iff₀ hP, mul_comm]
      exact_mod_cast this
    refine h3.trans ?_
    push_cast
    rw [mul_add, add_div]
    refine add_le_add (by gcongr) ?_
    rw [mul_left_comm, mul_div_assoc, mul_comm, div_mul_cancel₀ _ hP.ne']
    gcongr

/-- The hoisted product with both hoisted forms. -/
theorem Sees.mulHoisted (hC : C.Good) (hfl : prm.fl.Ok) {ev : Ev C} (hok : ev.Ok) {a b : CCt C}
    {L : ℕ} {sc : ℚ} (hsc : 0 < sc) {x y : ℕ → ℂ} {η θ X Y : ℝ} (ha : Sees s S L sc a x η)
    (hb : Sees s S L sc b y θ) (hX : ∀ j < C.N / 2, ‖x j‖ ≤ X) (hY : ∀ j < C.N / 2, ‖y j‖ ≤ Y)
    {rk : String → RelinKey C} {D T B : ℤ} (K : MulKit prm rk s S L sc D T B) {rlk : RlkSet C}
    (hrk : RlkFor rlk S.toFinset rk) {H0 H1 : HoistedCt C} (h0 : IsHoisted L a.ct H0)
    (h1 : IsHoisted L b.ct H1) (π : Sched) :
    ∃ ev' out, ev.MulRelinHoistedNew prm a b (some H0) (some H1) rlk π = .ok (ev', out) ∧ ev'.Ok ∧
      Sees s S (L - 1) (prodScale prm.fl C.q L sc sc) out (fun j => x j * y j)
        (prodErr X Y η θ (mulEta C S.toFinset.card D T B L) (C.q L) sc sc
          (prodScale prm.fl C.q L sc sc)) := by
  obtain ⟨ev2, rlk2, out2, e2, -, -, h2⟩ := ha.mul hC hfl hok hsc hb hX hY K hrk false (by simp) π
  obtain ⟨cr, u, r, eb, ed, er, hu, hk, hbd⟩ := K.keys
  have hsub := union_subset ha.sub hb.sub
  have hrk' := RlkFor.mono hsub hrk
  have hn' := K.resc
  have hss : sc * sc = a.scale * b.scale := by rw [ha.scale, hb.scale]
  rw [hss, ← min_self L] at hn'
  obtain ⟨ev3, rlk3, r3, e3, -, -, h3⟩ := mulRelinNew_spec hC hok false (by simp) ha.wf hb.wf ha.lt
    hb.lt hu hrk' hn' π
  obtain ⟨ev4, r4, e4, hok4, h4⟩ := mulRelinHoistedNew_spec hC hok ha.wf hb.wf hu hrk'.keys
    (h0 := some H0) (h1 := some H1) (La := L) (Lb := L)
    ⟨by simp, ha.lt, by simp, fun Hc hc => by cases hc; exact h0⟩
    ⟨by simp, hb.lt, by simp, fun Hc hc => by cases hc; exact h1⟩ hn' π
  rw [e2] at e3
  simp only [Except.ok.injEq, Prod.mk.injEq] at e3
  obtain ⟨-, -, rfl⟩ := e3
  rw [min_self] at h3 h4
  refine ⟨ev4, _, e4, hok4, h2.of_ctIs (F := fun id i => ⟨divSeq (fun i =>
        ((mulInAt L L L a.ct b.ct rk u).res id i).coeff) L 1 i⟩) ?_ h3 h4 rfl⟩
  simp [zero_notMem_parties]

/-! ## The vectors -/

/-- The test vectors, with the slots they really have. -/
theorem vectors_exact (hC : C.Good) (K : Keys kb s e S) (z : ℂ) (d : ℕ → Draw C)
    {users : List String} (hu : ∀ id ∈ users, id ∈ S) {enc : CEnc C} (he : EncOk prm enc) :
    ∃ enc' ms cts, ∃ x : CCt C → ℕ → ℂ, vectors E prm kb.pkSet z z d 0 users enc = .ok (enc', ms, cts) ∧
      EncOk prm enc' ∧ cts.length = users.length ∧
      (∀ c ∈ cts, Sees s S C.lq prm.scale c (x c) 0) ∧ ∀ c ∈ cts, c.ct.parties.Nonempty := by
  obtain ⟨enc', ms, cts, e1, he', l1, l2, hv⟩ := vectors_spec (E := E) (prm := prm) hC K z z d users hu
    0 enc he
  have hL : C.lq < C.nQ := by have := hC.nQ_pos; unfold Ctx.lq; omega
  have key : ∀ c ∈ cts, (∃ m : Nega C.N ℤ, Sees s S C.lq prm.scale c (fun j => islot m j / prm.scale) 0) ∧
      c.ct.parties.Nonempty := by
    intro c hc
    obtain ⟨k, hk, rfl⟩ := List.getElem_of_mem hc
    obtain ⟨m, ct, g1, g2, v⟩ := hv k (users[k]'(by omega)) (List.getElem?_eq_getElem _)
    obtain rfl : cts[k] = ct := by rw [List.getElem?_eq_getElem hk] at g2; exact Option.some.inj g2
    refine ⟨⟨_, v.wf, hL, ?_, v.scale, _, v.carries, fun j _ => by rw [sub_self, norm_zero]⟩, ?_⟩
    · rw [v.parties]
      intro id hid
      rw [mem_singleton.mp hid]
      exact hu _ (List.getElem_mem _)
    · rw [v.parties]; exact singleton_nonempty _
  have k1 : ∀ c, ∃ m : Nega C.N ℤ, c ∈ cts →
      Sees s S C.lq prm.scale c (fun j => islot m j / prm.scale) 0 := by
    intro c
    by_cases hc : c ∈ cts
    · obtain ⟨m, hm⟩ := (key c hc).1
      exact ⟨m, fun _ => hm⟩
    · exact ⟨0, fun h => absurd h hc⟩
  choose m hm using k1
  exact ⟨enc', ms, cts, fun c j => islot (m c) j / prm.scale, e1, he', l2, hm, fun c hc => (key c hc).2⟩

/-- The test vectors, with the slots of the message. -/
theorem vectors_sees (R : Ready E prm kb s e S enc dec ev users d M ε δ W) {z : ℂ} (hz : ‖z‖ ≤ M) :
    ∃ enc' ms cts, vectors E prm kb.pkSet z z d 0 users enc = .ok (enc', ms, cts) ∧
      EncOk prm enc' ∧ cts.length = users.length ∧
      ∀ c ∈ cts, Sees s S C.lq prm.scale c (fun _ => z) (ε + W / prm.scale) := by
  obtain ⟨enc', ms, cts, e1, he, l1, l2, hv⟩ := vectors_spec (E := E) R.good R.keys z z d users
    R.usersIn 0 enc R.encOk
  simp only [Nat.zero_add] at hv
  refine ⟨enc', ms, cts, e1, he, l2, fun c hc => ?_⟩
  obtain ⟨k, hk, rfl⟩ := List.getElem_of_mem hc
  obtain ⟨m, ct, g1, g2, v⟩ := hv k (users[k]'(by omega)) (List.getElem?_eq_getElem _)
  obtain rfl : cts[k] = ct := by rw [List.getElem?_eq_getElem hk] at g2; exact Option.some.inj g2
  exact v.sees R.good R.scale R.encoder (R.usersIn _ (List.getElem_mem _)) hz
    (R.noiseLe k _ (List.getElem?_eq_getElem _))

/-! ## `benchMulAndRelin` -/

section
variable {x : CCt C → ℕ → ℂ} {η X Y : ℝ} {cts : List (CCt C)} {ms : List (List ℂ)} {c c' : CCt C}
  {l : List (CCt C)} {enc' : CEnc C} {rk : String → RelinKey C} {D T B : ℤ} {rlk : RlkSet C}
  {pkSet : KeySet (PublicKey C)}

theorem benchMul_of (hC : C.Good) (hfl : prm.fl.Ok) (hs : 0 < prm.scale) (hok : ev.Ok)
    (K : MulKit prm rk s S C.lq prm.scale D T B) (hrk : RlkFor rlk S.toFinset rk)
    (hv : vectors E prm pkSet zBench zBench d 0 users enc = .ok (enc', ms, c :: l))
    (hc : ∀ a ∈ c :: l, Sees s S C.lq prm.scale a (x a) η)
    (hX : ∀ j < C.N / 2, ‖x c j + ((c :: l).map (x · j)).sum‖ ≤ X)
    (hY : ∀ j < C.N / 2, ‖x c j - ((c :: l).map (x · j)).sum‖ ≤ Y) (π πm : ℕ → Sched) (n : ℕ) :
    ∃ ev' rlk' rs, benchMulAndRelin E prm pkSet users d π πm n enc ev rlk =
        .ok (enc', ev', rlk', rs) ∧ ev'.Ok ∧ RlkFor rlk' S.toFinset rk ∧ rs.length = n ∧
      ∀ r ∈ rs, Sees s S (C.lq - 1) (prodScale prm.fl C.q C.lq prm.scale prm.scale) r
        (fun j => (x c j + ((c :: l).map (x · j)).sum) * (x c j - ((c :: l).map (x · j)).sum))
        (prodErr X Y (η + (c :: l).length * η) (η + (c :: l).length * η)
          (mulEta C S.toFinset.card D T B C.lq) (C.q C.lq) prm.scale prm.scale
          (prodScale prm.fl C.q C.lq prm.scale prm.scale)) := by
  obtain ⟨ev1, ct0, ct1, e1, hok1, h0, h1⟩ := sumDiff_spec hC hfl π (c :: l) hc 0 ev c c _ _ η hok
    (hc c (by simp)) (hc c (by simp))
  obtain ⟨⟨ev2, rlk2⟩, rs, e2, ⟨hok2, hrk2⟩, hl, hrs⟩ := iterate_spec
    (body := fun i (s : Ev C × RlkSet C) => do
      let (ev, rlk, r) ← s.1.MulRelinNew prm ct0 ct1 false s.2 (πm i)
      return ((ev, rlk), r))
    (P := fun s => s.1.Ok ∧ RlkFor s.2 S.toFinset rk) (fun i st hst => by
      obtain ⟨ev', rlk', out, g1, g2, g3, g4⟩ := h0.mul hC hfl hst.1 hs h1 hX hY K hst.2 false (by simp)
        (πm i)
      exact ⟨(ev', rlk'), out, by simp only [g1, Go.ok_bind, Go.pure_eq], ⟨g2, g3⟩, g4⟩)
    n 0 (ev1, rlk) ⟨hok1, hrk⟩
  refine ⟨ev2, rlk2, rs, ?_, hok2, hrk2, hl, hrs⟩
  unfold benchMulAndRelin
  simp only [hv, Go.ok_bind, e1]
  rw [e2]
  rfl

theorem benchMulHoisted_of (hC : C.Good) (hfl : prm.fl.Ok) (hs : 0 < prm.scale) (hok : ev.Ok)
    (K : MulKit prm rk s S C.lq prm.scale D T B) (hrk : RlkFor rlk S.toFinset rk)
    (hv : vectors E prm pkSet zBench zBench d 0 users enc = .ok (enc', ms, c :: c' :: l))
    (hc : ∀ a ∈ c :: c' :: l, Sees s S C.lq prm.scale a (x a) η)
    (hX : ∀ j < C.N / 2, ‖x c j + ((c :: c' :: l).map (x · j)).sum‖ ≤ X)
    (hY : ∀ j < C.N / 2, ‖x c' j - ((c :: c' :: l).map (x · j)).sum‖ ≤ Y) (π πm : ℕ → Sched) (n : ℕ) :
    ∃ ev' rs, benchMulAndRelinHoisted E prm pkSet users d π πm n enc ev rlk =
        .ok (enc', ev', rs) ∧ ev'.Ok ∧ rs.length = n ∧
      ∀ r ∈ rs, Sees s S (C.lq - 1) (prodScale prm.fl C.q C.lq prm.scale prm.scale) r
        (fun j => (x c j + ((c :: c' :: l).map (x · j)).sum) *
          (x c' j - ((c :: c' :: l).map (x · j)).sum))
        (prodErr X Y (η + (c :: c' :: l).length * η) (η + (c :: c' :: l).length * η)
          (mulEta C S.toFinset.card D T B C.lq) (C.q C.lq) prm.scale prm.scale
          (prodScale prm.fl C.q C.lq prm.scale prm.scale)) := by
  obtain ⟨ev1, ct0, ct1, e1, hok1, h0, h1⟩ := sumDiff_spec hC hfl π (c :: c' :: l) hc 0 ev c c' _ _ η
    hok (hc c (by simp)) (hc c' (by simp))
  obtain ⟨ev2, rs, e2, hok2, hl, hrs⟩ := iterate_spec
    (body := fun i (ev : Ev C) => do
      let (ev, h0) ← ev.HoistedForm ct0 ((πm i).sub 0)
      let (ev, h1) ← ev.HoistedForm ct1 ((πm i).sub 1)
      ev.MulRelinHoistedNew prm ct0 ct1 (some h0) (some h1) rlk ((πm i).sub 2))
    (P := fun ev => ev.Ok) (fun i st hst => by
      obtain ⟨eva, H0, f1, hoka, i0⟩ := C23_HoistedForm hC hst h0.wf ((πm i).sub 0)
      obtain ⟨evb, H1, f2, hokb, i1⟩ := C23_HoistedForm hC hoka h1.wf ((πm i).sub 1)
      obtain ⟨ev', out, g1, g2, g3⟩ := h0.mulHoisted hC hfl hokb hs h1 hX hY K hrk i0 i1
        ((πm i).sub 2)
      exact ⟨ev', out, by simp only [f1, f2, g1, Go.ok_bind], g2, g3⟩)
    n 0 ev1 hok1
  refine ⟨ev2, rs, ?_, hok2, hl, hrs⟩
  unfold benchMulAndRelinHoisted
  simp only [hv, Go.ok_bind, e1]
  rw [e2]
  rfl

theorem benchSquare_of (hC : C.Good) (hfl : prm.fl.Ok) (hs : 0 < prm.scale) (hok : ev.Ok)
    (K : MulKit prm rk s S C.lq prm.scale D T B) (hrk : RlkFor rlk S.toFinset rk)
    (hv : vectors E prm pkSet zBench zBench d 0 users enc = .ok (enc', ms, c :: l))
    (hc : ∀ a ∈ c :: l, Sees s S C.lq prm.scale a (x a) η)
    (hX : ∀ j < C.N / 2, ‖x c j + ((c :: l).map (x · j)).sum‖ ≤ X) (π πm : ℕ → Sched) (n : ℕ) :
    ∃ ev' rs, benchSquareHoisted E prm pkSet users d π πm n enc ev rlk =
        .ok (enc', ev', rs) ∧ ev'.Ok ∧ rs.length = n ∧
      ∀ r ∈ rs, Sees s S (C.lq - 1) (prodScale prm.fl C.q C.lq prm.scale prm.scale) r
        (fun j => (x c j + ((c :: l).map (x · j)).sum) * (x c j + ((c :: l).map (x · j)).sum))
        (prodErr X X (η + (c :: l).length * η) (η + (c :: l).length * η)
          (mulEta C S.toFinset.card D T B C.lq) (C.q C.lq) prm.scale prm.scale
          (prodScale prm.fl C.q C.lq prm.scale prm.scale)) := by
  obtain ⟨ev1, ct, e1, hok1, h0⟩ := sumCts_spec hC hfl π (c :: l) hc 0 ev c _ η hok (hc c (by simp))
  obtain ⟨ev2, rs, e2, hok2, hl, hrs⟩ := iterate_spec
    (body := fun i (ev : Ev C) => do
      let (ev, h) ← ev.HoistedForm ct ((πm i).sub 0)
      ev.MulRelinHoistedNew prm ct ct (some h) (some h) rlk ((πm i).sub 1))
    (P := fun ev => ev.Ok) (fun i st hst => by
      obtain ⟨eva, H0, f1, hoka, i0⟩ := C23_HoistedForm hC hst h0.wf ((πm i).sub 0)
      obtain ⟨ev', out, g1, g2, g3⟩ := h0.mulHoisted hC hfl hoka hs h0 hX hX K hrk i0 i0
        ((πm i).sub 1)
      exact ⟨ev', out, by simp only [f1, g1, Go.ok_bind], g2, g3⟩)
    n 0 ev1 hok1
  refine ⟨ev2, rs, ?_, hok2, hl, hrs⟩
  unfold benchSquareHoisted
  simp only [hv, Go.ok_bind, e1]
  rw [e2]
  rfl

/-- Numbers bounded on finitely many slots. -/
theorem exists_bound (f : ℕ → ℂ) (n : ℕ) : ∃ X : ℝ, ∀ j < n, ‖f j‖ ≤ X :=
  ⟨∑ j ∈ range n, ‖f j‖, fun _ hj =>
    single_le_sum (f := fun j => ‖f j‖) (fun _ _ => norm_nonneg _) (mem_range.mpr hj)⟩

end

/-- **C73 (`benchMulAndRelin` runs).** For every encoder, key, draw, state and iteration order,
every non-empty list of users with keys and every number of iterations, `benchMulAndRelin` does not
panic, and it leaves encryptor, evaluator and keys in order. -/
theorem C73_benchMulAndRelin_ok (hC : C.Good) (hfl : prm.fl.Ok) (hs : 0 < prm.scale)
    (hK : Keys kb s e S) {enc : CEnc C} (he : EncOk prm enc) {ev : Ev C} (hok : ev.Ok)
    {users : List String} (hu : ∀ id ∈ users, id ∈ S) (hne : users ≠ []) (d : ℕ → Draw C)
    {rk : String → RelinKey C} {D T B : ℤ} (K : MulKit prm rk s S C.lq prm.scale D T B)
    {rlk : RlkSet C} (hrk : RlkFor rlk S.toFinset rk) (π πm : ℕ → Sched) (n : ℕ) :
    ∃ enc' ev' rlk' rs, benchMulAndRelin E prm kb.pkSet users d π πm n enc ev rlk =
        .ok (enc', ev', rlk', rs) ∧ EncOk prm enc' ∧ ev'.Ok ∧ RlkFor rlk' S.toFinset rk := by
  obtain ⟨enc', ms, cts, x, e1, he', hl, hx, -⟩ := vectors_exact (E := E) (prm := prm) hC hK zBench d hu he
  cases cts with
  | nil => exact absurd (List.length_eq_zero_iff.mp hl.symm) hne
  | cons c l =>
    obtain ⟨X, hX⟩ := exists_bound (fun j => x c j + ((c :: l).map (x · j)).sum) (C.N / 2)
    obtain ⟨Y, hY⟩ := exists_bound (fun j => x c j - ((c :: l).map (x · j)).sum) (C.N / 2)
    obtain ⟨ev', rlk', rs, e2, h1, h2, -⟩ := benchMul_of hC hfl hs hok K hrk e1 hx hX hY π πm n
    exact ⟨enc', ev', rlk', rs, e2, he', h1, h2⟩

theorem zBench_norm : ‖zBench‖ ≤ 2 := by
  refine (Complex.norm_le_abs_re_add_abs_im _).trans (le_of_eq ?_)
  norm_num [zBench]

theorem zBench_sq : zBench * zBench = -2 * Complex.I := by
  apply Complex.ext <;> norm_num [zBench]

theorem sum_const (l : List (CCt C)) (z : ℂ) : (l.map fun _ => z).sum = l.length * z := by
  simp

/-- **C73 (what `benchMulAndRelin` multiplies).** All draws give the message with `-1+i` in every
slot; the second operand starts from the first ciphertext and has all ciphertexts subtracted, that
is `1-n` times the message for `n` users.  So every product has all slots equal to `2(n²-1)i`, up to
the noise: with one user it is an encryption of zero. -/
theorem C73_benchMulAndRelin (R : Ready E prm kb s e S enc dec ev users d M ε δ W) (hM : 2 ≤ M)
    {rk : String → RelinKey C} {D T B : ℤ} (K : MulKit prm rk s S C.lq prm.scale D T B)
    {rlk : RlkSet C} (hrk : RlkFor rlk S.toFinset rk) (π πm : ℕ → Sched) (n : ℕ) :
    ∃ enc' ev' rlk' rs, benchMulAndRelin E prm kb.pkSet users d π πm n enc ev rlk =
        .ok (enc', ev', rlk', rs) ∧ rs.length = n ∧
      ∀ r ∈ rs, Sees s S (C.lq - 1) (prodScale prm.fl C.q C.lq prm.scale prm.scale) r
        (fun _ => 2 * ((users.length : ℂ) ^ 2 - 1) * Complex.I)
        (prodErr (2 * (users.length + 1)) (2 * (users.length - 1))
          ((users.length + 1 : ℕ) * (ε + W / prm.scale)) ((users.length + 1 : ℕ) * (ε + W / prm.scale))
          (mulEta C S.toFinset.card D T B C.lq) (C.q C.lq) prm.scale prm.scale
          (prodScale prm.fl C.q C.lq prm.scale prm.scale)) := by
  obtain ⟨enc', ms, cts, e1, he', hl, hx⟩ := vectors_sees R (zBench_norm.trans hM)
  cases cts with
  | nil => exact absurd (List.length_eq_zero_iff.mp hl.symm) R.nonempty
  | cons c l =>
    have hpos : (1 : ℝ) ≤ users.length := by exact_mod_cast List.length_pos_iff.mpr R.nonempty
    have hz := zBench_norm
    have hX : ∀ j < C.N / 2, ‖zBench + ((c :: l).map fun _ => zBench).sum‖ ≤
        2 * ((users.length : ℝ) + 1) := by
      intro j _
      rw [sum_const, hl, show zBench + (users.length : ℂ) * zBench =
        ((users.length + 1 : ℕ) : ℂ) * zBench by push_cast; ring, norm_mul, Complex.norm_natCast]
      push_cast
      nlinarith
    have hY : ∀ j < C.N / 2, ‖zBench - ((c :: l).map fun _ => zBench).sum‖ ≤
        2 * ((users.length : ℝ) - 1) := by
      intro j _
      obtain ⟨m, hm⟩ : ∃ m, users.length = m + 1 :=
        ⟨users.length - 1, by have := List.length_pos_iff.mpr R.nonempty; omega⟩
      rw [sum_const, hl, hm, show zBench - ((m + 1 : ℕ) : ℂ) * zBench =
        -((m : ℂ) * zBench) by push_cast; ring, norm_neg, norm_mul, Complex.norm_natCast]
      push_cast
      nlinarith [Nat.cast_nonneg (α := ℝ) m]
    obtain ⟨ev', rlk', rs, e2, h1, h2, h3, h4⟩ := benchMul_of (x := fun _ _ => zBench) R.good R.fl R.scale
      R.evOk K hrk e1 hx hX hY π πm n
    refine ⟨enc', ev', rlk', rs, e2, h3, fun r hr => (h4 r hr).congr (fun j _ => ?_) (le_of_eq ?_)⟩
    · simp only [sum_const, hl]
      linear_combination (1 - (users.length : ℂ) ^ 2) * zBench_sq
    · rw [hl, show (ε + W / prm.scale : ℝ) + users.length * (ε + W / prm.scale) =
        (users.length + 1 : ℕ) * (ε + W / prm.scale) by push_cast; ring]

/-- `BenchmarkMKCKKS` uses no id `"0"`. -/
theorem userList_ne_zero (n : ℕ) : "0" ∉ userList n := by
  intro h
  obtain ⟨i, -, h⟩ := List.mem_map.mp h
  have := congrArg (fun s : String => s.toList.head?) h
  simp [String.toList_append] at this

/-- **C73 (the users are as many as the flag says).** For every `n`, `userList n` lists `n` different
identifiers, none of them the reserved one: no two of the users of `BenchmarkMKCKKS` and `TestCKKS`
share their keys. -/
theorem C73_userList (n : ℕ) :
    (userList n).length = n ∧ (userList n).Nodup ∧ "0" ∉ userList n := by
  refine ⟨by simp [userList], ?_, userList_ne_zero n⟩
  refine List.Nodup.map (fun i j h => ?_) List.nodup_range
  have h' := congrArg String.toList h
  simp only [String.toList_append, List.append_cancel_left_eq] at h'
  have h2 := congrArg (fun l => Nat.ofDigitChars 10 l 0) h'
  simpa [Nat.repr] using h2

theorem encOk_new' (prm : CPar C) : EncOk prm (CEnc.new prm) := ⟨rfl, rfl⟩

/-- **C73 (`BenchmarkMKCKKS` runs).** For every parameter set whose moduli allow one rescaling of a
product, every number of users, all samples of key generation within their bounds, all draws, orders and
numbers of iterations, the body of `BenchmarkMKCKKS` ends without panic. -/
theorem C73_BenchmarkMKCKKS (hC : C.Good) (hF : C.Fits) (hfl : prm.fl.Ok) (hs : 0 < prm.scale)
    (hcrs : CrsFor prm.crs []) {B D : ℤ} (hq : 2 < C.q 0) (hB : 2 * B < C.q 0) (hB0 : 0 ≤ B) (hD0 : 0 ≤ D)
    (hD : digitMax C D)
    (hr : RescaleBy prm.fl C.q prm.scale (prm.fl.rnd (prm.scale * prm.scale)) C.lq 1)
    {maxUsers : ℕ} {rnd : String → PartyRand C} {order : List String}
    (ho : order.Perm (userList maxUsers)) (hrnd : ∀ id ∈ order, (rnd id).Ok B)
    (d : ℕ → ℕ → Draw C) (π πm : ℕ → ℕ → Sched) (iters : ℕ → ℕ) :
    benchmarkMKCKKS E prm rnd order maxUsers d π πm iters = .ok () := by
  have h0 : "0" ∉ order := fun h => userList_ne_zero maxUsers (ho.mem_iff.mp h)
  obtain ⟨kb, e1, hreach, hK, hpk⟩ := genTestParams_keys hC hq hB hcrs hrnd h0
  obtain ⟨a, u, hu, hrk, hrel, hbdd⟩ := genTestParams_relin hcrs hrnd hreach hpk
  have K : MulKit prm kb.rk (fun id => (rnd id).s) order C.lq prm.scale D 1 B :=
    ⟨hF, hD0, by norm_num, hB0, hD, hr, _, _, _, _, _, _, hu, hrel, hbdd⟩
  obtain ⟨st, e2, -⟩ := doubling_spec (max := maxUsers)
    (body := fun k (s : CEnc C × Ev C × RlkSet C) => do
      let (enc, ev, rlk, _) ← benchMulAndRelin E prm kb.pkSet ((userList maxUsers).take k) (d k) (π k)
        (πm k) (iters k) s.1 s.2.1 s.2.2
      return (enc, ev, rlk))
    (P := fun s => EncOk prm s.1 ∧ s.2.1.Ok ∧ RlkFor s.2.2 order.toFinset kb.rk)
    (fun k st hk hmax hst => by
      obtain ⟨enc', ev', rlk', rs, g1, g2, g3, g4⟩ := C73_benchMulAndRelin_ok (E := E) hC hfl hs hK hst.1
        hst.2.1 (users := (userList maxUsers).take k)
        (fun id hid => ho.mem_iff.mpr (List.mem_of_mem_take hid))
        (by
          intro h
          have := congrArg List.length h
          simp [userList] at this
          omega) (d k) K hst.2.2 (π k) (πm k) (iters k)
      exact ⟨(enc', ev', rlk'), by simp only [g1, Go.ok_bind, Go.pure_eq], g2, g3, g4⟩)
    2 (CEnc.new prm, Ev.new, kb.rlkSet) ⟨encOk_new' prm, Ev.new_ok, hrk⟩
  unfold benchmarkMKCKKS
  rw [e1, Go.ok_bind]
  rw [e2]
  rfl

/-! ## The benchmarks whose calls are commented out -/

/-- **C73 (`benchSquareHoisted`).** It squares `n+1` times the message for `n` users: every result has
all slots equal to `-2(n+1)²i`, up to the noise. -/
theorem C73_benchSquareHoisted (R : Ready E prm kb s e S enc dec ev users d M ε δ W) (hM : 2 ≤ M)
    {rk : String → RelinKey C} {D T B : ℤ} (K : MulKit prm rk s S C.lq prm.scale D T B)
    {rlk : RlkSet C} (hrk : RlkFor rlk S.toFinset rk) (π πm : ℕ → Sched) (n : ℕ) :
    ∃ enc' ev' rs, benchSquareHoisted E prm kb.pkSet users d π πm n enc ev rlk =
        .ok (enc', ev', rs) ∧ rs.length = n ∧
      ∀ r ∈ rs, Sees s S (C.lq - 1) (prodScale prm.fl C.q C.lq prm.scale prm.scale) r
        (fun _ => -2 * ((users.length : ℂ) + 1) ^ 2 * Complex.I)
        (prodErr (2 * (users.length + 1)) (2 * (users.length + 1))
          ((users.length + 1 : ℕ) * (ε + W / prm.scale)) ((users.length + 1 : ℕ) * (ε + W / prm.scale))
          (mulEta C S.toFinset.card D T B C.lq) (C.q C.lq) prm.scale prm.scale
          (prodScale prm.fl C.q C.lq prm.scale prm.scale)) := by
  obtain ⟨enc', ms, cts, e1, he', hl, hx⟩ := vectors_sees R (zBench_norm.trans hM)
  cases cts with
  | nil => exact absurd (List.length_eq_zero_iff.mp hl.symm) R.nonempty
  | cons c l =>
    have hz := zBench_norm
    have hX : ∀ j < C.N / 2, ‖zBench + ((c :: l).map fun _ => zBench).sum‖ ≤
        2 * ((users.length : ℝ) + 1) := by
      intro j _
      rw [sum_const, hl, show zBench + (users.length : ℂ) * zBench =
        ((users.length + 1 : ℕ) : ℂ) * zBench by push_cast; ring, norm_mul, Complex.norm_natCast]
      push_cast
      nlinarith
    obtain ⟨ev', rs, e2, h1, h3, h4⟩ := benchSquare_of (x := fun _ _ => zBench) R.good R.fl R.scale
      R.evOk K hrk e1 hx hX π πm n
    refine ⟨enc', ev', rs, e2, h3, fun r hr => (h4 r hr).congr (fun j _ => ?_) (le_of_eq ?_)⟩
    · simp only [sum_const, hl]
      linear_combination (1 + (users.length : ℂ)) ^ 2 * zBench_sq
    · rw [hl, show (ε + W / prm.scale : ℝ) + users.length * (ε + W / prm.scale) =
        (users.length + 1 : ℕ) * (ε + W / prm.scale) by push_cast; ring]

/-- **C73 (`benchMulAndRelinHoisted`).** With at least two users it multiplies the same slots as
`benchMulAndRelin`. -/
theorem C73_benchMulAndRelinHoisted (R : Ready E prm kb s e S enc dec ev users d M ε δ W) (hM : 2 ≤ M)
    (h2 : 2 ≤ users.length)
    {rk : String → RelinKey C} {D T B : ℤ} (K : MulKit prm rk s S C.lq prm.scale D T B)
    {rlk : RlkSet C} (hrk : RlkFor rlk S.toFinset rk) (π πm : ℕ → Sched) (n : ℕ) :
    ∃ enc' ev' rs, benchMulAndRelinHoisted E prm kb.pkSet users d π πm n enc ev rlk =
        .ok (enc', ev', rs) ∧ rs.length = n ∧
      ∀ r ∈ rs, Sees s S (C.lq - 1) (prodScale prm.fl C.q C.lq prm.scale prm.scale) r
        (fun _ => 2 * ((users.length : ℂ) ^ 2 - 1) * Complex.I)
        (prodErr (2 * (users.length + 1)) (2 * (users.length - 1))
          ((users.length + 1 : ℕ) * (ε + W / prm.scale)) ((users.length + 1 : ℕ) * (ε + W / prm.scale))
          (mulEta C S.toFinset.card D T B C.lq) (C.q C.lq) prm.scale prm.scale
          (prodScale prm.fl C.q C.lq prm.scale prm.scale)) := by
  obtain ⟨enc', ms, cts, e1, he', hl, hx⟩ := vectors_sees R (zBench_norm.trans hM)
  obtain ⟨c, c', l, rfl⟩ : ∃ c c' l, cts = c :: c' :: l := by
    match cts, hl with
    | [], hl => simp at hl; omega
    | [_], hl => simp at hl; omega
    | c :: c' :: l, _ => exact ⟨c, c', l, rfl⟩
  have hz := zBench_norm
  have hX : ∀ j < C.N / 2, ‖zBench + ((c :: c' :: l).map fun _ => zBench).sum‖ ≤
      2 * ((users.length : ℝ) + 1) := by
    intro j _
    rw [sum_const, hl, show zBench + (users.length : ℂ) * zBench =
      ((users.length + 1 : ℕ) : ℂ) * zBench by push_cast; ring, norm_mul, Complex.norm_natCast]
    push_cast
    nlinarith
  have hY : ∀ j < C.N / 2, ‖zBench - ((c :: c' :: l).map fun _ => zBench).sum‖ ≤
      2 * ((users.length : ℝ) - 1) := by
    intro j _
    obtain ⟨m, hm⟩ : ∃ m, users.length = m + 1 := ⟨users.length - 1, by omega⟩
    rw [sum_const, hl, hm, show zBench - ((m + 1 : ℕ) : ℂ) * zBench =
      -((m : ℂ) * zBench) by push_cast; ring, norm_neg, norm_mul, Complex.norm_natCast]
    push_cast
    nlinarith [Nat.cast_nonneg (α := ℝ) m]
  obtain ⟨ev', rs, e2, h1, h3, h4⟩ := benchMulHoisted_of (x := fun _ _ => zBench) R.good R.fl R.scale
    R.evOk K hrk e1 hx hX hY π πm n
  refine ⟨enc', ev', rs, e2, h3, fun r hr => (h4 r hr).congr (fun j _ => ?_) (le_of_eq ?_)⟩
  · simp only [sum_const, hl]
    linear_combination (1 - (users.length : ℂ) ^ 2) * zBench_sq
  · rw [hl, show (ε + W / prm.scale : ℝ) + users.length * (ε + W / prm.scale) =
      (users.length + 1 : ℕ) * (ε + W / prm.scale) by push_cast; ring]

/-- `vectors` makes one ciphertext for every user. -/
theorem vectors_post (pkSet : KeySet (PublicKey C)) (a b : ℂ) (d : ℕ → Draw C) (users : List String) :
    ∀ (i : ℕ) (enc : CEnc C), Go.Post (vectors E prm pkSet a b d i users enc)
      fun r => r.2.2.length = users.length := by
  induction users with
  | nil =>
    intro i enc r hr
    obtain rfl := Except.ok.inj hr
    rfl
  | cons id l ih =>
    intro i enc
    unfold vectors
    refine Go.Post.bind' fun _ => Go.Post.bind (ih _ _) fun r hr => Go.Post.pure ?_
    simp [hr]

/-- **C73 (`benchMulAndRelinHoisted` with one user).** It reads `ctList[1]`, so it panics, whatever
the keys, draws and states are. -/
theorem C73_benchMulAndRelinHoisted_panics (pkSet : KeySet (PublicKey C)) {users : List String}
    (h : users.length < 2) (d : ℕ → Draw C) (π πm : ℕ → Sched) (n : ℕ) (enc : CEnc C) (ev : Ev C)
    (rlk : RlkSet C) : (benchMulAndRelinHoisted E prm pkSet users d π πm n enc ev rlk).panics := by
  apply Go.panics_of_post
  unfold benchMulAndRelinHoisted
  refine Go.Post.bind (vectors_post pkSet _ _ d users 0 enc) fun r hr => ?_
  obtain ⟨enc', ms, cts⟩ := r
  match cts, hr with
  | [], _ => exact Go.Post.error
  | [_], _ => exact Go.Post.error
  | _ :: _ :: _, hr => simp at hr; omega

/-! ## Without rotation and conjugation keys -/

theorem rotHas_new (crs : CRS C) (id : String) (idx : ℕ) : ¬ RotHas crs RotationKeySet.new id idx := by
  rintro ⟨-, key, hk⟩
  simp [RotationKeySet.new, RotationKeySet.get] at hk

theorem rotNeeds_exists (crs : CRS C) {r : ℕ} (hr : r ≠ 0) : ∃ idx, rotNeeds crs r idx := by
  by_cases h : crs.has (r : ℤ) = true
  · exact ⟨r, hr, by rw [if_pos h]⟩
  · obtain ⟨b, hb⟩ := Nat.exists_testBit_of_ne_zero hr
    exact ⟨2 ^ b, hr, by rw [if_neg h]; exact ⟨b, hb, rfl⟩⟩

/-- `genTestParams` of mkckks leaves the set of rotation keys empty. -/
theorem genTestParams_rtk {crs : CRS C} {rnd : String → PartyRand C} {order : List String}
    {kb : KeyBag C} (h : genTestParams crs rnd order = .ok kb) : kb.rtkSet = RotationKeySet.new := by
  have key : ∀ (l : List String) (kb0 : KeyBag C), Go.Post (genParties crs [] rnd l kb0)
      fun kb => kb.rtkSet = kb0.rtkSet := by
    intro l
    induction l with
    | nil => intro kb0 kb h; obtain rfl := Except.ok.inj h; rfl
    | cons id l ih =>
      intro kb0
      unfold genParties
      refine Go.Post.bind (Q := fun kb => kb.rtkSet = kb0.rtkSet) ?_ fun kb1 h1 => ?_
      · unfold genParty
        refine Go.Post.bind' fun _ => Go.Post.bind' fun _ => Go.Post.pure rfl
      · exact fun kb h => (ih kb1 kb h).trans h1
  exact key order KeyBag.new kb h

/-- Addition keeps the participants. -/
theorem Sees.add_keeps (hC : C.Good) (hfl : prm.fl.Ok) {ev : Ev C} (hok : ev.Ok) {L : ℕ} {sc : ℚ}
    {a b : CCt C} {x y : ℕ → ℂ} {η θ : ℝ} (ha : Sees s S L sc a x η) (hb : Sees s S L sc b y θ)
    (hp : a.ct.parties.Nonempty) (π : Sched) : ∃ ev' r, ev.AddNew prm a b π = .ok (ev', r) ∧ ev'.Ok ∧
      Sees s S L sc r (fun j => x j + y j) (η + θ) ∧ r.ct.parties.Nonempty := by
  have hsc : a.scale = b.scale := ha.scale.trans hb.scale.symm
  have I : BinIn prm ev a b L L := ⟨hok, ha.wf, hb.wf, ha.lt, hb.lt, hfl, by
    rw [hsc, alignInt_self]; norm_num, by rw [hsc, alignInt_self]; norm_num⟩
  obtain ⟨pool, r, e1, -, hr⟩ := addNew_spec hC I π
  obtain ⟨ev', r', e2, hok', h2⟩ := ha.add hC hfl hok hb π
  obtain ⟨rfl, rfl⟩ : { ev with pool := pool } = ev' ∧ (⟨r, max a.scale b.scale⟩ : CCt C) = r' := by
    have := e1.symm.trans e2
    simpa using this
  refine ⟨_, _, e1, hok', h2, ?_⟩
  rw [show (⟨r, max a.scale b.scale⟩ : CCt C).ct.parties = a.ct.parties ∪ b.ct.parties from
    hr.parties (by simp [zero_notMem_parties])]
  exact hp.mono subset_union_left

theorem sumCts_keeps (hC : C.Good) (hfl : prm.fl.Ok) {L : ℕ} {sc : ℚ} (π : ℕ → Sched)
    (cts : List (CCt C)) (hc : ∀ c ∈ cts, ∃ x η, Sees s S L sc c x η) :
    ∀ (i : ℕ) (ev : Ev C) (ct : CCt C), ev.Ok → (∃ y θ, Sees s S L sc ct y θ) →
      ct.ct.parties.Nonempty →
    ∃ ev' r, sumCts prm π i cts ev ct = .ok (ev', r) ∧ ev'.Ok ∧ (∃ y θ, Sees s S L sc r y θ) ∧
      r.ct.parties.Nonempty := by
  induction cts with
  | nil => exact fun i ev ct hok h hp => ⟨ev, ct, rfl, hok, h, hp⟩
  | cons c l ih =>
    rintro i ev ct hok ⟨y, θ, h⟩ hp
    obtain ⟨x, η, hx⟩ := hc c (by simp)
    obtain ⟨ev1, a, e1, hok1, g, hp1⟩ := h.add_keeps hC hfl hok hx hp (π i)
    obtain ⟨ev3, r, e3, k⟩ := ih (fun c hc' => hc c (by simp [hc'])) (i + 1) ev1 a hok1 ⟨_, _, g⟩ hp1
    exact ⟨ev3, r, by rw [sumCts, e1, Go.ok_bind]; exact e3, k⟩

theorem sumLoop_keeps (hC : C.Good) (hfl : prm.fl.Ok) {L : ℕ} {sc : ℚ} (π : ℕ → Sched)
    (cts : List (CCt C)) (hc : ∀ c ∈ cts, ∃ x η, Sees s S L sc c x η) :
    ∀ (i : ℕ) (ev : Ev C) (ct : CCt C) (msgs : List (List ℂ)), ev.Ok → (∃ y θ, Sees s S L sc ct y θ) →
      ct.ct.parties.Nonempty →
    ∃ ev' r ms, sumLoop prm π i cts ev ct msgs = .ok (ev', r, ms) ∧ ev'.Ok ∧
      (∃ y θ, Sees s S L sc r y θ) ∧ r.ct.parties.Nonempty := by
  induction cts with
  | nil => exact fun i ev ct msgs hok h hp => ⟨ev, ct, msgs, rfl, hok, h, hp⟩
  | cons c l ih =>
    rintro i ev ct msgs hok ⟨y, θ, h⟩ hp
    obtain ⟨x, η, hx⟩ := hc c (by simp)
    obtain ⟨ev1, a, e1, hok1, g, hp1⟩ := h.add_keeps hC hfl hok hx hp (π i)
    obtain ⟨ev3, r, ms, e3, k⟩ := ih (fun c hc' => hc c (by simp [hc'])) (i + 1) ev1 a (bump msgs i) hok1
      ⟨_, _, g⟩ hp1
    exact ⟨ev3, r, ms, by rw [sumLoop, e1, Go.ok_bind]; exact e3, k⟩

theorem rotate_missing (hh : 0 < C.N / 2) (ev : Ev C) {ct : CCt C} {k : ℤ}
    (hp : ct.ct.parties.Nonempty) (hk : ¬ ((C.N / 2 : ℕ) : ℤ) ∣ k) (π : Sched) :
    Go.Post (ev.RotateNew prm ct k RotationKeySet.new π) fun _ => False := by
  obtain ⟨id, hid⟩ := hp
  have h0 : slotIdx C.N k ≠ 0 := fun h => hk (by
    rw [Int.dvd_iff_emod_eq_zero, ← slotIdx_cast hh, h]; rfl)
  obtain ⟨idx, hidx⟩ := rotNeeds_exists prm.crs h0
  exact rotate_never hh ev hid hidx (rotHas_new _ _ _) π

/-- **C73 (`benchRotate` panics).** With the rotation keys that `genTestParams` leaves — none —
`benchRotate` panics in its first iteration, for every user list, draw, state and order. -/
theorem C73_benchRotate_panics (hC : C.Good) (hfl : prm.fl.Ok) (hN : 8 ≤ C.N) {crs : CRS C}
    {rnd : String → PartyRand C} {order : List String} (hkb : genTestParams crs rnd order = .ok kb)
    (hK : Keys kb s e S) {enc : CEnc C} (he : EncOk prm enc) {ev : Ev C} (hok : ev.Ok)
    {users : List String} (hu : ∀ id ∈ users, id ∈ S) (d : ℕ → Draw C) (π πm : ℕ → Sched)
    {n : ℕ} (hn : 0 < n) :
    (benchRotate E prm kb.pkSet kb.rtkSet users d π πm n enc ev).panics := by
  apply Go.panics_of_post
  rw [genTestParams_rtk hkb]
  obtain ⟨enc', ms, cts, x, e1, -, -, hx, hp⟩ := vectors_exact (E := E) (prm := prm) hC hK zBench d hu he
  unfold benchRotate
  rw [e1, Go.ok_bind]
  cases cts with
  | nil => exact Go.Post.error
  | cons c l =>
    obtain ⟨ev1, r, e2, -, -, hr⟩ := sumCts_keeps hC hfl π (c :: l) (fun c hc => ⟨_, _, hx c hc⟩) 0 ev c
      hok ⟨_, _, hx c (by simp)⟩ (hp c (by simp))
    dsimp only
    rw [e2, Go.ok_bind]
    obtain ⟨n, rfl⟩ : ∃ m, n = m + 1 := ⟨n - 1, by omega⟩
    refine Go.Post.bind (Q := fun _ => False) ?_ fun _ h => h.elim
    unfold iterate
    refine Go.Post.bind (rotate_missing (by omega) ev1 hr ?_ _) fun _ h => h.elim
    intro h
    have := Int.le_of_dvd (by norm_num) h
    omega

/-- The tests of the evaluator panic if their operation never succeeds. -/
theorem testSum_panics (hC : C.Good) (hfl : prm.fl.Ok) (hK : Keys kb s e S) {enc : CEnc C}
    (he : EncOk prm enc) {ev : Ev C} (hok : ev.Ok) {users : List String} (hu : ∀ id ∈ users, id ∈ S)
    {op : List ℂ → Ev C → CCt C → Go (Ev C × CCt C)}
    (hop : ∀ msg ev ct, ev.Ok → (∃ y θ, Sees s S C.lq prm.scale ct y θ) → ct.ct.parties.Nonempty →
      Go.Post (op msg ev ct) fun _ => False)
    (cmp : List ℂ → List ℂ → Bool) (z : ℂ) (dec : CDec C) (d : ℕ → Draw C) (π : ℕ → Sched) (π' : Sched) :
    (testSum op cmp z E prm kb enc dec ev users d π π').panics := by
  apply Go.panics_of_post
  obtain ⟨enc', ms, cts, x, e1, -, -, hx, hp⟩ := vectors_exact (E := E) (prm := prm) hC hK z d hu he
  unfold testSum
  rw [e1, Go.ok_bind]
  cases cts with
  | nil => exact Go.Post.error
  | cons c l =>
    obtain ⟨ev1, r, ms', e2, hok1, hy, hr⟩ := sumLoop_keeps hC hfl π (c :: l)
      (fun c hc => ⟨_, _, hx c hc⟩) 0 ev c ms hok ⟨_, _, hx c (by simp)⟩ (hp c (by simp))
    dsimp only
    rw [e2, Go.ok_bind]
    exact Go.Post.bind (hop _ ev1 r hok1 hy hr) fun _ h => h.elim

/-- **C73 (`testEvaluatorRot` would panic).** The call of `testEvaluatorRot` is commented out, and so
are the lines of `genTestParams` that make rotation keys.  With the first restored and not the second,
the test panics for every draw of the amount that is no multiple of the number of slots. -/
theorem C73_testEvaluatorRot_panics (hC : C.Good) (hfl : prm.fl.Ok) (hN : 2 ≤ C.N) (hlq : 1 ≤ C.lq)
    {crs : CRS C} {rnd : String → PartyRand C} {order : List String}
    (hkb : genTestParams crs rnd order = .ok kb) (hK : Keys kb s e S) {enc : CEnc C} (he : EncOk prm enc)
    {ev : Ev C} (hok : ev.Ok) {users : List String} (hu : ∀ id ∈ users, id ∈ S) {rot : ℤ}
    (hrot : ¬ ((C.N / 2 : ℕ) : ℤ) ∣ rot) (logSlots : ℕ) (dec : CDec C) (d : ℕ → Draw C) (π : ℕ → Sched)
    (πd πo π' : Sched) :
    (testEvaluatorRot rot kb.rtkSet E prm logSlots kb enc dec ev users d π πd πo π').panics := by
  rw [genTestParams_rtk hkb]
  unfold testEvaluatorRot testRotWith
  refine testSum_panics hC hfl hK he hok hu (fun msg ev ct hok hy hp => ?_) _ _ dec d π π'
  obtain ⟨y, θ, hy⟩ := hy
  obtain ⟨c, e1, -, h2, -⟩ := C15_DropLevel hy.wf hlq (πd.isOrder 0 ct.ct.value)
  rw [e1, Go.ok_bind]
  exact rotate_missing (by omega) ev (by rw [h2]; exact hp) hrot πo

/-- **C73 (`testEvaluatorRotHoisted` would panic)**, for every draw, with a ring degree `2^(logSlots+1)`
of at least 8. -/
theorem C73_testEvaluatorRotHoisted_panics (hC : C.Good) (hfl : prm.fl.Ok) {logSlots : ℕ}
    (hN : C.N / 2 = 2 ^ logSlots) (hl : 2 ≤ logSlots) (hlq : 1 ≤ C.lq)
    {crs : CRS C} {rnd : String → PartyRand C} {order : List String}
    (hkb : genTestParams crs rnd order = .ok kb) (hK : Keys kb s e S) {enc : CEnc C} (he : EncOk prm enc)
    {ev : Ev C} (hok : ev.Ok) {users : List String} (hu : ∀ id ∈ users, id ∈ S) (draw : ℕ)
    (dec : CDec C) (d : ℕ → Draw C) (π : ℕ → Sched) (πd πh πo π' : Sched) :
    (testEvaluatorRotHoisted draw kb.rtkSet E prm logSlots kb enc dec ev users d π πd πh πo π').panics := by
  rw [genTestParams_rtk hkb]
  unfold testEvaluatorRotHoisted testRotWith
  rw [if_neg (by omega)]
  refine testSum_panics hC hfl hK he hok hu (fun msg ev ct hok hy hp => ?_) _ _ dec d π π'
  obtain ⟨y, θ, hy⟩ := hy
  obtain ⟨c, e1, -, h2, -⟩ := C15_DropLevel hy.wf hlq (πd.isOrder 0 ct.ct.value)
  rw [e1, Go.ok_bind]
  refine Go.Post.bind' fun r => ?_
  obtain ⟨id, hid⟩ := hp
  have hlt : 2 ^ (draw % (logSlots - 1)) < 2 ^ logSlots :=
    Nat.pow_lt_pow_right (by norm_num) (by have := Nat.mod_lt draw (show 0 < logSlots - 1 by omega); omega)
  refine rotateHoisted_never (by rw [hN]; positivity) r.1 (id := id) (by rw [h2]; exact hid) (fun h => ?_)
    (rotHas_new _ _ _) πo
  have h1 := slotIdx_cast (N := C.N) (by rw [hN]; positivity) (2 ^ (draw % (logSlots - 1)))
  rw [h, hN, Int.emod_eq_of_lt (by positivity) (by exact_mod_cast hlt)] at h1
  have : (0 : ℤ) < 2 ^ (draw % (logSlots - 1)) := by positivity
  simp at h1
  omega

/-- **C73 (`testEvaluatorConj` would panic).** The set of conjugation keys that `genTestParams` makes
stays empty. -/
theorem C73_testEvaluatorConj_panics (hC : C.Good) (hfl : prm.fl.Ok) (hK : Keys kb s e S) {enc : CEnc C}
    (he : EncOk prm enc) {ev : Ev C} (hok : ev.Ok) {users : List String} (hu : ∀ id ∈ users, id ∈ S)
    (logSlots : ℕ) (dec : CDec C) (d : ℕ → Draw C) (π : ℕ → Sched) (πo π' : Sched) :
    (testEvaluatorConj KeySet.new E prm logSlots kb enc dec ev users d π πo π').panics := by
  unfold testEvaluatorConj
  refine testSum_panics hC hfl hK he hok hu (fun msg ev ct _ _ hp => ?_) _ _ dec d π π'
  obtain ⟨id, hid⟩ := hp
  refine conjugate_never ev hid (fun h => ?_) πo
  obtain ⟨-, key, hk⟩ := h
  simp [KeySet.new, KeySet.get] at hk

end MK.CT
