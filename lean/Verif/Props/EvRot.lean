import Verif.Props.EvMul

/-!
# C23 – C27: `RotateNew`, `RotateHoistedNew` and `ConjugateNew`
-/

noncomputable section

namespace MK

open Finset

variable {C : Ctx}

/-! ## Normalisation of the index -/

theorem normRot_eq {half : ℕ} (hh : 0 < half) (r : ℤ) (hr : r < half) :
    normRot half r = r % half := by
  induction r using normRot.induct half with
  | case1 r h ih =>
    rw [normRot, if_pos h, ih (by omega), Int.add_emod_right]
  | case2 r h =>
    rw [normRot, if_neg h]
    exact (Int.emod_eq_of_lt (by omega) hr).symm

theorem normUp_spec {half : ℕ} (hh : 0 < half) (r : ℤ) :
    normUp half r < half ∧ normUp half r % half = r % half := by
  induction r using normUp.induct half with
  | case1 r h ih =>
    rw [normUp, if_pos h]
    exact ⟨ih.1, by rw [ih.2, Int.sub_emod_right]⟩
  | case2 r h =>
    rw [normUp, if_neg h]
    exact ⟨by omega, rfl⟩

/-- The two loops of `rotate` compute the remainder modulo the number of slots. -/
theorem normIdx_eq {half : ℕ} (hh : 0 < half) (r : ℤ) : normIdx half r = r % half := by
  obtain ⟨h1, h2⟩ := normUp_spec hh r
  rw [normIdx, normRot_eq hh _ h1, h2]

theorem normRot_natCast (half n : ℕ) : normRot half (n : ℤ) = n := by
  rw [normRot, if_neg (by omega)]

/-! ## The closed form depends only on the rows up to the level -/

/-- The components after one rotation by the index `r`. -/
def rotBy (C : Ctx) (L : ℕ) (S : Finset String) (rk : ℕ → String → RotKey C) (a : ℕ → SwKey C)
    (r : ℕ) (c : String → (i : ℕ) → Nega C.N (ZMod (C.q i))) :
    String → (i : ℕ) → Nega C.N (ZMod (C.q i)) :=
  rotOut C (galCol C.N r) L S c (fun id => digit C L (c id)) (fun id => (rk r id).value.kv)
    (a r).kv

theorem rotBy_congr (hC : C.Good) {L : ℕ} {S : Finset String} {rk : ℕ → String → RotKey C}
    {a : ℕ → SwKey C} {r : ℕ} {c c' : String → (i : ℕ) → Nega C.N (ZMod (C.q i))}
    (h : ∀ id ∈ insert "0" S, ∀ i ≤ L, c id i = c' id i) {id : String} (hid : id ∈ insert "0" S)
    {i : ℕ} (hi : i ≤ L) : rotBy C L S rk a r c id i = rotBy C L S rk a r c' id i := by
  unfold rotBy rotOut rotPre
  congr 1
  by_cases h0 : id = "0"
  · rw [if_pos h0, if_pos h0, h "0" (mem_insert_self _ _) i hi]
    congr 1
    refine Finset.sum_congr rfl fun j hj => ?_
    exact ext_congr (fun k hk => digit_congr hC.alpha_pos' hk (h j (mem_insert_of_mem hj)))
      (KeyVal.Agree.refl _ _) hi
  · rw [if_neg h0, if_neg h0]
    exact ext_congr (fun k hk => digit_congr hC.alpha_pos' hk (h id hid)) (KeyVal.Agree.refl _ _) hi

/-- The components after the rotations of the binary loop. -/
def rotBitsBy (C : Ctx) (L : ℕ) (S : Finset String) (rk : ℕ → String → RotKey C)
    (a : ℕ → SwKey C) (r k : ℕ) (c : String → (i : ℕ) → Nega C.N (ZMod (C.q i))) :
    String → (i : ℕ) → Nega C.N (ZMod (C.q i)) :=
  if 0 < r then
    rotBitsBy C L S rk a (r / 2) (k * 2) (if r % 2 ≠ 0 then rotBy C L S rk a k c else c)
  else c
termination_by r
decreasing_by omega

/-! ## `Copy` -/

theorem copyInto_spec {src : Ct C} {L : ℕ} {K : Finset String}
    {F : String → (i : ℕ) → Row C.N (C.q i)} (hs : CtIs src L K F) (o : List String)
    (hoK : ∀ id ∈ o, id ∈ K) :
    ∀ (el : GoMap String (RQ C)) (G : String → (i : ℕ) → Row C.N (C.q i)), CtIs ⟨el⟩ L K G →
      ∃ m, Ct.copyIntoLoop src el o = .ok m ∧
        CtIs ⟨m⟩ L K fun id i => if id ∈ o then F id i else G id i := by
  induction o with
  | nil => exact fun el G h => ⟨el, rfl, by simpa using h⟩
  | cons x o ih =>
    intro el G h
    have hx := hoK x List.mem_cons_self
    obtain ⟨p, hp, hl, hn, hr⟩ := hs.get hx
    obtain ⟨d, hd, hdl, hdn, hdr⟩ := h.get hx
    have h' : CtIs (⟨el.set x (p.copy d)⟩ : Ct C) L K (fun id i => if id = x then F id i else G id i) := by
      refine h.set hx (p := p.copy d) hdl hn (fun i hi => ?_) fun id' _ hne i _ => ?_
      · have hlt : i < min d.len p.len := by rw [hl, hdl]; omega
        simp only [RPoly.copy, if_pos hlt, if_true]
        exact hr i hi
      · rw [if_neg hne]
    obtain ⟨m, e, hm⟩ := ih (fun id hid => hoK id (List.mem_cons_of_mem _ hid)) _ _ h'
    refine ⟨m, ?_, hm.congr fun id _ i _ => ?_⟩
    · have hd' : GoMap.get? el x = some d := hd
      simp only [Ct.copyIntoLoop, GoMap.deref_of_get? hp, GoMap.deref_of_get? hd', Go.ok_bind, e]
    · by_cases h1 : id ∈ o
      · rw [if_pos h1, if_pos (List.mem_cons_of_mem _ h1)]
      · rw [if_neg h1]
        by_cases h2 : id = x
        · rw [if_pos h2, if_pos (h2 ▸ List.mem_cons_self)]
        · rw [if_neg h2, if_neg (by simp [h1, h2])]

/-- `Copy` between ciphertexts with the same components and level. -/
theorem copy_spec {src dst : Ct C} {L : ℕ} {K : Finset String}
    {F G : String → (i : ℕ) → Row C.N (C.q i)} (hs : CtIs src L K F) (hd : CtIs dst L K G)
    {o : List String} (ho : src.value.IsOrder o) :
    ∃ r, dst.Copy src o = .ok r ∧ CtIs r L K F := by
  obtain ⟨m, e, hm⟩ := copyInto_spec hs o (fun id h => (hs.mem id).mp (ho.mem.mp h)) dst.value G hd
  refine ⟨⟨m⟩, ?_, hm.congr fun id hid i _ => if_pos (ho.mem.mpr ((hs.mem id).mpr hid))⟩
  unfold Ct.Copy
  rw [e]
  rfl

/-! ## The binary loop -/

/-- The key set and the CRS have what a rotation by `idx` needs. -/
def KeysAt (crs : CRS C) (rkSet : RotationKeySet (RotKey C)) (S : Finset String)
    (rk : ℕ → String → RotKey C) (a : ℕ → SwKey C) (idx : ℕ) : Prop :=
  crs.get? (idx : ℤ) = some (a idx) ∧ ∀ id ∈ S, rkSet.get id idx = .ok (rk idx id)

theorem Sched.rotOrd_ok (π : Sched) {ct : Ct C} (h : ct.value.WF) : (π.rotOrd ct).Ok ct where
  i := π.isOrder 0 _
  k := π.partyOrder 1 h
  k2 := π.partyOrder 2 h
  p := π.isOrder 3 _

/-- One rotation, in terms of rows. -/
theorem rotate_ctIs {k : ℕ} (hN : C.N = 2 ^ k) (hC : C.Good) {L : ℕ} (hL : L < C.nQ)
    {S : Finset String} (hS : "0" ∉ S) {ctIn ctOut : Ct C}
    {c : String → (i : ℕ) → Nega C.N (ZMod (C.q i))} {G : String → (i : ℕ) → Row C.N (C.q i)}
    (hi : CtIs ctIn L (insert "0" S) fun id i => (c id i).coeff)
    (ho : CtIs ctOut L (insert "0" S) G) {crs : CRS C} {rkSet : RotationKeySet (RotKey C)}
    {rk : ℕ → String → RotKey C} {a : ℕ → SwKey C} {idx : ℕ} (hk : KeysAt crs rkSet S rk a idx)
    (π : Sched) {ks : KS C} (hok : ks.Ok) :
    ∃ ks' r, ks.Rotate crs ctIn idx rkSet ctOut (π.rotOrd ctIn) = .ok (ks', r) ∧ ks'.Ok ∧
      CtIs r L (insert "0" S) fun id i => (rotBy C L S rk a idx c id i).coeff := by
  have hp := hi.parties hS
  have h0 := mem_insert_self "0" S
  obtain ⟨ks', r, e, hks, hr⟩ := rotate_spec hN hC
    (H := { lt := hL
            wfIn := ⟨L, le_rfl, hi.toWf h0⟩
            wfOut := ho.toWf h0
            keysOut := fun id => by rw [hi.mem, ho.mem]
            ord := π.rotOrd_ok hi.wf }) (crs := crs) (rot := (idx : ℤ)) (rkSet := rkSet)
    (rk := rk idx) (a := a idx)
    (by rw [normRot_natCast, hp]; exact hk.2) (by rw [normRot_natCast]; exact hk.1) ks hok
  refine ⟨ks', r, e, hks, ?_⟩
  rw [normRot_natCast, hp] at hr
  refine hr.congr fun id hid i hi' => ?_
  have := rotBy_congr (rk := rk) (a := a) (r := idx) hC (L := L) (S := S) (c := ctIn.comp) (c' := c)
    (fun id hid i hi' => hi.comp hid hi') hid hi'
  rw [← this]
  rfl

theorem rotBits_spec {k : ℕ} (hN : C.N = 2 ^ k) (hC : C.Good) {L : ℕ} (hL : L < C.nQ)
    {S : Finset String} (hS : "0" ∉ S) {prm : CPar C} {rkSet : RotationKeySet (RotKey C)}
    {rk : ℕ → String → RotKey C} {a : ℕ → SwKey C} (π : Sched) (r : ℕ) :
    ∀ (p j : ℕ) (ev : Ev C) (tmp out : Ct C) (c : String → (i : ℕ) → Nega C.N (ZMod (C.q i)))
      (G : String → (i : ℕ) → Row C.N (C.q i)), ev.Ok →
      CtIs tmp L (insert "0" S) (fun id i => (c id i).coeff) → CtIs out L (insert "0" S) G →
      (∀ b, r.testBit b = true → KeysAt prm.crs rkSet S rk a (p * 2 ^ b)) →
      ∃ ev' tmp' out', Ev.rotBits prm rkSet π r p j (ev, tmp, out) = .ok (ev', tmp', out') ∧
        ev'.Ok ∧
        CtIs tmp' L (insert "0" S) (fun id i => (rotBitsBy C L S rk a r p c id i).coeff) ∧
        CtIs out' L (insert "0" S) (fun id i => if 0 < r then
          (rotBitsBy C L S rk a r p c id i).coeff else G id i) := by
  induction r using Nat.strong_induction_on with
  | _ r ih =>
    intro p j ev tmp out c G hok ht ho hk
    rw [Ev.rotBits, rotBitsBy]
    by_cases hr : 0 < r
    · rw [if_pos hr, if_pos hr]
      have hk' : ∀ b, (r / 2).testBit b = true → KeysAt prm.crs rkSet S rk a (p * 2 * 2 ^ b) := by
        intro b hb
        rw [Nat.testBit_div_two] at hb
        have := hk _ hb
        rwa [pow_succ, mul_comm (2 ^ b), ← mul_assoc] at this
      by_cases hodd : r % 2 ≠ 0
      · have hk0 := hk 0 (by rw [Nat.testBit_zero]; simp; omega)
        rw [pow_zero, mul_one] at hk0
        obtain ⟨ks', o1, e1, hks, h1⟩ := rotate_ctIs hN hC hL hS ht ho hk0 (π.sub (2 * j)) hok.ksw
        obtain ⟨t1, e2, h2⟩ := copy_spec h1 ht (π.isOrder (2 * j + 1) o1.value)
        obtain ⟨ev', tmp', out', e3, h3, h4, h5⟩ := ih (r / 2) (by omega) (p * 2) (j + 1)
          { ev with ksw := ks' } t1 o1 _ _ ⟨hks, hok.pool⟩ h2 h1 hk'
        refine ⟨ev', tmp', out', ?_, h3, ?_, ?_⟩
        · rw [if_pos hodd]
          dsimp only
          simp only [e1, e2, Go.ok_bind, Go.pure_eq]
          exact e3
        · rw [if_pos hodd]; exact h4
        · refine h5.congr fun id _ i _ => ?_
          rw [if_pos hr]
          by_cases hz : 0 < r / 2
          · rw [if_pos hz, if_pos hodd]
          · rw [if_neg hz, if_pos hodd, rotBitsBy, if_neg hz]
      · obtain ⟨ev', tmp', out', e3, h3, h4, h5⟩ := ih (r / 2) (by omega) (p * 2) (j + 1)
          ev tmp out c G hok ht ho hk'
        refine ⟨ev', tmp', out', ?_, h3, ?_, ?_⟩
        · rw [if_neg hodd]
          simp only [Go.ok_bind, Go.pure_eq]
          exact e3
        · rw [if_neg hodd]; exact h4
        · refine h5.congr fun id _ i _ => ?_
          rw [if_pos hr, if_pos (by omega), if_neg hodd]
    · rw [if_neg hr, if_neg hr]
      exact ⟨ev, tmp, out, rfl, hok, ht, ho.congr fun id _ i _ => by rw [if_neg hr]⟩

/-! ## `RotateNew` -/

/-- The rotation indices for which `RotateNew` needs keys, for an index normalised to `r`. -/
def rotNeeds (crs : CRS C) (r idx : ℕ) : Prop :=
  r ≠ 0 ∧ if crs.has (r : ℤ) = true then idx = r else ∃ b, r.testBit b = true ∧ idx = 2 ^ b

/-- The number of key switchings `RotateNew` makes. -/
def rotCount (crs : CRS C) (r : ℕ) : ℕ :=
  if r = 0 then 0 else if crs.has (r : ℤ) = true then 1 else (Nat.digits 2 r).sum

/-- The components of the result of `RotateNew`. -/
def rotRes (C : Ctx) (crs : CRS C) (L : ℕ) (S : Finset String) (rk : ℕ → String → RotKey C)
    (a : ℕ → SwKey C) (r : ℕ) (c : String → (i : ℕ) → Nega C.N (ZMod (C.q i))) :
    String → (i : ℕ) → Nega C.N (ZMod (C.q i)) :=
  if r = 0 then c
  else if crs.has (r : ℤ) = true then rotBy C L S rk a r c
  else rotBitsBy C L S rk a r 1 c

/-- The index modulo the number of slots. -/
def slotIdx (N : ℕ) (k : ℤ) : ℕ := (k % ((N / 2 : ℕ) : ℤ)).toNat

theorem slotIdx_cast {N : ℕ} (h : 0 < N / 2) (k : ℤ) :
    ((slotIdx N k : ℕ) : ℤ) = k % ((N / 2 : ℕ) : ℤ) :=
  Int.toNat_of_nonneg (Int.emod_nonneg _ (by omega))

theorem slotIdx_lt {N : ℕ} (h : 0 < N / 2) (k : ℤ) : slotIdx N k < N / 2 := by
  have := Int.emod_lt_of_pos k (b := ((N / 2 : ℕ) : ℤ)) (by omega)
  rw [← slotIdx_cast h] at this
  exact_mod_cast this

theorem Ct.Wf.comps {ct : Ct C} {L : ℕ} (h : ct.Wf L false) :
    CtIs ct L (insert "0" ct.parties) fun id i => (ct.comp id i).coeff := by
  have := h.ctIs
  rw [← insert_parties h] at this
  refine this.congr fun id hid i hi => ?_
  rw [this.comp hid hi]

theorem half_pos {logN : ℕ} (hN : C.N = 2 ^ logN) (hlog : 1 ≤ logN) : 0 < C.N / 2 := by
  obtain ⟨m, rfl⟩ : ∃ m, logN = m + 1 := ⟨logN - 1, by omega⟩
  rw [hN, pow_succ, Nat.mul_div_cancel _ (by norm_num)]
  positivity

/-- Closed form of `RotateNew`. -/
theorem rotateNew_spec {logN : ℕ} (hN : C.N = 2 ^ logN) (hlog : 1 ≤ logN) (hC : C.Good)
    {prm : CPar C} {ev : Ev C} (hok : ev.Ok) {ct : CCt C} {L : ℕ} (hL : L < C.nQ)
    (w : ct.ct.Wf L false) (k : ℤ) {rkSet : RotationKeySet (RotKey C)}
    {rk : ℕ → String → RotKey C} {a : ℕ → SwKey C}
    (hk : ∀ idx, rotNeeds prm.crs (slotIdx C.N k) idx →
      KeysAt prm.crs rkSet ct.ct.parties rk a idx) (π : Sched) :
    ∃ ev' r, ev.RotateNew prm ct k rkSet π = .ok (ev', ⟨r, ct.scale⟩) ∧ ev'.Ok ∧
      CtIs r L (insert "0" ct.ct.parties) fun id i =>
        (rotRes C prm.crs L ct.ct.parties rk a (slotIdx C.N k) ct.ct.comp id i).coeff := by
  have hh := half_pos hN hlog
  have hS := zero_notMem_parties ct.ct
  obtain ⟨ids, e0, _, m0⟩ := ct.ct.IDSet_parties (π.isOrder 0 ct.ct.value)
  have hout := new_ctIs' (C := C) L (π.isOrder 1 ids) m0
  have hidx : normIdx (C.N / 2) k = (slotIdx C.N k : ℕ) := by
    rw [normIdx_eq hh, slotIdx_cast hh]
  have hin := w.comps
  unfold Ev.RotateNew
  simp only [e0, w.level, Go.ok_bind, CCt.new]
  unfold Ev.rotate rotRes
  simp only [hidx]
  unfold rotNeeds at hk
  set r := slotIdx C.N k with hr
  by_cases h0 : r = 0
  · obtain ⟨o, e, ho⟩ := copy_spec hin hout ((π.sub 2).isOrder 0 ct.ct.value)
    refine ⟨ev, o, ?_, hok, ?_⟩
    · rw [if_pos (by exact_mod_cast h0), e]; rfl
    · rw [if_pos h0]; exact ho
  · have h0' : ((r : ℕ) : ℤ) ≠ 0 := by exact_mod_cast h0
    by_cases hc : prm.crs.has (r : ℤ) = true
    · obtain ⟨ks', o, e, hks, ho⟩ := rotate_ctIs hN hC hL hS hin hout
        (hk r ⟨h0, by rw [if_pos hc]⟩) ((π.sub 2).sub 1) hok.ksw
      refine ⟨{ ev with ksw := ks' }, o, ?_, ⟨hks, hok.pool⟩, ?_⟩
      · rw [if_neg h0', if_pos hc]
        simp only [e, Go.ok_bind]
        rfl
      · rw [if_neg h0, if_pos hc]; exact ho
    · obtain ⟨cp, e1, hcw, hg⟩ := ct.ct.CopyNew_spec w.zero_mem ((π.sub 2).isOrder 2 ct.ct.value)
      have hcp : CtIs cp L (insert "0" ct.ct.parties) fun id i => (ct.ct.comp id i).coeff := by
        refine ⟨hcw, fun id => ?_, fun id p hp => ?_, fun id p hp => ?_, fun id p hp => ?_⟩
        · rw [← hin.mem, ← GoMap.has_iff, ← GoMap.has_iff, GoMap.has, GoMap.has, hg]
        · rw [hg] at hp; exact hin.len _ _ hp
        · rw [hg] at hp; exact hin.ntt _ _ hp
        · rw [hg] at hp; exact hin.rows _ _ hp
      obtain ⟨ev', t', o, e2, h1, _, h3⟩ := rotBits_spec hN hC hL hS (prm := prm) (rkSet := rkSet)
        (rk := rk) (a := a) ((π.sub 2).sub 3) r 1 0 ev cp _ _ _ hok hcp hout (fun b hb => by
          rw [one_mul]
          exact hk _ ⟨h0, by rw [if_neg hc]; exact ⟨b, hb, rfl⟩⟩)
      refine ⟨ev', o, ?_, h1, ?_⟩
      · rw [if_neg h0', if_neg hc]
        unfold CCt.CopyNew
        simp only [e1, Go.ok_bind, Go.pure_eq, Int.toNat_natCast, e2]
      · rw [if_neg h0, if_neg hc]
        exact h3.congr fun id _ i _ => by rw [if_pos (Nat.pos_of_ne_zero h0)]

/-! ## Phase laws -/

/-- The rotation keys `rk idx` of the parties in `S` satisfy the equations of the key generator
(C34), with secret keys bounded by `T` and errors bounded by `B`. -/
structure RotFor (S : Finset String) (rk : ℕ → String → RotKey C) (a : ℕ → SwKey C)
    (s : String → Nega C.N ℤ) (T B : ℤ) (idx : ℕ) : Prop where
  eqs : ∃ e : String → ℕ → Nega C.N ℤ, (∀ id ∈ S, ∀ k, (e id k).Bdd B) ∧
    ∀ id ∈ S, SwEq (rk idx id).value (a idx)
      (Nega.auto (galInv C.N (galCol C.N idx)) (s id)) (s id) (e id)
  sec : ∀ id ∈ S, (s id).Bdd T

theorem rotBy_phase (hC : C.Good) (hF : C.Fits) {logN : ℕ} (hN : C.N = 2 ^ logN) {L : ℕ}
    (hL : L < C.nQ) {S : Finset String} (hS : "0" ∉ S) {rk : ℕ → String → RotKey C}
    {a : ℕ → SwKey C} {s : String → Nega C.N ℤ} {D T B : ℤ} (hD : digitBound C L D) {idx : ℕ}
    (hk : RotFor S rk a s T B idx) (c : String → (i : ℕ) → Nega C.N (ZMod (C.q i))) :
    ∃ W : Nega C.N ℤ, ((C.P : Nega C.N ℤ) * W).Bdd (S.card * extNoise C L D T B) ∧
      ∀ i ≤ L, ringPhase S (rotBy C L S rk a idx c) s i =
        Nega.auto (galCol C.N idx) (ringPhase S c s i) + Nega.red (C.q i) W := by
  obtain ⟨e, he, heq⟩ := hk.eqs
  exact rot_phase hC hF hN (galCol_odd _ _) hL hS (c := c) heq
    (fun id _ => digit_isDigits hC hL _) (fun id _ k hk' => digit_Bdd hC hF hD hk' _) hk.sec
    (fun id h k _ => he id h k)

theorem galCol_mul (N a b : ℕ) : galCol N a * galCol N b ≡ galCol N (a + b) [MOD 2 * N] := by
  unfold galCol
  rw [pow_add]
  exact ((Nat.mod_modEq _ _).mul (Nat.mod_modEq _ _)).trans (Nat.mod_modEq _ _).symm

theorem galCol_auto {A : Type _} [CommRing A] {N : ℕ} [NeZero N] (a b : ℕ) (x : Nega N A) :
    Nega.auto (galCol N a) (Nega.auto (galCol N b) x) = Nega.auto (galCol N (a + b)) x := by
  rw [Nega.auto_auto _ _ (galCol_odd _ _), Nega.auto_congr (galCol_mul N a b)]

theorem galCol_zero_auto {A : Type _} [CommRing A] {N : ℕ} [NeZero N] (x : Nega N A) :
    Nega.auto (galCol N 0) x = x := by
  rw [Nega.auto_congr (h := 1) (by unfold galCol; rw [pow_zero]; exact Nat.mod_modEq _ _),
    Nega.auto_one]

theorem auto_add' {A : Type _} [CommRing A] {N : ℕ} [NeZero N] {g : ℕ} (hg : Odd g)
    (x y : Nega N A) : Nega.auto g (x + y) = Nega.auto g x + Nega.auto g y :=
  map_add (Nega.autoHom g hg) x y

theorem rotBits_phase (hC : C.Good) (hF : C.Fits) {logN : ℕ} (hN : C.N = 2 ^ logN) {L : ℕ}
    (hL : L < C.nQ) {S : Finset String} (hS : "0" ∉ S) {rk : ℕ → String → RotKey C}
    {a : ℕ → SwKey C} {s : String → Nega C.N ℤ} {D T B : ℤ} (hD : digitBound C L D) (r : ℕ) :
    ∀ (p : ℕ) (c : String → (i : ℕ) → Nega C.N (ZMod (C.q i))),
      (∀ b, r.testBit b = true → RotFor S rk a s T B (p * 2 ^ b)) →
    ∃ W : Nega C.N ℤ, ((C.P : Nega C.N ℤ) * W).Bdd
        ((Nat.digits 2 r).sum * (S.card * extNoise C L D T B)) ∧
      ∀ i ≤ L, ringPhase S (rotBitsBy C L S rk a r p c) s i =
        Nega.auto (galCol C.N (p * r)) (ringPhase S c s i) + Nega.red (C.q i) W := by
  induction r using Nat.strong_induction_on with
  | _ r ih =>
    intro p c hk
    by_cases hr : 0 < r
    · have hk' : ∀ b, (r / 2).testBit b = true → RotFor S rk a s T B (p * 2 * 2 ^ b) := by
        intro b hb
        rw [Nat.testBit_div_two] at hb
        have := hk _ hb
        rwa [pow_succ, mul_comm (2 ^ b), ← mul_assoc] at this
      have hdig : (Nat.digits 2 r).sum = r % 2 + (Nat.digits 2 (r / 2)).sum := by
        rw [Nat.digits_def' (by norm_num) hr, List.sum_cons]
      by_cases hodd : r % 2 ≠ 0
      · have hk0 := hk 0 (by rw [Nat.testBit_zero]; simp; omega)
        rw [pow_zero, mul_one] at hk0
        obtain ⟨W1, b1, h1⟩ := rotBy_phase hC hF hN hL hS hD hk0 c
        obtain ⟨W2, b2, h2⟩ := ih (r / 2) (by omega) (p * 2) (rotBy C L S rk a p c) hk'
        refine ⟨Nega.auto (galCol C.N (p * 2 * (r / 2))) W1 + W2, ?_, fun i hi => ?_⟩
        · have h3 := (b1.auto (galCol C.N (p * 2 * (r / 2))) (galCol_coprime hN _)).add b2
          have e : Nega.auto (galCol C.N (p * 2 * (r / 2))) ((C.P : Nega C.N ℤ) * W1) =
              (C.P : Nega C.N ℤ) * Nega.auto (galCol C.N (p * 2 * (r / 2))) W1 := by
            have := map_mul (Nega.autoHom (A := ℤ) (galCol C.N (p * 2 * (r / 2)))
              (galCol_odd _ _)) (C.P : Nega C.N ℤ) W1
            rw [map_natCast] at this
            exact this
          rw [e, ← mul_add] at h3
          refine h3.mono (le_of_eq ?_)
          rw [hdig, show r % 2 = 1 by omega]
          push_cast
          ring
        · rw [rotBitsBy, if_pos hr, if_pos hodd, h2 i hi, h1 i hi, auto_add' (galCol_odd _ _),
            galCol_auto, Nega.auto_red, map_add, add_assoc]
          congr 3
          have : r = 2 * (r / 2) + 1 := by omega
          conv_rhs => rw [this]
          ring
      · obtain ⟨W2, b2, h2⟩ := ih (r / 2) (by omega) (p * 2) c hk'
        refine ⟨W2, ?_, fun i hi => ?_⟩
        · rw [hdig, show r % 2 = 0 by omega, zero_add]; exact b2
        · rw [rotBitsBy, if_pos hr, if_neg hodd, h2 i hi]
          congr 3
          have : r = 2 * (r / 2) := by omega
          conv_rhs => rw [this]
          ring
    · refine ⟨0, ?_, fun i hi => ?_⟩
      · have : r = 0 := by omega
        subst this
        intro x
        simp
      · have : r = 0 := by omega
        subst this
        rw [rotBitsBy, if_neg hr, mul_zero, galCol_zero_auto, map_zero, add_zero]

theorem rotRes_phase (hC : C.Good) (hF : C.Fits) {logN : ℕ} (hN : C.N = 2 ^ logN) {L : ℕ}
    (hL : L < C.nQ) {S : Finset String} (hS : "0" ∉ S) {crs : CRS C}
    {rk : ℕ → String → RotKey C} {a : ℕ → SwKey C} {s : String → Nega C.N ℤ} {D T B : ℤ}
    (hD : digitBound C L D) (r : ℕ) (hk : ∀ idx, rotNeeds crs r idx → RotFor S rk a s T B idx)
    (c : String → (i : ℕ) → Nega C.N (ZMod (C.q i))) :
    ∃ W : Nega C.N ℤ, ((C.P : Nega C.N ℤ) * W).Bdd
        (rotCount crs r * (S.card * extNoise C L D T B)) ∧
      ∀ i ≤ L, ringPhase S (rotRes C crs L S rk a r c) s i =
        Nega.auto (galCol C.N r) (ringPhase S c s i) + Nega.red (C.q i) W := by
  unfold rotRes rotCount
  by_cases h0 : r = 0
  · rw [if_pos h0, if_pos h0]
    subst h0
    refine ⟨0, fun x => by simp, fun i _ => ?_⟩
    rw [galCol_zero_auto, map_zero, add_zero]
  rw [if_neg h0, if_neg h0]
  by_cases hc : crs.has (r : ℤ) = true
  · rw [if_pos hc, if_pos hc, Nat.cast_one, one_mul]
    exact rotBy_phase hC hF hN hL hS hD (hk r ⟨h0, by rw [if_pos hc]⟩) c
  · rw [if_neg hc, if_neg hc]
    have := rotBits_phase hC hF hN hL hS hD r 1 c (fun b hb => by
      rw [one_mul]
      exact hk _ ⟨h0, by rw [if_neg hc]; exact ⟨b, hb, rfl⟩⟩)
    rwa [one_mul] at this

/-- **C24 (`RotateNew`).** For every integer `k` (negative, zero, larger than the number of
slots), every well-formed ciphertext, every iteration order and every state of the evaluator: if
the keys for the needed indices are registered and satisfy the equations of the key generator,
then `RotateNew` succeeds and the phase of the result is the automorphism `X ↦ X^(5^r)`,
`r = k mod N/2`, of the phase of the input plus `W` with
`P·|W| ≤ m·n·(beta·N·D·B + 2P + 2·N·T·P)`, where `n` is the number of parties and `m` the number
of key switchings: 0 for `r = 0`, 1 if `r` has a CRS entry, else the number of ones in the binary
expansion of `r`. Level, scale and participants are those of the input. -/
theorem C24_RotateNew {logN : ℕ} (hN : C.N = 2 ^ logN) (hlog : 1 ≤ logN) (hC : C.Good)
    (hF : C.Fits) {prm : CPar C} {ev : Ev C} (hok : ev.Ok) {ct : CCt C} {L : ℕ} (hL : L < C.nQ)
    (w : ct.ct.Wf L false) (k : ℤ) {rkSet : RotationKeySet (RotKey C)}
    {rk : ℕ → String → RotKey C} {a : ℕ → SwKey C}
    (hk : ∀ idx, rotNeeds prm.crs (slotIdx C.N k) idx →
      KeysAt prm.crs rkSet ct.ct.parties rk a idx) {s : String → Nega C.N ℤ} {D T B : ℤ}
    (heq : ∀ idx, rotNeeds prm.crs (slotIdx C.N k) idx → RotFor ct.ct.parties rk a s T B idx)
    (hD : ∀ k < C.beta L, (2 * blockSetProd C L k : ℤ) ≤ D) (π : Sched) :
    ∃ ev' r W, ev.RotateNew prm ct k rkSet π = .ok (ev', r) ∧ ev'.Ok ∧
      r.ct.Wf L false ∧ r.ct.parties = ct.ct.parties ∧ r.scale = ct.scale ∧
      (∀ x, C.P * |Nega.coeff W x| ≤
        rotCount prm.crs (slotIdx C.N k) * (ct.ct.parties.card * extNoise C L D T B)) ∧
      ∀ i ≤ L, r.ct.phase s i =
        Nega.auto (5 ^ slotIdx C.N k) (ct.ct.phase s i) + Nega.red (C.q i) W := by
  obtain ⟨ev', r, e, hev, hr⟩ := rotateNew_spec hN hlog hC hok hL w k hk π
  have hD' : digitBound C L D := fun k hk' => by
    rw [blockProd_eq hC.alpha_pos' hk']; exact hD k hk'
  obtain ⟨W, hW, hph⟩ := rotRes_phase hC hF hN hL (zero_notMem_parties ct.ct) hD' _ heq ct.ct.comp
  refine ⟨ev', ⟨r, ct.scale⟩, W, e, hev, hr.toWf (mem_insert_self _ _),
    hr.parties (zero_notMem_parties _), rfl, fun x => ?_, fun i hi => ?_⟩
  · have := hW x
    rw [Nega.coeff_natCast_mul, abs_mul] at this
    simpa using this
  · rw [hr.phase (zero_notMem_parties _) s hi, phase_eq_ringPhase w.zero_mem, hph i hi]
    congr 1
    exact Nega.auto_congr (Nat.mod_modEq _ _) _

/-! ## C25 -/

/-- `GenDefaultRotationKeys` for each of several secret keys, into one key set. -/
def genAllRot (crs : CRS C) (poolQ : RQ C) (e : String → ℕ → ℕ → Nega C.N ℤ) :
    List (SecretKey C) → RotationKeySet (RotKey C) → Go (RotationKeySet (RotKey C))
  | [], set => .ok set
  | sk :: sks, set => do
    let set ← GenDefaultRotationKeys crs poolQ (e sk.id) sk set
    genAllRot crs poolQ e sks set

theorem RotationKeySet.get_of_get2 {κ : Type _} {s : RotationKeySet κ} {id : String} {r : ℕ}
    {k : κ} (h : s.get2 id r = some k) : s.get id r = .ok k := by
  unfold RotationKeySet.get2 at h
  unfold RotationKeySet.get
  cases h1 : s.value.get? id with
  | none => rw [h1] at h; simp at h
  | some inner =>
    rw [h1] at h
    simp only [Option.bind_some] at h
    simp only [h]

theorem genAllRot_spec {logN : ℕ} (hN : C.N = 2 ^ logN) (sample : ℤ → SwKey C) (poolQ : RQ C)
    (e : String → ℕ → ℕ → Nega C.N ℤ) (sks : List (SecretKey C)) :
    ∀ set : RotationKeySet (RotKey C),
    ∃ r, genAllRot (newCRS logN sample) poolQ e sks set = .ok r ∧
      ∀ id, (id ∈ sks.map (·.id) ∨ ∀ u, 2 ^ u < C.N / 2 → ∃ k, set.get2 id (2 ^ u) = some k) →
        ∀ u, 2 ^ u < C.N / 2 → ∃ k, r.get2 id (2 ^ u) = some k := by
  induction sks with
  | nil => exact fun set => ⟨set, rfl, fun id h => h.resolve_left (by simp)⟩
  | cons sk sks ih =>
    intro set
    obtain ⟨r1, e1, h1, h2⟩ := C35_default_rotation_keys hN sample poolQ (e sk.id) sk set
    obtain ⟨r, e2, h3⟩ := ih r1
    refine ⟨r, ?_, fun id hid => h3 id ?_⟩
    · simp only [genAllRot, e1, Go.ok_bind, e2]
    · by_cases hs : id = sk.id
      · subst hs
        exact Or.inr fun u hu => (h1 u hu).imp fun k hk => hk.2.2
      · rcases hid with h | h
        · rw [List.map_cons, List.mem_cons] at h
          exact Or.inl (h.resolve_left hs)
        · exact Or.inr fun u hu => by rw [h2 _ _ (Or.inl hs)]; exact h u hu

theorem newCRS_has {logN : ℕ} (sample : ℤ → SwKey C) {r : ℕ} (h0 : r ≠ 0) :
    (newCRS logN sample).has (r : ℤ) = true ↔ ∃ u, u < logN - 1 ∧ r = 2 ^ u := by
  rw [GoMap.has_iff, newCRS_keys]
  constructor
  · rintro (h | ⟨t, h1, h2⟩)
    · simp at h; omega
    · exact ⟨t, h1, by exact_mod_cast h2⟩
  · rintro ⟨u, h1, rfl⟩
    exact Or.inr ⟨u, h1, by push_cast; rfl⟩

/-- **C25.** With the default CRS, `GenDefaultRotationKeys` succeeds for every list of secret
keys, and with the resulting key set `RotateNew(ct, k)` does not panic, for every integer `k` and
every ciphertext whose participants are among the owners. -/
theorem C25_default_keys_suffice {logN : ℕ} (hN : C.N = 2 ^ logN) (hlog : 1 ≤ logN)
    (hC : C.Good) {prm : CPar C} {sample : ℤ → SwKey C} (hcrs : prm.crs = newCRS logN sample)
    (poolQ : RQ C) (e : String → ℕ → ℕ → Nega C.N ℤ) (sks : List (SecretKey C)) :
    ∃ rkSet, genAllRot prm.crs poolQ e sks RotationKeySet.new = .ok rkSet ∧
      ∀ (ev : Ev C) (ct : CCt C) (L : ℕ) (k : ℤ) (π : Sched), ev.Ok → L < C.nQ →
        ct.ct.Wf L false → (∀ id ∈ ct.ct.parties, id ∈ sks.map (·.id)) →
        ¬ (ev.RotateNew prm ct k rkSet π).panics := by
  rw [hcrs]
  obtain ⟨rkSet, h1, h2⟩ := genAllRot_spec hN sample poolQ e sks RotationKeySet.new
  refine ⟨rkSet, h1, fun ev ct L k π hok hL w hp => ?_⟩
  have hh := half_pos hN hlog
  have hhalf : C.N / 2 = 2 ^ (logN - 1) := by
    obtain ⟨m, rfl⟩ : ∃ m, logN = m + 1 := ⟨logN - 1, by omega⟩
    rw [hN, pow_succ, Nat.mul_div_cancel _ (by norm_num), Nat.add_sub_cancel]
  have hlt := slotIdx_lt hh k
  have key : ∀ idx, rotNeeds prm.crs (slotIdx C.N k) idx → ∃ u, u < logN - 1 ∧ idx = 2 ^ u := by
    rintro idx ⟨h0, hidx⟩
    rw [hcrs] at hidx
    split at hidx
    · rename_i hc
      subst hidx
      exact (newCRS_has sample h0).mp hc
    · obtain ⟨b, hb, rfl⟩ := hidx
      refine ⟨b, ?_, rfl⟩
      have := Nat.ge_two_pow_of_testBit hb
      rw [hhalf] at hlt
      exact (Nat.pow_lt_pow_iff_right (by norm_num)).mp (lt_of_le_of_lt this hlt)
  obtain ⟨ev', r, he, _⟩ := rotateNew_spec (prm := prm) hN hlog hC hok hL w k (rkSet := rkSet)
    (rk := fun idx id => match rkSet.get2 id idx with
      | some k => k
      | none => ⟨id, idx, SwKey.new⟩)
    (a := fun idx => match prm.crs.get? (idx : ℤ) with
      | some a => a
      | none => SwKey.new) (by
      intro idx hidx
      obtain ⟨u, hu, rfl⟩ := key idx hidx
      have hu' : 2 ^ u < C.N / 2 := by rw [hhalf]; exact Nat.pow_lt_pow_right (by norm_num) hu
      refine ⟨?_, fun id hid => ?_⟩
      · have : prm.crs.has ((2 ^ u : ℕ) : ℤ) = true := by
          rw [hcrs]; exact (newCRS_has sample (by positivity)).mpr ⟨u, hu, rfl⟩
        obtain ⟨a, ha⟩ := GoMap.exists_get?_of_mem ((GoMap.has_iff _ _).mp this)
        simp only [ha]
      · obtain ⟨k, hk⟩ := h2 id (Or.inl (hp id hid)) u hu'
        simp only [hk]
        exact RotationKeySet.get_of_get2 hk) π
  rintro ⟨p, hp'⟩
  rw [he] at hp'
  cases hp'

/-! ## C26, C23 -/

theorem rotateHoistedNew_eq (prm : CPar C) (ev : Ev C) {ct : CCt C} {L : ℕ}
    (w : ct.ct.Wf L false) (k : ℤ) (H : HoistedCt C) (rkSet : RotationKeySet (RotKey C))
    (π : Sched) :
    ∃ out : Ct C, CtIs out L (insert "0" ct.ct.parties) (fun _ _ => 0) ∧
      ev.RotateHoistedNew prm ct k H rkSet π =
        ev.rotateHoisted prm ct k H rkSet ⟨out, ct.scale⟩ (π.sub 2) := by
  obtain ⟨ids, e0, _, m0⟩ := ct.ct.IDSet_parties (π.isOrder 0 ct.ct.value)
  refine ⟨_, new_ctIs' (C := C) L (π.isOrder 1 ids) m0, ?_⟩
  unfold Ev.RotateHoistedNew
  simp only [e0, w.level, Go.ok_bind, CCt.new]

/-- **C26 (no CRS entry).** `RotateHoistedNew` panics, with the message of the code, for every
index whose remainder modulo the number of slots is non-zero and has no CRS entry. -/
theorem C26_panics (hh : 0 < C.N / 2) (prm : CPar C) (ev : Ev C) {ct : CCt C} {L : ℕ}
    (w : ct.ct.Wf L false) (k : ℤ) (h0 : slotIdx C.N k ≠ 0)
    (hc : prm.crs.get? (slotIdx C.N k : ℕ) = none) (H : HoistedCt C)
    (rkSet : RotationKeySet (RotKey C)) (π : Sched) :
    ev.RotateHoistedNew prm ct k H rkSet π =
      .error (.msg "Hoisted rotation only works for precomputed rotation keys") := by
  obtain ⟨out, _, e⟩ := rotateHoistedNew_eq prm ev w k H rkSet π
  have hidx : normIdx (C.N / 2) k = (slotIdx C.N k : ℕ) := by
    rw [normIdx_eq hh, slotIdx_cast hh]
  have hc' : ¬ prm.crs.has (slotIdx C.N k : ℕ) = true := by
    unfold GoMap.has
    rw [hc]
    simp
  rw [e]
  unfold Ev.rotateHoisted
  simp only [hidx]
  rw [if_neg (by exact_mod_cast h0), if_neg hc']

theorem rotateHoistedNew_copy (hh : 0 < C.N / 2) (prm : CPar C) (ev : Ev C) {ct : CCt C} {L : ℕ}
    (w : ct.ct.Wf L false) (k : ℤ) (h0 : slotIdx C.N k = 0) (H : HoistedCt C)
    (rkSet : RotationKeySet (RotKey C)) (π : Sched) :
    ∃ r, ev.RotateHoistedNew prm ct k H rkSet π = .ok (ev, ⟨r, ct.scale⟩) ∧
      CtIs r L (insert "0" ct.ct.parties) fun id i => (ct.ct.comp id i).coeff := by
  obtain ⟨out, hout, e⟩ := rotateHoistedNew_eq prm ev w k H rkSet π
  have hidx : normIdx (C.N / 2) k = 0 := by
    rw [normIdx_eq hh, ← slotIdx_cast hh, h0]; rfl
  obtain ⟨o, e1, ho⟩ := copy_spec w.comps hout ((π.sub 2).isOrder 0 ct.ct.value)
  refine ⟨o, ?_, ho⟩
  rw [e]
  unfold Ev.rotateHoisted
  simp only [hidx, if_true, e1, Go.ok_bind]
  rfl

/-- **C26 (multiples of the number of slots).** For `k = 0 mod N/2`, `RotateHoistedNew` returns a
copy of its argument, whatever the hoisted form and the keys. -/
theorem C26_copy (hh : 0 < C.N / 2) (prm : CPar C) (ev : Ev C) {ct : CCt C} {L : ℕ}
    (w : ct.ct.Wf L false) (k : ℤ) (h0 : ((C.N / 2 : ℕ) : ℤ) ∣ k) (H : HoistedCt C)
    (rkSet : RotationKeySet (RotKey C)) (π : Sched) :
    ∃ r, ev.RotateHoistedNew prm ct k H rkSet π = .ok (ev, r) ∧ r.ct.Same ct.ct ∧
      r.scale = ct.scale := by
  obtain ⟨r, h1, h2⟩ := rotateHoistedNew_copy hh prm ev w k (by
    unfold slotIdx
    rw [Int.emod_eq_zero_of_dvd h0]; rfl) H rkSet π
  exact ⟨_, h1, h2.same w.comps, rfl⟩

/-- Closed form of `RotateHoistedNew`. -/
theorem rotateHoistedNew_spec {logN : ℕ} (hN : C.N = 2 ^ logN) (hlog : 1 ≤ logN) (hC : C.Good)
    {prm : CPar C} {ev : Ev C} (hok : ev.Ok) {ct : CCt C} {L : ℕ}
    (hL : L < C.nQ) (w : ct.ct.Wf L false) (k : ℤ) {rkSet : RotationKeySet (RotKey C)}
    {rk : ℕ → String → RotKey C} {a : ℕ → SwKey C}
    (hc : slotIdx C.N k = 0 ∨ KeysAt prm.crs rkSet ct.ct.parties rk a (slotIdx C.N k))
    {H : HoistedCt C} (hH : IsHoisted L ct.ct H) (π : Sched) :
    ∃ ev' r, ev.RotateHoistedNew prm ct k H rkSet π = .ok (ev', ⟨r, ct.scale⟩) ∧ ev'.Ok ∧
      CtIs r L (insert "0" ct.ct.parties) fun id i =>
        (rotRes C prm.crs L ct.ct.parties rk a (slotIdx C.N k) ct.ct.comp id i).coeff := by
  have hh := half_pos hN hlog
  unfold rotRes
  by_cases h0 : slotIdx C.N k = 0
  · obtain ⟨r1, q1, h1⟩ := rotateHoistedNew_copy hh prm ev w k h0 H rkSet π
    rw [if_pos h0]
    exact ⟨ev, _, q1, hok, h1⟩
  · obtain ⟨out, hout, e⟩ := rotateHoistedNew_eq prm ev w k H rkSet π
    have hk := hc.resolve_left h0
    have hhas : prm.crs.has (slotIdx C.N k : ℕ) = true := by
      rw [GoMap.has_iff]
      exact GoMap.mem_keys_of_get? hk.1
    have hidx : normIdx (C.N / 2) k = (slotIdx C.N k : ℕ) := by
      rw [normIdx_eq hh, slotIdx_cast hh]
    obtain ⟨ks', o, e1, hks, ho⟩ := rotateHoisted_spec hN hC (ctIn := ct.ct) (ctOut := out)
      (H := { lt := hL
              wfIn := ⟨L, le_rfl, w⟩
              wfOut := hout.toWf (mem_insert_self _ _)
              keysOut := fun id => by rw [hout.mem, w.comps.mem]
              ord := ((π.sub 2).sub 1).rotOrd_ok w.wf }) (crs := prm.crs)
      (rot := ((slotIdx C.N k : ℕ) : ℤ)) (rkSet := rkSet) (rk := rk (slotIdx C.N k))
      (a := a (slotIdx C.N k))
      (by rw [normRot_natCast]; exact hk.2) (by rw [normRot_natCast]; exact hk.1) hH ev.ksw hok.ksw
    rw [normRot_natCast] at ho
    rw [if_neg h0, if_pos hhas]
    refine ⟨{ ev with ksw := ks' }, o, ?_, ⟨hks, hok.pool⟩, ho⟩
    rw [e]
    unfold Ev.rotateHoisted
    simp only [hidx]
    rw [if_neg (by exact_mod_cast h0), if_pos hhas]
    simp only [e1, Go.ok_bind]
    rfl

/-- **C23 (`RotateHoistedNew`).** With a hoisted form of the input (in particular the one
`HoistedForm` returns) and whenever it does not reject the index (C26), `RotateHoistedNew` returns
exactly what `RotateNew` returns, from any two states of the evaluator and in any iteration
orders. -/
theorem C23_RotateHoistedNew {logN : ℕ} (hN : C.N = 2 ^ logN) (hlog : 1 ≤ logN) (hC : C.Good)
    {prm : CPar C} {ev ev' : Ev C} (hok : ev.Ok) (hok' : ev'.Ok) {ct : CCt C} {L : ℕ}
    (hL : L < C.nQ) (w : ct.ct.Wf L false) (k : ℤ) {rkSet : RotationKeySet (RotKey C)}
    {rk : ℕ → String → RotKey C} {a : ℕ → SwKey C}
    (hc : slotIdx C.N k = 0 ∨ KeysAt prm.crs rkSet ct.ct.parties rk a (slotIdx C.N k))
    {H : HoistedCt C} (hH : IsHoisted L ct.ct H) (π π' : Sched) :
    ∃ e1 e2 r1 r2, ev.RotateHoistedNew prm ct k H rkSet π = .ok (e1, r1) ∧
      ev'.RotateNew prm ct k rkSet π' = .ok (e2, r2) ∧ e1.Ok ∧ e2.Ok ∧
      r1.ct.Same r2.ct ∧ r1.scale = r2.scale := by
  have hhas : slotIdx C.N k ≠ 0 → prm.crs.has (slotIdx C.N k : ℕ) = true := fun h0 => by
    rw [GoMap.has_iff]
    exact GoMap.mem_keys_of_get? (hc.resolve_left h0).1
  obtain ⟨e1, r1, q1, hok1, hr1⟩ := rotateHoistedNew_spec hN hlog hC hok hL w k hc hH π
  obtain ⟨e2, r2, q2, hok2, hr2⟩ := rotateNew_spec hN hlog hC hok' hL w k (rkSet := rkSet)
    (rk := rk) (a := a) (prm := prm) (by
      rintro idx ⟨h0, hidx⟩
      rw [if_pos (hhas h0)] at hidx
      rw [hidx]
      exact hc.resolve_left h0) π'
  exact ⟨e1, e2, _, _, q1, q2, hok1, hok2, hr1.same hr2, rfl⟩

/-! ## C27 -/

/-- **C27 (`ConjugateNew`).** At the maximum level the phase of the result is the automorphism
`X ↦ X^(2N-1)` of the phase of the input plus bounded noise; level, scale and participants are
kept. -/
theorem C27_ConjugateNew {logN : ℕ} (hN : C.N = 2 ^ logN) (hC : C.Good) (hF : C.Fits)
    {prm : CPar C} {ev : Ev C} (hok : ev.Ok) {ct : CCt C} (w : ct.ct.Wf C.lq false)
    (hL : C.lq < C.nQ) {ckSet : KeySet (ConjKey C)} {ck : String → ConjKey C} {u : SwKey C}
    (hck : ∀ id ∈ ct.ct.parties, ckSet.get id = .ok (ck id)) (hu : prm.crs.get? (-2) = some u)
    {s : String → Nega C.N ℤ} {e : String → ℕ → Nega C.N ℤ}
    (hk : ∀ id ∈ ct.ct.parties, SwEq (ck id).value u (s id) (Nega.auto (2 * C.N - 1) (s id)) (e id))
    {D T B : ℤ} (hD : ∀ k < C.beta C.lq, (2 * blockSetProd C C.lq k : ℤ) ≤ D)
    (hs : ∀ id ∈ ct.ct.parties, (s id).Bdd T) (he : ∀ id ∈ ct.ct.parties, ∀ k, (e id k).Bdd B)
    (π : Sched) :
    ∃ ev' r W, ev.ConjugateNew prm ct ckSet π = .ok (ev', r) ∧ ev'.Ok ∧
      r.ct.Wf C.lq false ∧ r.ct.parties = ct.ct.parties ∧ r.scale = ct.scale ∧
      (∀ x, C.P * |Nega.coeff W x| ≤ ct.ct.parties.card * extNoise C C.lq D T B) ∧
      ∀ i ≤ C.lq, r.ct.phase s i = Nega.auto (2 * C.N - 1) (ct.ct.phase s i) +
        Nega.red (C.q i) W := by
  obtain ⟨ids, e0, _, m0⟩ := ct.ct.IDSet_parties (π.isOrder 0 ct.ct.value)
  have hout := new_ctIs' (C := C) C.lq (π.isOrder 1 ids) m0
  obtain ⟨ks', r, W, h1, h2, h3, h4, h5, h6⟩ := C27_Conjugate hN hC hF (ctIn := ct.ct)
    (H := { lt := hL
            wfIn := ⟨C.lq, le_rfl, w⟩
            wfOut := hout.toWf (mem_insert_self _ _)
            keysOut := fun id => by rw [hout.mem, w.comps.mem]
            ord := (π.sub 2).rotOrd_ok w.wf }) hck hu hk hD hs he ev.ksw hok.ksw
  refine ⟨{ ev with ksw := ks' }, ⟨r, ct.scale⟩, W, ?_, ⟨h2, hok.pool⟩, h3, h4, rfl, h5, h6⟩
  unfold Ev.ConjugateNew
  simp only [e0, w.level, Go.ok_bind, CCt.new, h1]
  rfl

/-- **C27 (below the maximum level).** `ConjugateNew` of any well-formed ciphertext below the
maximum level panics. -/
theorem C27_ConjugateNew_below_max_panics (prm : CPar C) (ev : Ev C) {ct : CCt C} {L : ℕ}
    (hL : L + 1 < C.nQ) (w : ct.ct.Wf L false) (ckSet : KeySet (ConjKey C)) (π : Sched) :
    ev.ConjugateNew prm ct ckSet π = .error .indexRange := by
  obtain ⟨ids, e0, _, m0⟩ := ct.ct.IDSet_parties (π.isOrder 0 ct.ct.value)
  have hout := new_ctIs' (C := C) L (π.isOrder 1 ids) m0
  have := C27_below_max_panics hL w (hout.toWf (mem_insert_self _ _))
    (fun id => by rw [hout.mem, w.comps.mem]) ((π.sub 2).rotOrd_ok w.wf) prm.crs ckSet ev.ksw
  unfold Ev.ConjugateNew
  simp only [e0, w.level, Go.ok_bind, CCt.new, this]
  rfl

end MK
