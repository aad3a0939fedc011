import Verif.Props.ExEval

/-!
# A second parameter set: N = 8, blocks of two moduli

`alpha = 2`, so gadget digits combine two moduli (the last block is incomplete), and there are
four slots, so a rotation by 3 is made of the rotations by 1 and 2.
-/

noncomputable section

namespace MK

open Finset

instance : Fact (Nat.Prime 193) := ⟨by norm_num⟩
instance : Fact (Nat.Prime 241) := ⟨by norm_num⟩
instance : Fact (Nat.Prime 257) := ⟨by norm_num⟩
instance : Fact (Nat.Prime 337) := ⟨by norm_num⟩

def ex8Q : ℕ → ℕ
  | 0 => 97
  | 1 => 17
  | 2 => 113
  | _ => 1

def ex8P : ℕ → ℕ
  | 0 => 193
  | 1 => 241
  | 2 => 257
  | 3 => 337
  | _ => 1

def ex8Roots (q : ℕ) (ψ : ZMod q) (j : Fin 8) : ZMod q := ψ ^ (![1, 9, 5, 13, 3, 11, 7, 15] j : ℕ)

def ex8NttQ : Ntt 8 ex8Q where
  equiv
  | 0 => evalEquiv 8 97 (ex8Roots 97 8) (by decide) (by decide)
  | 1 => evalEquiv 8 17 (ex8Roots 17 3) (by decide) (by decide)
  | 2 => evalEquiv 8 113 (ex8Roots 113 35) (by decide) (by decide)
  | _ + 3 => trivEquiv 8

def ex8NttP : Ntt 8 ex8P where
  equiv
  | 0 => evalEquiv 8 193 (ex8Roots 193 3) (by decide) (by decide)
  | 1 => evalEquiv 8 241 (ex8Roots 241 44) (by decide) (by decide)
  | 2 => evalEquiv 8 257 (ex8Roots 257 2) (by decide) (by decide)
  | 3 => evalEquiv 8 337 (ex8Roots 337 30) (by decide) (by decide)
  | _ + 4 => trivEquiv 8

def ex8Ctx : Ctx where
  N := 8
  q := ex8Q
  p := ex8P
  nQ := 3
  nP := 4
  gamma := 2
  nttQ := ex8NttQ
  nttP := ex8NttP
  fv := exactV

theorem ex8Ctx_good : ex8Ctx.Good where
  oddQ := by
    intro i
    match i with
    | 0 | 1 | 2 => decide
    | _ + 3 => exact Nat.coprime_one_left _
  oddP := by
    intro i
    match i with
    | 0 | 1 | 2 | 3 => decide
    | _ + 4 => exact Nat.coprime_one_left _
  posQ := by
    intro i
    match i with
    | 0 | 1 | 2 => decide
    | _ + 3 => exact Nat.one_pos
  posP := by
    intro i
    match i with
    | 0 | 1 | 2 | 3 => decide
    | _ + 4 => exact Nat.one_pos
  copQ := by
    show ∀ i j, i < 3 → j < 3 → i ≠ j → (ex8Q i).Coprime (ex8Q j)
    intro i j hi hj hij
    interval_cases i <;> interval_cases j <;> first | exact absurd rfl hij | decide
  copP := by
    show ∀ i j, i < 4 → j < 4 → i ≠ j → (ex8P i).Coprime (ex8P j)
    intro i j hi hj hij
    interval_cases i <;> interval_cases j <;> first | exact absurd rfl hij | decide
  copQP := by
    show ∀ i j, i < 3 → j < 4 → (ex8Q i).Coprime (ex8P j)
    intro i j hi hj
    interval_cases i <;> interval_cases j <;> decide
  nQ_pos := by decide
  alpha_pos := by decide

theorem ex8Ctx_fits : ex8Ctx.Fits where
  float := exactV_ok
  q_lt := by
    intro i
    match i with
    | 0 | 1 | 2 => decide
    | n + 3 => show ex8Ctx.q (n + 3) < 2 ^ 61; exact (by decide : 1 < 2 ^ 61)
  p_lt := by
    intro i
    match i with
    | 0 | 1 | 2 | 3 => decide
    | n + 4 => show ex8Ctx.p (n + 4) < 2 ^ 61; exact (by decide : 1 < 2 ^ 61)
  nP_le := by decide

theorem ex8Ctx_N : ex8Ctx.N = 2 ^ 3 := rfl

def ex8Sample (idx : ℤ) : SwKey ex8Ctx := fun k =>
  ⟨⟨3, fun _ j => ((idx + 3 * k + j.val : ℤ) : ZMod _), false⟩,
   ⟨4, fun _ j => ((idx + 5 * k + j.val : ℤ) : ZMod _), false⟩⟩

def ex8Crs : CRS ex8Ctx := newCRS 3 ex8Sample

theorem ex8Crs_get (k : ℤ) (hk : k ∈ [0, -1, -2, -3, -4, 1, 2]) :
    ex8Crs.get? k = some (ex8Sample k) := by
  simp only [List.mem_cons, List.not_mem_nil, or_false] at hk
  rcases hk with rfl | rfl | rfl | rfl | rfl | rfl | rfl <;> rfl

theorem ex8Crs_three : ex8Crs.get? 3 = none := rfl

def ex8S : Nega ex8Ctx.N ℤ := ⟨(![1, 0, -1, 1, 0, 0, -1, 1] : Fin 8 → ℤ)⟩
def ex8E : Nega ex8Ctx.N ℤ := ⟨(![1, -2, 0, 2, 1, 1, 0, -1] : Fin 8 → ℤ)⟩

theorem ex8S_bdd : ex8S.Bdd 1 := by
  show ∀ i : Fin 8, |(![1, 0, -1, 1, 0, 0, -1, 1] : Fin 8 → ℤ) i| ≤ 1
  decide
theorem ex8E_bdd : ex8E.Bdd 2 := by
  show ∀ i : Fin 8, |(![1, -2, 0, 2, 1, 1, 0, -1] : Fin 8 → ℤ) i| ≤ 2
  decide
theorem ex8S_small : Small ex8Ctx ex8S := small_of_bdd ex8S_bdd (by decide)
theorem ex8E_small : Small ex8Ctx ex8E := small_of_bdd ex8E_bdd (by decide)

/-- Alice's rotation keys for 1 and 2. -/
theorem ex8Rot (idx : ℕ) (hi : idx = 1 ∨ idx = 2) :
    ∃ rk, GenRotationKey ex8Crs (RPoly.new 3) (fun _ => ex8E) idx
      (GenSecretKey ex8S "alice") = .ok rk ∧ rk.id = "alice" ∧ rk.rotIdx = idx ∧
    SwEq rk.value (ex8Sample idx) (Nega.auto (galInv 8 (galCol 8 idx)) ex8S) ex8S
      (fun _ => ex8E) := by
  have h : normRot (ex8Ctx.N / 2) idx = idx := by
    rcases hi with rfl | rfl <;> rw [normRot] <;> decide
  have := C34_rotation_key ex8Ctx_good (crs := ex8Crs) (rot := idx)
    (by rcases hi with rfl | rfl <;> rfl)
    (by rw [h]; exact ex8Crs_get idx (by rcases hi with rfl | rfl <;> decide))
    (C34_secret_key ex8Ctx_good ex8S_small "alice").1 (e := fun _ => ex8E) (fun _ => ex8E_small)
    (RPoly.new 3)
  rw [h, Int.toNat_natCast] at this
  exact this

def ex8Rk (idx : ℕ) : RotKey ex8Ctx :=
  if h : idx = 1 ∨ idx = 2 then (ex8Rot idx h).choose else ⟨"", 0, SwKey.new⟩

theorem ex8Rk_spec {idx : ℕ} (h : idx = 1 ∨ idx = 2) : (ex8Rk idx).id = "alice" ∧
    (ex8Rk idx).rotIdx = idx ∧
    SwEq (ex8Rk idx).value (ex8Sample idx) (Nega.auto (galInv 8 (galCol 8 idx)) ex8S) ex8S
      (fun _ => ex8E) := by
  unfold ex8Rk
  rw [dif_pos h]
  exact (ex8Rot idx h).choose_spec.2

def ex8RkSet : RotationKeySet (RotKey ex8Ctx) :=
  (RotationKeySet.new.add RotKey.id RotKey.rotIdx (ex8Rk 1)).add RotKey.id RotKey.rotIdx (ex8Rk 2)

theorem ex8RkSet_get {idx : ℕ} (h : idx = 1 ∨ idx = 2) :
    ex8RkSet.get "alice" idx = .ok (ex8Rk idx) := by
  obtain ⟨a1, a2, -⟩ := ex8Rk_spec (idx := 1) (Or.inl rfl)
  obtain ⟨b1, b2, -⟩ := ex8Rk_spec (idx := 2) (Or.inr rfl)
  unfold ex8RkSet RotationKeySet.add RotationKeySet.new RotationKeySet.get
  simp only [a1, a2, b1, b2]
  rcases h with rfl | rfl <;> rfl

def ex8Poly (L a : ℕ) : RQ ex8Ctx :=
  ⟨L + 1, fun i j => ((a * (i + 1) + 7 * j.val ^ 2 : ℕ) : ZMod _), false⟩

def ex8Ct : Ct ex8Ctx := ⟨⟨[("alice", ex8Poly 2 11), ("0", ex8Poly 2 5)]⟩⟩

theorem ex8Ct_wf : ex8Ct.Wf 2 false where
  wf := by unfold GoMap.WF; decide
  zero_mem := by decide
  len := by
    intro id p h
    unfold ex8Ct GoMap.get? at h
    simp only [List.lookup_cons] at h
    split at h
    · cases h; rfl
    · split at h
      · cases h; rfl
      · cases h
  ntt := by
    intro id p h
    unfold ex8Ct GoMap.get? at h
    simp only [List.lookup_cons] at h
    split at h
    · cases h; rfl
    · split at h
      · cases h; rfl
      · cases h

theorem ex8Ct_parties : ex8Ct.parties = {"alice"} := by decide

def ex8Prm : CPar ex8Ctx where
  crs := ex8Crs
  scale := 64
  fl := Fl.double
  psi := fun _ => 1

theorem ex8Slot : slotIdx ex8Ctx.N (-1) = 3 := by unfold slotIdx; decide

theorem ex8Needs {idx : ℕ} (h : rotNeeds ex8Prm.crs (slotIdx ex8Ctx.N (-1)) idx) :
    idx = 1 ∨ idx = 2 := by
  rw [ex8Slot] at h
  have h2 := h.2
  rw [if_neg (by show ¬ ex8Crs.has 3 = true; decide)] at h2
  obtain ⟨b, hb, rfl⟩ := h2
  have : b < 2 := by
    have := Nat.ge_two_pow_of_testBit hb
    by_contra hge
    have : 2 ^ 2 ≤ 2 ^ b := Nat.pow_le_pow_right (by norm_num) (by omega)
    omega
  interval_cases b <;> simp

/-- C24: rotation by `-1`, that is by 3 on four slots, as two rotations. -/
example : ∃ ev' r W, Ev.new.RotateNew ex8Prm ⟨ex8Ct, 64⟩ (-1) ex8RkSet exRev = .ok (ev', r) ∧
      r.ct.Wf 2 false ∧ r.ct.parties = ex8Ct.parties ∧ r.scale = 64 ∧
      (∀ x, ex8Ctx.P * |Nega.coeff W x| ≤ 2 * (1 * extNoise ex8Ctx 2 3298 1 2)) ∧
      ∀ i ≤ 2, r.ct.phase (fun _ => ex8S) i =
        Nega.auto (5 ^ 3) (ex8Ct.phase (fun _ => ex8S) i) + Nega.red (ex8Ctx.q i) W := by
  have hcard : ex8Ct.parties.card = 1 := by rw [ex8Ct_parties]; rfl
  obtain ⟨ev', r, W, h1, _, h3, h4, h5, h6, h7⟩ := C24_RotateNew ex8Ctx_N (by decide) ex8Ctx_good
    ex8Ctx_fits (prm := ex8Prm) Ev.new_ok (ct := ⟨ex8Ct, 64⟩) (L := 2) (by decide) ex8Ct_wf (-1)
    (rkSet := ex8RkSet) (rk := fun i _ => ex8Rk i) (a := fun i => ex8Sample i)
    (fun idx h => ⟨ex8Crs_get _ (by rcases ex8Needs h with rfl | rfl <;> decide), fun id hid => by
      rw [show (⟨ex8Ct, 64⟩ : CCt ex8Ctx).ct.parties = _ from ex8Ct_parties, mem_singleton] at hid
      subst hid
      exact ex8RkSet_get (ex8Needs h)⟩)
    (s := fun _ => ex8S) (D := 3298) (T := 1) (B := 2)
    (fun idx h => ⟨⟨fun _ _ => ex8E, fun _ _ _ => ex8E_bdd, fun id _ =>
      (ex8Rk_spec (ex8Needs h)).2.2⟩, fun _ _ => ex8S_bdd⟩) (by decide) exRev
  rw [ex8Slot] at h6 h7
  have hc : rotCount ex8Prm.crs 3 = 2 := by
    unfold rotCount
    rw [if_neg (by decide), if_neg (by show ¬ ex8Crs.has 3 = true; decide)]
    norm_num
  rw [hc, show (⟨ex8Ct, 64⟩ : CCt ex8Ctx).ct.parties.card = 1 from hcard] at h6
  exact ⟨ev', r, W, h1, h3, h4, h5, by exact_mod_cast h6, h7⟩

/-- C26: hoisted rotation by `-1` is rejected. -/
example (H : HoistedCt ex8Ctx) :
    Ev.new.RotateHoistedNew ex8Prm ⟨ex8Ct, 64⟩ (-1) H ex8RkSet exRev =
      .error (.msg "Hoisted rotation only works for precomputed rotation keys") :=
  C26_panics (by decide) ex8Prm Ev.new ex8Ct_wf (-1) (by rw [ex8Slot]; decide)
    (by rw [ex8Slot]; exact ex8Crs_three) H ex8RkSet exRev

/-- C29, C30 with blocks of two moduli. -/
example (ks : KS ex8Ctx) (ad : SwKey ex8Ctx) := C29_decompose ex8Ctx_good ex8Ctx_fits ks (L := 2)
  (by decide) (ex8Poly 2 5) ad

example := C30_external_product ex8Ctx_good ex8Ctx_fits (ex8Rk_spec (Or.inr rfl)).2.2 (L := 2)
  (by decide) (D := 3298) (T := 1) (B := 2) (by decide)
  (ex8S_bdd.auto _ (by decide)) (fun _ _ => ex8E_bdd) (ex8Poly 2 5)

end MK
