import Verif.Props.KeySwitch

/-!
# Concrete instances for C21, C23, C24, C27 – C30

Two parties over `exCtx` with keys made by the key generator.
-/

noncomputable section

namespace MK

theorem exactV_ok : FloatOK exactV := by
  intro l _ _
  have h : 0 ≤ (l.map fun p => (p.1 / p.2 : ℚ)).sum := by
    refine List.sum_nonneg fun x hx => ?_
    obtain ⟨p, -, rfl⟩ := List.mem_map.mp hx
    positivity
  unfold exactV
  rw [Int.natCast_floor_eq_floor h]
  simp

theorem exCtx_fits : exCtx.Fits where
  float := exactV_ok
  q_lt := by
    intro i
    match i with
    | 0 | 1 | 2 | 3 => decide
    | n + 4 => show exCtx.q (n + 4) < 2 ^ 61; exact (by decide : 1 < 2 ^ 61)
  p_lt := by
    intro i
    match i with
    | 0 | 1 => decide
    | n + 2 => show exCtx.p (n + 2) < 2 ^ 61; exact (by decide : 1 < 2 ^ 61)
  nP_le := by decide

theorem exCtx_N : exCtx.N = 2 ^ 2 := rfl

/-- A polynomial without structure. -/
def exPoly (L a : ℕ) : RQ exCtx := ⟨L + 1, fun i j => ((a * (i + 1) + 7 * j.val ^ 2 : ℕ) : ZMod _), false⟩

/-- Alice's and Bob's ciphertexts, of different levels. -/
def exCtA : Ct exCtx := ⟨⟨[("0", exPoly 3 5), ("alice", exPoly 3 11)]⟩⟩
def exCtB : Ct exCtx := ⟨⟨[("bob", exPoly 2 2), ("0", exPoly 2 3)]⟩⟩
/-- A ciphertext of both. -/
def exCtAB : Ct exCtx := ⟨⟨[("bob", exPoly 3 2), ("0", exPoly 3 3), ("alice", exPoly 3 8)]⟩⟩

theorem exWf {l : List (String × RQ exCtx)} {L : ℕ} (hn : (l.map Prod.fst).Nodup)
    (h0 : "0" ∈ l.map Prod.fst) (h : ∀ p ∈ l, p.2.len = L + 1 ∧ p.2.isNTT = false) :
    (⟨⟨l⟩⟩ : Ct exCtx).Wf L false := by
  have hmem : ∀ id p, List.lookup id l = some p → ∃ x ∈ l, x.2 = p := by
    intro id p hp
    clear hn h0 h
    induction l with
    | nil => cases hp
    | cons y l ih =>
      rw [List.lookup_cons] at hp
      split at hp
      · cases hp; exact ⟨y, List.mem_cons_self, rfl⟩
      · obtain ⟨x, hx, e⟩ := ih hp
        exact ⟨x, List.mem_cons_of_mem _ hx, e⟩
  refine ⟨hn, h0, ?_, ?_⟩
  · intro id p hp
    obtain ⟨x, hx, rfl⟩ := hmem id p hp
    exact (h x hx).1
  · intro id p hp
    obtain ⟨x, hx, rfl⟩ := hmem id p hp
    exact (h x hx).2

theorem exCtA_wf : exCtA.Wf 3 false := exWf (by decide) (by decide) (by
  intro p hp
  simp only [List.mem_cons, List.not_mem_nil, or_false] at hp
  rcases hp with rfl | rfl <;> exact ⟨rfl, rfl⟩)
theorem exCtB_wf : exCtB.Wf 2 false := exWf (by decide) (by decide) (by
  intro p hp
  simp only [List.mem_cons, List.not_mem_nil, or_false] at hp
  rcases hp with rfl | rfl <;> exact ⟨rfl, rfl⟩)
theorem exCtAB_wf : exCtAB.Wf 3 false := exWf (by decide) (by decide) (by
  intro p hp
  simp only [List.mem_cons, List.not_mem_nil, or_false] at hp
  rcases hp with rfl | rfl | rfl <;> exact ⟨rfl, rfl⟩)

theorem exCtA_parties : exCtA.parties = {"alice"} := by decide
theorem exCtB_parties : exCtB.parties = {"bob"} := by decide
theorem exCtAB_parties : exCtAB.parties = {"alice", "bob"} := by decide

/-- Everybody's secret, ephemeral secret and keys. -/
def exSec (id : String) : Nega exCtx.N ℤ := if id = "alice" then exS1 else exS2
def exEph (id : String) : Nega exCtx.N ℤ := if id = "alice" then exS2 else exS1

theorem exSec_bdd (id : String) : (exSec id).Bdd 1 := by
  unfold exSec; split
  · exact exS1_bdd
  · exact exS2_bdd
theorem exEph_bdd (id : String) : (exEph id).Bdd 1 := by
  unfold exEph; split
  · exact exS2_bdd
  · exact exS1_bdd
theorem exSec_small (id : String) : Small exCtx (exSec id) := small_of_bdd (exSec_bdd id) (by decide)
theorem exEph_small (id : String) : Small exCtx (exEph id) := small_of_bdd (exEph_bdd id) (by decide)

theorem exRelin (id : String) : ∃ rlk, GenRelinearizationKey exCrs (RPoly.new 4) QP.new
      (fun _ => exE) (fun _ => exE) (fun _ => exE) (GenSecretKey (exSec id) id)
      (GenSecretKey (exEph id) id) = .ok rlk ∧ rlk.id = id ∧
    SwEq rlk.b (exSample 0) (exSec id) 0 (fun _ => exE) ∧
    SwEq rlk.d (exSample 0) (exEph id) (exSec id) (fun _ => exE) ∧
    SwEq rlk.v (exSample (-1)) (exSec id) (-(exEph id)) (fun _ => -exE) :=
  C34_relin_key exCtx_good (exCrs_get 0 (by decide)) (exCrs_get (-1) (by decide))
    (C34_secret_key exCtx_good (exSec_small id) id).1
    (C34_secret_key exCtx_good (exEph_small id) id).1
    (fun _ => exE_small) (fun _ => exE_small) (fun _ => exE_small) _ _

/-- The generated relinearization key of `id`. -/
def exRlk (id : String) : RelinKey exCtx := (exRelin id).choose

/-- Alice's and Bob's keys, added one after the other. -/
def exRlkSet : RelinKeySet (RelinKey exCtx) (SwKey exCtx) :=
  (RelinKeySet.new.add RelinKey.id SwKey.new (exRlk "alice")).add RelinKey.id SwKey.new (exRlk "bob")

theorem exRlkSet_get {id : String} (h : id ∈ ({"alice", "bob"} : Finset String)) :
    exRlkSet.value.get? id = some (exRlk id) := by
  have ha : (exRlk "alice").id = "alice" := (exRelin "alice").choose_spec.2.1
  have hb : (exRlk "bob").id = "bob" := (exRelin "bob").choose_spec.2.1
  simp only [Finset.mem_insert, Finset.mem_singleton] at h
  unfold exRlkSet RelinKeySet.add RelinKeySet.new
  simp only [ha, hb]
  rcases h with rfl | rfl
  · rw [GoMap.get?_set_of_ne _ _ (by decide), GoMap.get?_set_self]
  · rw [GoMap.get?_set_self]

theorem exRelinFor (S : Finset String) : RelinFor S exRlk (exSample 0) (exSample (-1)) exSec exEph
    (fun _ _ => exE) (fun _ _ => exE) (fun _ _ => exE) :=
  ⟨fun id _ => (exRelin id).choose_spec.2.2.1, fun id _ => (exRelin id).choose_spec.2.2.2.1,
    fun id _ => (exRelin id).choose_spec.2.2.2.2⟩

theorem exRelinBdd (S : Finset String) : RelinBdd exCtx S exSec exEph
    (fun _ _ => exE) (fun _ _ => exE) (fun _ _ => exE) 1 2 :=
  ⟨fun id _ => exSec_bdd id, fun id _ => exEph_bdd id, fun _ _ _ => exE_bdd, fun _ _ _ => exE_bdd,
    fun _ _ _ => exE_bdd⟩

/-- Iteration orders. -/
def exOrd : MulOrd where
  i0 := ["alice", "0"]
  i1 := ["0", "bob"]
  x := ["alice"]
  y := ["bob"]
  t0 := ["alice"]
  t1 := ["bob"]
  inv := ["bob", "alice", "0"]
  e1 := ["bob"]
  e0 := ["alice"]

theorem exShape : MulShape 2 exCtA exCtB (Ct.new 2 ["alice", "bob"]) exOrd where
  lt := by decide
  wf0 := ⟨3, by decide, exCtA_wf⟩
  wf1 := ⟨2, le_rfl, exCtB_wf⟩
  wfOut := Ct.new_wf _ _
  keysOut := by
    intro id
    rw [exCtA_parties, exCtB_parties, ← GoMap.has_iff, GoMap.has, Ct.new_get?]
    simp only [List.mem_cons, List.not_mem_nil, or_false, Finset.mem_singleton]
    split
    · rename_i h; simp; tauto
    · rename_i h; simp; tauto
  ord :=
    { i0 := List.Perm.swap _ _ _
      i1 := List.Perm.swap _ _ _
      x := ⟨by decide, fun id => by rw [exCtA_parties]; simp [exOrd]⟩
      y := ⟨by decide, fun id => by rw [exCtB_parties]; simp [exOrd]⟩
      t0 := ⟨by decide, fun id => by rw [exCtA_parties]; simp [exOrd]⟩
      t1 := ⟨by decide, fun id => by rw [exCtB_parties]; simp [exOrd]⟩
      inv := by unfold GoMap.IsOrder exOrd; decide
      e1 := ⟨by decide, fun id => by rw [exCtB_parties]; simp [exOrd]⟩
      e0 := ⟨by decide, fun id => by rw [exCtA_parties]; simp [exOrd]⟩ }

/-- C21: Alice's ciphertext of level 3 times Bob's of level 2, with generated keys. -/
example : ∃ ks' ct' W, (KS.new : KS exCtx).MulAndRelin exCrs exCtA exCtB exRlkSet
      (Ct.new 2 ["alice", "bob"]) exOrd = .ok (ks', ct') ∧ ks'.Ok ∧
      ct'.Wf 2 false ∧ ct'.parties = exCtA.parties ∪ exCtB.parties ∧
      (∀ x, exCtx.P * |Nega.coeff W x| ≤ mulNoise exCtx 2 1 1 146 146 146 1 2) ∧
      ∀ i ≤ 2, ct'.phase exSec i = exCtA.phase exSec i * exCtB.phase exSec i +
        Nega.red (exCtx.q i) W := by
  have := C21_MulAndRelin exCtx_good exCtx_fits exShape (exCrs_get (-1) (by decide))
    (rlk := exRlkSet) (rk := exRlk)
    (fun id h => exRlkSet_get (by rw [exCtA_parties, exCtB_parties] at h; exact h))
    (exRelinFor _) (D := 146) (by decide) (exRelinBdd _) KS.new (C28_reach_ok KS.Reach.new)
  rw [exCtA_parties, exCtB_parties] at this
  rw [exCtA_parties, exCtB_parties]
  exact this

/-- C23 and C28 on the same data: the hoisted product after other work equals the plain one. -/
example (h0 : HoistedCt exCtx) (hh : IsHoisted 2 exCtA h0) (a : RQ exCtx) (bg : SwKey exCtx) :
    ∃ k1 k2 r1 r2, (KS.new : KS exCtx).MulAndRelin exCrs exCtA exCtB exRlkSet
      (Ct.new 2 ["alice", "bob"]) exOrd = .ok (k1, r1) ∧
      (KS.new.ExternalProduct 1 a bg a).1.MulAndRelinHoisted exCrs exCtA exCtB (some h0) none
        exRlkSet (Ct.new 2 ["alice", "bob"]) exOrd = .ok (k2, r2) ∧ r1.Same r2 :=
  C23_mul_hoisted exCtx_good exShape exShape (exCrs_get (-1) (by decide))
    (fun id h => exRlkSet_get (by rw [exCtA_parties, exCtB_parties] at h; exact h))
    (fun Hc h => by cases h; exact hh) (fun Hc h => by cases h) _ _
    (C28_reach_ok KS.Reach.new) (C28_reach_ok (KS.Reach.ext KS.Reach.new 1 a bg a))

/-- A hoisted form exists. -/
example : ∃ h0 : HoistedCt exCtx, IsHoisted 2 exCtA h0 := by
  obtain ⟨p, hp⟩ : ∃ p, exCtA.value.get? "alice" = some p := ⟨_, rfl⟩
  obtain ⟨_, -, h⟩ := decompose_spec exCtx_good KS.new 2 p SwKey.new
  refine ⟨⟨[("alice", (KS.new.Decompose 2 p SwKey.new).2)]⟩, fun id hid => ?_⟩
  rw [exCtA_parties, Finset.mem_singleton] at hid
  subst hid
  refine ⟨_, rfl, ?_⟩
  have : exCtA.comp "alice" = p.val exCtx.nttQ := by
    funext i; exact Ct.comp_of_get? hp i
  rw [this]
  exact h

/-! Rotation and conjugation of a ciphertext of both parties -/

theorem exRot (id : String) : ∃ rk, GenRotationKey exCrs (RPoly.new 4) (fun _ => exE) 1
      (GenSecretKey (exSec id) id) = .ok rk ∧ rk.id = id ∧ rk.rotIdx = 1 ∧
    SwEq rk.value (exSample 1) (Nega.auto (galInv 4 (galCol 4 1)) (exSec id)) (exSec id)
      (fun _ => exE) := by
  have h : normRot (exCtx.N / 2) 1 = 1 := by rw [normRot]; decide
  have := C34_rotation_key exCtx_good (crs := exCrs) (rot := 1) rfl
    (by rw [h]; exact exCrs_get 1 (by decide))
    (C34_secret_key exCtx_good (exSec_small id) id).1 (e := fun _ => exE) (fun _ => exE_small)
    (RPoly.new 4)
  rw [h] at this
  exact this

def exRk (id : String) : RotKey exCtx := (exRot id).choose

def exRkSet : RotationKeySet (RotKey exCtx) :=
  (RotationKeySet.new.add RotKey.id RotKey.rotIdx (exRk "alice")).add RotKey.id RotKey.rotIdx
    (exRk "bob")

theorem exRkSet_get {id : String} (h : id ∈ ({"alice", "bob"} : Finset String)) :
    exRkSet.get id 1 = .ok (exRk id) := by
  have ha : (exRk "alice").id = "alice" := (exRot "alice").choose_spec.2.1
  have hb : (exRk "bob").id = "bob" := (exRot "bob").choose_spec.2.1
  have ha' : (exRk "alice").rotIdx = 1 := (exRot "alice").choose_spec.2.2.1
  have hb' : (exRk "bob").rotIdx = 1 := (exRot "bob").choose_spec.2.2.1
  simp only [Finset.mem_insert, Finset.mem_singleton] at h
  unfold exRkSet RotationKeySet.add RotationKeySet.new RotationKeySet.get
  simp only [ha, hb, ha', hb']
  rcases h with rfl | rfl <;> rfl

def exRotOrd : RotOrd where
  i := ["alice", "0", "bob"]
  k := ["bob", "alice"]
  k2 := ["alice", "bob"]
  p := ["0", "alice", "bob"]

theorem exRotShape : RotShape 3 exCtAB (Ct.new 3 ["alice", "bob"]) exRotOrd where
  lt := by decide
  wfIn := ⟨3, le_rfl, exCtAB_wf⟩
  wfOut := Ct.new_wf _ _
  keysOut := by
    intro id
    rw [← GoMap.has_iff, GoMap.has, Ct.new_get?]
    simp only [List.mem_cons, List.not_mem_nil, or_false, exCtAB, GoMap.keys, List.map]
    split
    · rename_i h; simp; tauto
    · rename_i h; simp; tauto
  ord :=
    { i := by unfold GoMap.IsOrder exRotOrd; decide
      k := ⟨by decide, fun id => by rw [exCtAB_parties]; simp [exRotOrd]; tauto⟩
      k2 := ⟨by decide, fun id => by rw [exCtAB_parties]; simp [exRotOrd]⟩
      p := by unfold GoMap.IsOrder exRotOrd; decide }

/-- C24: rotation by `-1`, which is normalised to `1` (`N/2 = 2`). -/
example : ∃ ks' ct' W, (KS.new : KS exCtx).Rotate exCrs exCtAB (-1) exRkSet
      (Ct.new 3 ["alice", "bob"]) exRotOrd = .ok (ks', ct') ∧ ks'.Ok ∧
      ct'.Wf 3 false ∧ ct'.parties = exCtAB.parties ∧
      (∀ x, exCtx.P * |Nega.coeff W x| ≤ exCtAB.parties.card * extNoise exCtx 3 194 1 2) ∧
      ∀ i ≤ 3, ct'.phase exSec i = Nega.auto (galCol 4 1) (exCtAB.phase exSec i) +
        Nega.red (exCtx.q i) W := by
  have h : normRot (exCtx.N / 2) (-1) = 1 := by
    rw [normRot_spec (by decide)]; decide
  have := C24_Rotate exCtx_N exCtx_good exCtx_fits exRotShape (crs := exCrs) (rot := -1)
    (rkSet := exRkSet) (rk := exRk) (a := exSample 1) (s := exSec) (e := fun _ _ => exE)
    (by rw [h, exCtAB_parties]; exact fun id hid => exRkSet_get hid)
    (by rw [h]; exact exCrs_get 1 (by decide))
    (by rw [h]; exact fun id _ => (exRot id).choose_spec.2.2.2) (D := 194) (T := 1) (B := 2)
    (by decide) (fun id _ => exSec_bdd id) (fun _ _ _ => exE_bdd) KS.new
    (C28_reach_ok KS.Reach.new)
  rw [h] at this
  exact this

theorem exConj (id : String) : ∃ cjk, GenConjugationKey exCrs (RPoly.new 4) (fun _ => exE)
      (GenSecretKey (exSec id) id) = .ok cjk ∧ cjk.id = id ∧
    SwEq cjk.value (exSample (-2)) (exSec id) (Nega.auto (2 * exCtx.N - 1) (exSec id))
      (fun _ => exE) :=
  C34_conjugation_key exCtx_good (exCrs_get (-2) (by decide))
    (C34_secret_key exCtx_good (exSec_small id) id).1 (fun _ => exE_small) _

def exCk (id : String) : ConjKey exCtx := (exConj id).choose

def exCkSet : KeySet (ConjKey exCtx) :=
  (KeySet.new.add ConjKey.id (exCk "alice")).add ConjKey.id (exCk "bob")

theorem exCkSet_get {id : String} (h : id ∈ ({"alice", "bob"} : Finset String)) :
    exCkSet.get id = .ok (exCk id) := by
  have ha : (exCk "alice").id = "alice" := (exConj "alice").choose_spec.2.1
  have hb : (exCk "bob").id = "bob" := (exConj "bob").choose_spec.2.1
  simp only [Finset.mem_insert, Finset.mem_singleton] at h
  unfold exCkSet KeySet.add KeySet.new KeySet.get
  simp only [ha, hb]
  rcases h with rfl | rfl <;> rfl

/-- C27 at the maximum level, and the panic at level 2. -/
example : ∃ ks' ct' W, (KS.new : KS exCtx).Conjugate exCrs exCtAB exCkSet
      (Ct.new 3 ["alice", "bob"]) exRotOrd = .ok (ks', ct') ∧ ks'.Ok ∧
      ct'.Wf 3 false ∧ ct'.parties = exCtAB.parties ∧
      (∀ x, exCtx.P * |Nega.coeff W x| ≤ exCtAB.parties.card * extNoise exCtx 3 194 1 2) ∧
      ∀ i ≤ 3, ct'.phase exSec i = Nega.auto 7 (exCtAB.phase exSec i) + Nega.red (exCtx.q i) W :=
  C27_Conjugate exCtx_N exCtx_good exCtx_fits exRotShape (ck := exCk)
    (by rw [exCtAB_parties]; exact fun id hid => exCkSet_get hid) (exCrs_get (-2) (by decide))
    (fun id _ => (exConj id).choose_spec.2.2) (by decide) (fun id _ => exSec_bdd id)
    (fun _ _ _ => exE_bdd) KS.new (C28_reach_ok KS.Reach.new)

example (ks : KS exCtx) (o : RotOrd) (ho : o.Ok exCtB) :
    ks.Conjugate exCrs exCtB exCkSet (Ct.new 2 ["bob"]) o = .error .indexRange :=
  C27_below_max_panics (by decide) exCtB_wf (Ct.new_wf _ _) (fun id => by
    rw [← GoMap.has_iff, GoMap.has, Ct.new_get?]
    simp only [List.mem_cons, List.not_mem_nil, or_false, exCtB, GoMap.keys, List.map]
    split
    · rename_i h; simp; tauto
    · rename_i h; simp; tauto) ho _ _ _

/-- C29 and C30 on concrete data. -/
example (ks : KS exCtx) (ad : SwKey exCtx) := C29_decompose exCtx_good exCtx_fits ks (L := 2)
  (by decide) (exPoly 2 5) ad

example := C30_external_product exCtx_good exCtx_fits (exRot "alice").choose_spec.2.2.2 (L := 2)
  (by decide) (D := 146) (T := 1) (B := 2) (by decide)
  ((exSec_bdd "alice").auto _ (by decide)) (fun _ _ => exE_bdd) (exPoly 2 5)

end MK
