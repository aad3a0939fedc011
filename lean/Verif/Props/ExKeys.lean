import Verif.Props.KeyGen
import Verif.Props.EncDec
import Mathlib.Data.Fin.VecNotation

/-!
# Concrete instances for C07 – C10, C34, C35

Keys, encryption and decryption over the parameter set `exCtx` (N = 4, four moduli, two special
primes), showing that the hypotheses of the theorems are met together by non-trivial data.
-/

noncomputable section

namespace MK

/-- A CRS sample without structure: row `j` of digit `k` of index `idx` holds `idx + 3k + j`. -/
def exSample (idx : ℤ) : SwKey exCtx := fun k =>
  ⟨⟨4, fun _ j => ((idx + 3 * k + j.val : ℤ) : ZMod _), false⟩,
   ⟨2, fun _ j => ((idx + 5 * k + j.val : ℤ) : ZMod _), false⟩⟩

def exCrs : CRS exCtx := newCRS 2 exSample

def exS1 : Nega exCtx.N ℤ := ⟨(![1, 0, -1, 1] : Fin 4 → ℤ)⟩
def exS2 : Nega exCtx.N ℤ := ⟨(![-1, 1, 1, 0] : Fin 4 → ℤ)⟩
def exE : Nega exCtx.N ℤ := ⟨(![1, -2, 0, 2] : Fin 4 → ℤ)⟩

theorem exS1_bdd : exS1.Bdd 1 := by
  show ∀ i : Fin 4, |(![1, 0, -1, 1] : Fin 4 → ℤ) i| ≤ 1
  decide
theorem exS2_bdd : exS2.Bdd 1 := by
  show ∀ i : Fin 4, |(![-1, 1, 1, 0] : Fin 4 → ℤ) i| ≤ 1
  decide
theorem exE_bdd : exE.Bdd 2 := by
  show ∀ i : Fin 4, |(![1, -2, 0, 2] : Fin 4 → ℤ) i| ≤ 2
  decide

theorem small_of_bdd {C : Ctx} {e : Nega C.N ℤ} {B : ℤ} (h : e.Bdd B) (hB : 2 * B < C.q 0) :
    Small C e := fun j => by have := h j; omega

theorem exS1_small : Small exCtx exS1 := small_of_bdd exS1_bdd (by decide)
theorem exS2_small : Small exCtx exS2 := small_of_bdd exS2_bdd (by decide)
theorem exE_small : Small exCtx exE := small_of_bdd exE_bdd (by decide)

theorem exCrs_get (k : ℤ) (hk : k ∈ [0, -1, -2, -3, -4, 1]) : exCrs.get? k = some (exSample k) := by
  simp only [List.mem_cons, List.not_mem_nil, or_false] at hk
  rcases hk with rfl | rfl | rfl | rfl | rfl | rfl <;> rfl

/-- C34: all key generators succeed on concrete data. -/
example : ∃ pk, GenPublicKey exCrs exE (GenSecretKey exS1 "alice") = .ok pk ∧
    pk.id = "alice" ∧ IsPK pk exS1 exE :=
  C34_public_key exCtx_good (exCrs_get 0 (by decide)) rfl exE_small
    (C34_secret_key exCtx_good exS1_small "alice").1

example : ∃ rlk, GenRelinearizationKey exCrs (RPoly.new 4) QP.new (fun _ => exE) (fun _ => exE)
      (fun _ => exE) (GenSecretKey exS1 "alice") (GenSecretKey exS2 "alice") = .ok rlk ∧
    rlk.id = "alice" ∧ SwEq rlk.b (exSample 0) exS1 0 (fun _ => exE) ∧
    SwEq rlk.d (exSample 0) exS2 exS1 (fun _ => exE) ∧
    SwEq rlk.v (exSample (-1)) exS1 (-exS2) (fun _ => -exE) :=
  C34_relin_key exCtx_good (exCrs_get 0 (by decide)) (exCrs_get (-1) (by decide))
    (C34_secret_key exCtx_good exS1_small "alice").1
    (C34_secret_key exCtx_good exS2_small "alice").1
    (fun _ => exE_small) (fun _ => exE_small) (fun _ => exE_small) _ _

example : ∃ rk, GenRotationKey exCrs (RPoly.new 4) (fun _ => exE) 1
      (GenSecretKey exS1 "alice") = .ok rk ∧ rk.id = "alice" ∧ rk.rotIdx = 1 ∧
    SwEq rk.value (exSample 1) (Nega.auto 5 exS1) exS1 (fun _ => exE) := by
  have h : normRot (exCtx.N / 2) 1 = 1 := by rw [normRot]; decide
  have := C34_rotation_key exCtx_good (crs := exCrs) (rot := 1) rfl
    (by rw [h]; exact exCrs_get 1 (by decide))
    (C34_secret_key exCtx_good exS1_small "alice").1 (e := fun _ => exE) (fun _ => exE_small)
    (RPoly.new 4)
  rw [h] at this
  exact this

example : ∃ cjk, GenConjugationKey exCrs (RPoly.new 4) (fun _ => exE)
      (GenSecretKey exS1 "alice") = .ok cjk ∧ cjk.id = "alice" ∧
    SwEq cjk.value (exSample (-2)) exS1 (Nega.auto 7 exS1) (fun _ => exE) :=
  C34_conjugation_key exCtx_good (exCrs_get (-2) (by decide))
    (C34_secret_key exCtx_good exS1_small "alice").1 (fun _ => exE_small) _

/-- C35: an absent index panics, an index of the default CRS does not. -/
example : Go.panics (GenRotationKey exCrs (RPoly.new 4) (fun _ => exE) (-5)
    (GenSecretKey exS1 "alice")) :=
  (C35_default_negative 2 exSample _ _ (-5) (by decide) _ (by decide)).mpr (by
    rintro ⟨h, -⟩; omega)

/-- Alice's and Bob's secrets, by id. -/
theorem exKeys_sk : ∀ id ∈ ["bob", "alice"], ∃ sk,
    (⟨[("bob", GenSecretKey exS2 "bob"), ("alice", GenSecretKey exS1 "alice")]⟩ :
      GoMap String (SecretKey exCtx)).get? id = some sk ∧
      IsSK sk (if id = "alice" then exS1 else exS2) := by
  intro id hid
  simp only [List.mem_cons, List.not_mem_nil, or_false] at hid
  rcases hid with rfl | rfl
  · exact ⟨_, rfl, by simpa using (C34_secret_key exCtx_good exS2_small "bob").1⟩
  · exact ⟨_, rfl, by simpa using (C34_secret_key exCtx_good exS1_small "alice").1⟩

/-- C08 and C09: a plaintext of level 2 in coefficient form is encrypted by Alice into a ciphertext
of Alice and Bob of level 3 in NTT form, and decrypted with both keys, to `m + w` with
`|w| ≤ 9·2`. -/
example (pt : RQ exCtx) (hpt : pt.len = 3) (pool out : RQ exCtx) (hout : out.len = 4) :
    ∃ pk pool' ct w,
      GenPublicKey exCrs exE (GenSecretKey exS1 "alice") = .ok pk ∧
      Encrypt pool exS2 exE exE pt pk (Ct.newNTT 3 ["bob", "alice"]) = .ok (pool', ct) ∧
      Nega.Bdd w (9 * 2) ∧
      ∀ oC oI oS, ct.value.IsOrder oC → (∀ c, ct.CopyNew oC = .ok c → c.value.IsOrder oI) →
        oS.Perm ["bob", "alice"] → ∃ pt', Decrypt ct
          ⟨⟨[("bob", GenSecretKey exS2 "bob"), ("alice", GenSecretKey exS1 "alice")]⟩⟩
          out oC oI oS = .ok pt' ∧
        ∀ i ≤ 2, ({ pt' with isNTT := true } : RQ exCtx).val exCtx.nttQ i =
          pt.val exCtx.nttQ i + Nega.red (exCtx.q i) w := by
  obtain ⟨pk, hpk, hid, hIs⟩ := C34_public_key exCtx_good (crs := exCrs)
    (exCrs_get 0 (by decide)) rfl exE_small (C34_secret_key exCtx_good exS1_small "alice").1
  have hid : pk.id = "alice" := hid
  obtain ⟨pool', ct, w, h1, h2, h3⟩ := C08_round_trip exCtx_good (pk := pk)
    (s := fun id => if id = "alice" then exS1 else exS2) (o := ["bob", "alice"])
    (by rw [hid]; decide) (by decide) (L := 3) (by decide) (by rw [hid]; exact hIs) (b := true) pool
    exS2 exE exE pt exS2_bdd (by rw [hid]; exact exS1_bdd) exE_bdd exE_bdd exE_bdd
    (skSet := ⟨⟨[("bob", GenSecretKey exS2 "bob"), ("alice", GenSecretKey exS1 "alice")]⟩⟩)
    (keyedById_of_history [.add (GenSecretKey exS2 "bob"), .add (GenSecretKey exS1 "alice")])
    exKeys_sk out
  refine ⟨pk, pool', ct, w, hpk, h1, h2, fun oC oI oS a b c => ?_⟩
  obtain ⟨m', q1, q2⟩ := h3 oC oI oS a b c
  exact ⟨m', q1, fun i hi => q2 i (by simp [RPoly.level, hpt, hout, hi])⟩

/-- C09: without Bob's key decryption panics. -/
example (out : RQ exCtx) (oI : List String)
    (hoI : ∀ c, (Ct.new 2 ["bob", "alice"] : Ct exCtx).CopyNew ["0", "alice", "bob"] = .ok c →
      c.value.IsOrder oI) :
    (Decrypt (Ct.new 2 ["bob", "alice"]) ⟨⟨[("alice", GenSecretKey exS1 "alice")]⟩⟩ out
      ["0", "alice", "bob"] oI ["alice"]).panics :=
  (C09_decrypt_panics_iff (Ct.new_wf 2 _).ragged
    (keyedById_of_history [.add (GenSecretKey exS1 "alice")])
    (by unfold GoMap.IsOrder; decide) hoI (List.Perm.refl _) out).mpr ⟨"bob", by decide, by decide⟩

/-- C07: a new ciphertext of two parties, its copy, and padding by a third. -/
example : ∃ r, (Ct.new 2 ["bob", "alice"] : Ct exCtx).IDSet ["alice", "0", "bob"] = .ok r ∧
    r.Has "alice" = true ∧ r.Has "0" = false := by
  obtain ⟨r, h1, h2, _⟩ := C07_new_ciphertext (C := exCtx)
    (s := ⟨[("alice", ()), ("bob", ())]⟩) (by decide) 2 (o := ["bob", "alice"])
    (o' := ["alice", "0", "bob"]) (List.Perm.swap _ _ _) (by unfold GoMap.IsOrder; decide)
  exact ⟨r, h1, by rw [h2]; rfl, by rw [h2]; rfl⟩

example := C07_copy (Ct.new 2 ["bob", "alice"] : Ct exCtx) (by decide) (o := ["alice", "0", "bob"])
  (by unfold GoMap.IsOrder; decide)

example : ∃ r, (Ct.new 2 ["bob", "alice"] : Ct exCtx).PadCiphertext ["alice", "0", "bob"]
      ["carol", "bob"] = .ok r ∧ r.Wf 2 false ∧ "carol" ∈ r.value.keys := by
  obtain ⟨r, h1, h2, h3, _⟩ := C07_pad (C := exCtx) (ct := Ct.new 2 ["bob", "alice"])
    (Ct.new_wf 2 _) (t := ⟨[("bob", ()), ("carol", ())]⟩) (by decide) (oEl := ["alice", "0", "bob"])
    (o := ["carol", "bob"]) (by unfold GoMap.IsOrder; decide) (List.Perm.swap _ _ _)
  exact ⟨r, h1, h2, (h3 "carol").mpr (Or.inr (by decide))⟩

/-- C10: both orders of partial decryption. -/
example := C10_partial_decrypt_order exCtx_good (Ct.new_wf 2 ["bob", "alice"]).ragged (by decide)
  (fun id => if id = "alice" then exS1 else exS2)
  (l := [GenSecretKey exS1 "alice", GenSecretKey exS2 "bob"])
  (l' := [GenSecretKey exS2 "bob", GenSecretKey exS1 "alice"]) (List.Perm.swap _ _ _) (by decide)
  (by
    intro sk hsk
    simp only [List.mem_cons, List.not_mem_nil, or_false] at hsk
    rcases hsk with rfl | rfl
    · exact ⟨by decide, by decide, by
        simpa [GenSecretKey] using (C34_secret_key exCtx_good exS1_small "alice").1⟩
    · exact ⟨by decide, by decide, by
        simpa [GenSecretKey] using (C34_secret_key exCtx_good exS2_small "bob").1⟩)

end MK
