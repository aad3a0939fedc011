import Verif.MulNoise
import Verif.Props.KeyGen

/-!
# Closed forms and phase laws of `Rotate`, `RotateHoisted` and `Conjugate`
-/

noncomputable section

namespace MK

open Finset

variable {C : Ctx}

/-! ## Galois elements -/

theorem galCol_coprime {N k : ℕ} (hN : N = 2 ^ k) (r : ℕ) : (galCol N r).Coprime N := by
  rw [hN]
  exact (galCol_odd _ _).coprime_two_right.pow_right k

theorem galRow_coprime {N k : ℕ} (hN : N = 2 ^ k) : (galRow N).Coprime N := by
  rw [hN]
  exact (galRow_odd (by positivity)).coprime_two_right.pow_right k

/-- `InverseGaloisElement` is an inverse. -/
theorem galInv_mul {N k g : ℕ} (hN : N = 2 ^ k) (hg : Odd g) :
    g * galInv N g ≡ 1 [MOD 2 * N] := by
  have h1 : g * galInv N g ≡ g * g ^ (2 * N - 1) [MOD 2 * N] :=
    Nat.ModEq.mul_left _ (Nat.mod_modEq _ _)
  refine h1.trans ?_
  have hpos : 0 < 2 * N := by rw [hN]; positivity
  rw [← pow_succ', Nat.sub_add_cancel hpos]
  have hcop : g.Coprime (2 * N) := by
    rw [hN, ← pow_succ']
    exact hg.coprime_two_right.pow_right _
  have ht := Nat.ModEq.pow_totient hcop
  have hφ : Nat.totient (2 * N) = N := by
    rw [hN, ← pow_succ', Nat.totient_prime_pow_succ Nat.prime_two]
    simp
  rw [hφ] at ht
  have := ht.pow 2
  rw [← pow_mul, one_pow, mul_comm N 2] at this
  exact this

theorem auto_galInv {N k g : ℕ} [NeZero N] {A : Type _} [CommRing A] (hN : N = 2 ^ k)
    (hg : Odd g) (a : Nega N A) : Nega.auto g (Nega.auto (galInv N g) a) = a := by
  rw [Nega.auto_auto _ _ hg, Nega.auto_congr (galInv_mul hN hg), Nega.auto_one]

/-! ## Rotation -/

/-- The external product used by a rotation: closed form. -/
def ExtpSpec (extp : KS C → String → SwKey C → RQ C → Go (KS C × RQ C)) (L : ℕ)
    (h : String → ℕ → Nega C.N ℤ) (S : Finset String) : Prop :=
  ∀ id ∈ S, ∀ (ks : KS C) (key : SwKey C) (c : RQ C), ∃ inv p0 p1, extp ks id key c =
    .ok ({ ks with poolInv := inv, pool0 := p0, pool1 := p1 },
      c.write L fun i => (ext C L (h id) key.kv i).coeff)

theorem extp_plain (hC : C.Good) {ctIn : Ct C} {L : ℕ} {h : String → ℕ → Nega C.N ℤ}
    {S : Finset String} (H : ∀ id ∈ S, DigSrc L ctIn none (h id) id) :
    ExtpSpec (fun ks id key c => do
      let a ← ctIn.value.deref id
      return ks.ExternalProduct L a key c) L h S := by
  intro id hid ks key c
  obtain ⟨p, hp, hh⟩ := H id hid
  obtain ⟨inv, p0, p1, he⟩ := externalProduct_spec hC ks L p key c
  refine ⟨inv, p0, p1, ?_⟩
  simp only [GoMap.deref_of_get? hp, Go.ok_bind, Go.pure_eq, he, hh]

theorem extp_hoisted (hC : C.Good) {ctIn : Ct C} {Hc : HoistedCt C} {L : ℕ}
    {h : String → ℕ → Nega C.N ℤ} {S : Finset String}
    (H : ∀ id ∈ S, DigSrc L ctIn (some Hc) (h id) id) :
    ExtpSpec (fun ks id key c => do
      let a ← GoMap.deref Hc id
      return ks.ExternalProductHoisted L a key c) L h S := by
  intro id hid ks key c
  obtain ⟨p, hp, hh⟩ := H id hid
  obtain ⟨p1, he⟩ := externalProductHoisted_spec hC ks hh key c
  refine ⟨ks.poolInv, ks.pool0, p1, ?_⟩
  simp only [GoMap.deref_of_get? hp, Go.ok_bind, Go.pure_eq, he]

/-- A rotation before the permutation, with the parties in `S` processed. -/
def rotPre (C : Ctx) (L : ℕ) (S : Finset String)
    (c : String → (i : ℕ) → Nega C.N (ZMod (C.q i))) (h : String → ℕ → Nega C.N ℤ)
    (rk : String → KeyVal C) (a : KeyVal C) (id : String) (i : ℕ) : Nega C.N (ZMod (C.q i)) :=
  if id = "0" then c "0" i + ∑ j ∈ S, ext C L (h j) (rk j) i
  else ext C L (h id) a i

/-- The ciphertext a rotation by the automorphism `g` returns. -/
def rotOut (C : Ctx) (g L : ℕ) (S : Finset String)
    (c : String → (i : ℕ) → Nega C.N (ZMod (C.q i))) (h : String → ℕ → Nega C.N ℤ)
    (rk : String → KeyVal C) (a : KeyVal C) (id : String) (i : ℕ) : Nega C.N (ZMod (C.q i)) :=
  Nega.auto g (rotPre C L S c h rk a id i)

theorem rotLoop_spec {crs : CRS C} {L : ℕ} {rotidx : ℤ} {rkSet : RotationKeySet (RotKey C)}
    {extp : KS C → String → SwKey C → RQ C → Go (KS C × RQ C)} {K S : Finset String}
    {h : String → ℕ → Nega C.N ℤ} {rk : String → RotKey C} {a : SwKey C}
    (hext : ExtpSpec extp L h S)
    (hrk : ∀ id ∈ S, rkSet.get id rotidx.toNat = .ok (rk id)) (ha : crs.get? rotidx = some a)
    (h0K : "0" ∈ K) (hSK : S ⊆ K) (hS0 : "0" ∉ S) {o : List String} (ho : o.Nodup)
    (hoS : o.toFinset = S) (ks : KS C) (hok : ks.Ok) (ct : Ct C)
    {F : String → (i : ℕ) → Row C.N (C.q i)} (hF : CtIs ct L K F)
    {c0 : (i : ℕ) → Nega C.N (ZMod (C.q i))} (hF0 : ∀ i ≤ L, F "0" i = (c0 i).coeff) :
    ∃ ks' ct', forEach o (KS.rotStep extp crs L rotidx rkSet) (ks, ct) = .ok (ks', ct') ∧
      ks'.Ok ∧ CtIs ct' L K fun id i =>
        if id = "0" then (c0 i + ∑ j ∈ S, ext C L (h j) (rk j).value.kv i).coeff
        else if id ∈ S then (ext C L (h id) a.kv i).coeff else F id i := by
  obtain ⟨s', h1', hks, h2⟩ := forEach_inv o ho (KS.rotStep extp crs L rotidx rkSet)
    (fun done s => s.1.Ok ∧ CtIs s.2 L K fun id i =>
        if id = "0" then (c0 i + ∑ j ∈ done, ext C L (h j) (rk j).value.kv i).coeff
        else if id ∈ done then (ext C L (h id) a.kv i).coeff else F id i)
    (ks, ct) ⟨hok, hF.congr fun id _ i hi => by
      by_cases h00 : id = "0"
      · subst h00; simp [hF0 i hi]
      · simp [h00]⟩ (by
      rintro done x ⟨ks1, ct1⟩ hnd hx ⟨hok1, hI⟩
      dsimp only at hok1 hI
      have hxS : x ∈ S := by rw [← hoS]; simpa using hx
      have hx0 : x ≠ "0" := fun h => hS0 (h ▸ hxS)
      obtain ⟨inv, p0, p1, e1⟩ := hext x hxS ks1 (rk x).value ks1.pq0
      obtain ⟨o0, ho0, hl0, hn0, hr0⟩ := hI.get h0K
      obtain ⟨ox, hox, hlx, hnx, hrx⟩ := hI.get (hSK hxS)
      obtain ⟨inv', p0', p1', e2⟩ := hext x hxS { ks1 with
          poolInv := inv, pool0 := p0, pool1 := p1
          pq0 := ks1.pq0.write L fun i => (ext C L (h x) (rk x).value.kv i).coeff } a ox
      have hox' : (ct1.value.set "0" (RPoly.addLvl L o0 (ks1.pq0.write L fun i =>
          (ext C L (h x) (rk x).value.kv i).coeff) o0)).get? x = some ox := by
        rw [GoMap.get?_set_of_ne _ _ hx0]; exact hox
      refine ⟨({ ks1 with
          poolInv := inv', pool0 := p0', pool1 := p1'
          pq0 := ks1.pq0.write L fun i => (ext C L (h x) (rk x).value.kv i).coeff },
          ⟨(ct1.value.set "0" (RPoly.addLvl L o0 (ks1.pq0.write L fun i =>
            (ext C L (h x) (rk x).value.kv i).coeff) o0)).set x
            (ox.write L fun i => (ext C L (h x) a.kv i).coeff)⟩), ?_,
        ⟨hok1.ntt, hok1.len⟩, ?_⟩
      · unfold KS.rotStep
        simp only [hrk x hxS, e1, e2, GoMap.deref_of_get? ho0, GoMap.deref_of_get? ha,
          GoMap.deref_of_get? hox', Go.ok_bind, Go.pure_eq]
      · have H1 : CtIs ⟨ct1.value.set "0" (RPoly.addLvl L o0 (ks1.pq0.write L fun i =>
            (ext C L (h x) (rk x).value.kv i).coeff) o0)⟩ L K (fun id i =>
          if id = "0" then (c0 i + ∑ j ∈ insert x done, ext C L (h j) (rk j).value.kv i).coeff
          else if id ∈ done then (ext C L (h id) a.kv i).coeff else F id i) := by
          refine hI.set h0K hl0 hn0 (fun i hi => ?_) fun id' _ hne' i _ => ?_
          · unfold RPoly.addLvl
            rw [RPoly.write_row_of_le _ _ hi, RPoly.write_row_of_le _ _ hi, hr0 i hi, if_pos rfl,
              if_pos rfl, Finset.sum_insert hnd, add_left_comm, add_comm (ext _ _ _ _ _)]
            rfl
          · rw [if_neg hne', if_neg hne']
        refine H1.set (hSK hxS) hlx hnx (fun i hi => ?_) fun id' _ hne' i _ => ?_
        · rw [RPoly.write_row_of_le _ _ hi, if_neg hx0, if_pos (mem_insert_self _ _)]
        · by_cases h00 : id' = "0"
          · rw [if_pos h00, if_pos h00]
          · rw [if_neg h00, if_neg h00]
            simp only [mem_insert, hne', false_or])
  exact ⟨s'.1, s'.2, h1', hks, by rw [← hoS]; exact h2⟩

theorem permLoop_spec {k : ℕ} (hN : C.N = 2 ^ k) {L g : ℕ} (hg : Odd g) (hL : L < C.nQ)
    {K : Finset String} {o : List String} (ho : o.Nodup) (hoK : o.toFinset = K) (ks : KS C)
    (hok : ks.Ok) (ct : Ct C) {F : String → (i : ℕ) → Nega C.N (ZMod (C.q i))}
    (hF : CtIs ct L K fun id i => (F id i).coeff) :
    ∃ ks' ct', forEach o (KS.permStep L g) (ks, ct) = .ok (ks', ct') ∧ ks'.Ok ∧
      CtIs ct' L K fun id i => (Nega.auto g (F id i)).coeff := by
  obtain ⟨s', h1', hks, h2⟩ := forEach_inv o ho (KS.permStep L g)
    (fun done s => s.1.Ok ∧ CtIs s.2 L K fun id i =>
        if id ∈ done then (Nega.auto g (F id i)).coeff else (F id i).coeff)
    (ks, ct) ⟨hok, by simpa using hF⟩ (by
      rintro done x ⟨ks1, ct1⟩ hnd hx ⟨hok1, hI⟩
      dsimp only at hok1 hI
      have hxK : x ∈ K := by rw [← hoK]; simpa using hx
      obtain ⟨ox, hox, hlx, hnx, hrx⟩ := hI.get hxK
      refine ⟨({ ks1 with pq0 := permuteLvl L g ox ks1.pq0 },
        ⟨ct1.value.set x ((permuteLvl L g ox ks1.pq0).copy ox)⟩), ?_,
        ⟨hok1.ntt, hok1.len⟩, ?_⟩
      · unfold KS.permStep
        simp only [GoMap.deref_of_get? hox, Go.ok_bind, Go.pure_eq]
      · refine hI.set hxK hlx hok1.ntt (fun i hi => ?_) fun id' _ hne' i _ => ?_
        · rw [if_pos (mem_insert_self _ _)]
          have hlt : i < min ox.len (permuteLvl L g ox ks1.pq0).len := by
            show i < min ox.len ks1.pq0.len
            rw [hlx, hok1.len]; omega
          simp only [RPoly.copy, if_pos hlt]
          rw [permuteLvl, RPoly.write_row_of_le _ _ hi, permRow_auto hN hg, hrx i hi, if_neg hnd]
        · simp only [mem_insert, hne', false_or])
  refine ⟨s'.1, s'.2, h1', hks, h2.congr fun id hid i _ => ?_⟩
  rw [if_pos (by rw [hoK]; exact hid)]

/-- The loops of a rotation visit what they range over. -/
structure RotOrd.Ok (o : RotOrd) (ctIn : Ct C) : Prop where
  i : ctIn.value.IsOrder o.i
  k : ctIn.PartyOrder o.k
  k2 : ctIn.PartyOrder o.k2
  p : ctIn.value.IsOrder o.p

theorem insert_parties {ct : Ct C} {L : ℕ} {b : Bool} (h : ct.Wf L b) :
    insert "0" ct.parties = ct.value.keys.toFinset := by
  ext id
  rw [mem_insert, mem_parties, List.mem_toFinset]
  constructor
  · rintro (rfl | h')
    · exact h.zero_mem
    · exact h'.1
  · intro h'
    by_cases h0 : id = "0"
    · exact Or.inl h0
    · exact Or.inr ⟨h', h0⟩

/-- **Closed form of `Rotate` and `RotateHoisted`.** -/
theorem rotCore_spec {k : ℕ} (hN : C.N = 2 ^ k) {L : ℕ} (hL : L < C.nQ) {ctIn ctOut : Ct C}
    {L0 : ℕ} (hL0 : L ≤ L0) (w0 : ctIn.Wf L0 false) (wOut : ctOut.Wf L false)
    (hkeys : ∀ id, id ∈ ctOut.value.keys ↔ id ∈ ctIn.value.keys) {crs : CRS C} {rotidx : ℤ}
    {rkSet : RotationKeySet (RotKey C)} {rk : String → RotKey C} {a : SwKey C}
    (hrk : ∀ id ∈ ctIn.parties, rkSet.get id (normRot (C.N / 2) rotidx).toNat = .ok (rk id))
    (ha : crs.get? (normRot (C.N / 2) rotidx) = some a)
    {extp : ℕ → KS C → String → SwKey C → RQ C → Go (KS C × RQ C)}
    {h : String → ℕ → Nega C.N ℤ} (hext : ExtpSpec (extp L) L h ctIn.parties) {o : RotOrd}
    (ho : o.Ok ctIn) (ks : KS C) (hok : ks.Ok) :
    ∃ ks' ct', KS.rotCore extp crs ks ctIn rotidx rkSet ctOut o = .ok (ks', ct') ∧ ks'.Ok ∧
      CtIs ct' L (insert "0" ctIn.parties) fun id i =>
        (rotOut C (galCol C.N (normRot (C.N / 2) rotidx).toNat) L ctIn.parties ctIn.comp h
          (fun id => (rk id).value.kv) a.kv id i).coeff := by
  set K : Finset String := insert "0" ctIn.parties with hK
  have h0K : "0" ∈ K := mem_insert_self _ _
  have hSK : ctIn.parties ⊆ K := subset_insert _ _
  have hS0 : "0" ∉ ctIn.parties := fun h => (mem_parties.mp h).2 rfl
  have hout : CtIs ctOut L K ctOut.rowsOf := by
    have := wOut.ctIs
    refine ⟨this.wf, fun id => ?_, this.len, this.ntt, this.rows⟩
    rw [hkeys, hK, insert_parties w0, List.mem_toFinset]
  obtain ⟨i0, hi0⟩ := GoMap.exists_get?_of_mem w0.zero_mem
  obtain ⟨o0, ho0, hl0, hn0, hr0⟩ := hout.get h0K
  obtain ⟨r0, hr0, _, _⟩ := ctIn.IDSet_spec ho.i
  have hout1 : CtIs ⟨ctOut.value.set "0" (i0.copy o0)⟩ L K (fun id i => if id = "0" then
      (ctIn.comp "0" i).coeff else ctOut.rowsOf id i) := by
    refine hout.set h0K (p := i0.copy o0) hl0 (w0.ntt "0" i0 hi0) (fun i hi => ?_) fun id' _ hne' i _ => ?_
    · have hlt : i < min o0.len i0.len := by rw [hl0, w0.len _ _ hi0]; omega
      simp only [RPoly.copy, if_pos hlt]
      rw [if_true, Ct.comp_of_get? hi0, RPoly.val_false _ (w0.ntt _ _ hi0)]
    · rw [if_neg hne']
  obtain ⟨ks1, ct1, e1, hok1, hct1⟩ := rotLoop_spec hext hrk ha h0K hSK hS0 ho.k.1
    ho.k.toFinset ks hok _ hout1 (c0 := ctIn.comp "0") (fun i _ => by rw [if_pos rfl])
  obtain ⟨ks2, ct2, e2, hok2, hct2⟩ := permLoop_spec hN
    (galCol_odd C.N (normRot (C.N / 2) rotidx).toNat) hL
    (ho.p.nodup w0.wf) (by
      ext id
      rw [List.mem_toFinset, ho.p.mem, hK, insert_parties w0, List.mem_toFinset]) ks1 hok1 ct1
    (F := rotPre C L ctIn.parties ctIn.comp h (fun id => (rk id).value.kv) a.kv)
    (hct1.congr fun id hid i _ => by
      unfold rotPre
      by_cases h00 : id = "0"
      · rw [if_pos h00, if_pos h00]
      · have : id ∈ ctIn.parties := by
          rw [hK, mem_insert] at hid
          exact hid.resolve_left h00
        rw [if_neg h00, if_pos this, if_neg h00])
  refine ⟨ks2, ct2, ?_, hok2, hct2⟩
  unfold KS.rotCore
  rw [wOut.level, hr0, w0.level]
  simp only [Go.ok_bind]
  rw [if_neg (by omega)]
  simp only [GoMap.deref_of_get? hi0, GoMap.deref_of_get? ho0, Go.ok_bind, e1, e2]

/-- **Phase law of a rotation.** -/
theorem rot_phase (hC : C.Good) (hF : C.Fits) {k : ℕ} (hN : C.N = 2 ^ k) {g : ℕ} (hg : Odd g)
    {L : ℕ} (hL : L < C.nQ) {S : Finset String}
    {c : String → (i : ℕ) → Nega C.N (ZMod (C.q i))} {h : String → ℕ → Nega C.N ℤ}
    (hS0 : "0" ∉ S)
    {rk : String → SwKey C} {a : SwKey C} {s : String → Nega C.N ℤ}
    {e : String → ℕ → Nega C.N ℤ}
    (hk : ∀ id ∈ S, SwEq (rk id) a (Nega.auto (galInv C.N g) (s id)) (s id) (e id))
    (hd : ∀ id ∈ S, IsDigits C L (h id) (c id)) {D T B : ℤ}
    (hD : ∀ id ∈ S, ∀ k < C.beta L, (h id k).Bdd D) (hs : ∀ id ∈ S, (s id).Bdd T)
    (he : ∀ id ∈ S, ∀ k < C.beta L, (e id k).Bdd B) :
    ∃ W : Nega C.N ℤ, ((C.P : Nega C.N ℤ) * W).Bdd (S.card * extNoise C L D T B) ∧
      ∀ i ≤ L, ringPhase S (rotOut C g L S c h (fun id => (rk id).kv) a.kv) s i =
        Nega.auto g (ringPhase S c s i) + Nega.red (C.q i) W := by
  have hgc : g.Coprime C.N := by rw [hN]; exact hg.coprime_two_right.pow_right k
  have hgi : (galInv C.N g).Coprime C.N := by
    rw [hN]; exact (galInv_odd hg).coprime_two_right.pow_right k
  have hvs : ∀ id : String, ∃ W : Nega C.N ℤ, id ∈ S →
      ((C.P : Nega C.N ℤ) * W).Bdd (extNoise C L D T B) ∧
      ∀ i ≤ L, ext C L (h id) (rk id).kv i +
        Nega.red (C.q i) (Nega.auto (galInv C.N g) (s id)) * ext C L (h id) a.kv i =
        c id i * Nega.red (C.q i) (s id) + Nega.red (C.q i) W := by
    intro id
    by_cases hid : id ∈ S
    · obtain ⟨W, h1, h2⟩ := ext_pair_bdd hC hF (hk id hid) hL (hd id hid) (hD id hid)
        ((hs id hid).auto _ hgi) (he id hid)
      exact ⟨W, fun _ => ⟨h1, h2⟩⟩
    · exact ⟨0, fun h => absurd h hid⟩
  choose W hW using hvs
  refine ⟨Nega.auto g (∑ id ∈ S, W id), ?_, fun i hi => ?_⟩
  · have : (C.P : Nega C.N ℤ) * Nega.auto g (∑ id ∈ S, W id) =
        Nega.auto g (∑ id ∈ S, (C.P : Nega C.N ℤ) * W id) := by
      rw [← Nega.autoHom_apply g hg, ← Nega.autoHom_apply g hg, ← Finset.mul_sum, map_mul,
        map_natCast]
    rw [this]
    exact Nega.Bdd.auto _ hgc (Nega.Bdd.sum_const _ _ fun id hid => (hW id hid).1)
  · unfold ringPhase
    have hid : ∀ id ∈ S, rotOut C g L S c h (fun id => (rk id).kv) a.kv id i *
        Nega.red (C.q i) (s id) = Nega.auto g (Nega.red (C.q i) (Nega.auto (galInv C.N g) (s id)) *
          ext C L (h id) a.kv i) := by
      intro id hid
      unfold rotOut rotPre
      rw [if_neg (fun hz => hS0 (hz ▸ hid) : id ≠ "0"), ← Nega.autoHom_apply g hg, ← Nega.autoHom_apply g hg,
        map_mul, Nega.autoHom_apply g hg (Nega.red _ _), Nega.auto_red, auto_galInv hN hg, mul_comm]
    rw [Finset.sum_congr rfl hid]
    unfold rotOut rotPre
    rw [if_pos rfl, ← Nega.auto_red, ← Nega.autoHom_apply g hg, ← Nega.autoHom_apply g hg,
      ← Nega.autoHom_apply g hg]
    simp only [← Nega.autoHom_apply g hg]
    rw [← map_sum, ← map_add, ← map_add]
    congr 1
    rw [add_assoc, add_assoc, ← Finset.sum_add_distrib, map_sum, ← Finset.sum_add_distrib]
    congr 1
    exact Finset.sum_congr rfl fun id hid => (hW id hid).2 i hi

/-! ## Conjugation -/

theorem conjPermLoop_spec {k : ℕ} (hN : C.N = 2 ^ k) (hC : C.Good) {ctIn : Ct C} {L0 : ℕ}
    (hL0 : C.lq ≤ L0) (w0 : ctIn.Wf L0 false) {K : Finset String}
    (hKin : ∀ id ∈ K, id ∈ ctIn.value.keys)
    {o : List String} (ho : o.Nodup) (hoK : o.toFinset = K)
    (ct : Ct C) {F : String → (i : ℕ) → Row C.N (C.q i)} (hF : CtIs ct C.lq K F) :
    ∃ ct', forEach o (conjPermStep ctIn) ct = .ok ct' ∧
      CtIs ct' C.lq K fun id i => (Nega.auto (galRow C.N) (ctIn.comp id i)).coeff := by
  have hodd : Odd (galRow C.N) := galRow_odd (Nat.pos_of_ne_zero (NeZero.ne C.N))
  have hlq : C.lq + 1 = C.nQ := Nat.sub_add_cancel hC.nQ_pos
  obtain ⟨s', h1', h2⟩ := forEach_inv o ho (conjPermStep ctIn)
    (fun done s => CtIs s C.lq K fun id i =>
        if id ∈ done then (Nega.auto (galRow C.N) (ctIn.comp id i)).coeff else F id i)
    ct (by simpa using hF) (by
      rintro done x s hnd hx hI
      have hxK : x ∈ K := by rw [← hoK]; simpa using hx
      obtain ⟨ox, hox, hlx, hnx, hrx⟩ := hI.get hxK
      obtain ⟨ax, hax⟩ := GoMap.exists_get?_of_mem (hKin x hxK)
      have hal := w0.len _ _ hax
      refine ⟨⟨s.value.set x (permuteLvl C.lq (galRow C.N) ax ox)⟩, ?_, ?_⟩
      · unfold conjPermStep permuteFull
        simp only [GoMap.deref_of_get? hox, GoMap.deref_of_get? hax, Go.ok_bind, Go.pure_eq]
        rw [if_neg (by omega)]
        rfl
      · refine hI.set hxK hlx hnx (fun i hi => ?_) fun id' _ hne' i _ => ?_
        · rw [if_pos (mem_insert_self _ _)]
          simp only [permuteLvl]
          rw [RPoly.write_row_of_le _ _ hi, permRow_auto hN hodd, Ct.comp_of_get? hax,
            RPoly.val_false _ (w0.ntt _ _ hax)]
        · simp only [mem_insert, hne', false_or])
  refine ⟨s', h1', h2.congr fun id hid i _ => ?_⟩
  rw [if_pos (by rw [hoK]; exact hid)]

theorem conjKeyLoop_spec (hC : C.Good) {L : ℕ} {ckSet : KeySet (ConjKey C)}
    {K S : Finset String} {ck : String → ConjKey C}
    (hck : ∀ id ∈ S, ckSet.get id = .ok (ck id))
    (h0K : "0" ∈ K) (hSK : S ⊆ K) (hS0 : "0" ∉ S) {o : List String} (ho : o.Nodup)
    (hoS : o.toFinset = S) (ks : KS C) (hok : ks.Ok) (ct : Ct C)
    {F : String → (i : ℕ) → Nega C.N (ZMod (C.q i))}
    (hF : CtIs ct L K fun id i => (F id i).coeff) :
    ∃ ks' ct', forEach o (KS.conjKeyStep L ckSet) (ks, ct) = .ok (ks', ct') ∧
      ks'.Ok ∧ CtIs ct' L K fun id i => (F id i +
        if id = "0" then ∑ j ∈ S, ext C L (digit C L (F j)) (ck j).value.kv i else 0).coeff := by
  obtain ⟨s', h1', hks, h2⟩ := forEach_inv o ho (KS.conjKeyStep L ckSet)
    (fun done s => s.1.Ok ∧ CtIs s.2 L K fun id i => (F id i +
        if id = "0" then ∑ j ∈ done, ext C L (digit C L (F j)) (ck j).value.kv i else 0).coeff)
    (ks, ct) ⟨hok, by simpa using hF⟩ (by
      rintro done x ⟨ks1, ct1⟩ hnd hx ⟨hok1, hI⟩
      dsimp only at hok1 hI
      have hxS : x ∈ S := by rw [← hoS]; simpa using hx
      have hx0 : x ≠ "0" := fun h => hS0 (h ▸ hxS)
      obtain ⟨o0, ho0, hl0, hn0, hr0⟩ := hI.get h0K
      obtain ⟨ox, hox, hlx, hnx, hrx⟩ := hI.get (hSK hxS)
      obtain ⟨inv, p0, p1, e1⟩ := externalProduct_spec hC ks1 L ox (ck x).value ks1.pq0
      refine ⟨({ ks1 with
          poolInv := inv, pool0 := p0, pool1 := p1
          pq0 := ks1.pq0.write L fun i =>
            (ext C L (digit C L (ox.val C.nttQ)) (ck x).value.kv i).coeff },
          ⟨ct1.value.set "0" (RPoly.addLvl L o0 (ks1.pq0.write L fun i =>
            (ext C L (digit C L (ox.val C.nttQ)) (ck x).value.kv i).coeff) o0)⟩), ?_,
        ⟨hok1.ntt, hok1.len⟩, ?_⟩
      · unfold KS.conjKeyStep
        simp only [hck x hxS, e1, GoMap.deref_of_get? ho0, GoMap.deref_of_get? hox,
          Go.ok_bind, Go.pure_eq]
      · refine hI.set h0K hl0 hn0 (fun i hi => ?_) fun id' _ hne' i _ => ?_
        · unfold RPoly.addLvl
          have hd : ext C L (digit C L (ox.val C.nttQ)) (ck x).value.kv i =
              ext C L (digit C L (F x)) (ck x).value.kv i :=
            ext_congr (fun k hk => digit_congr hC.alpha_pos' hk fun i hi => by
              rw [RPoly.val_false _ hnx, hrx i hi, if_neg hx0, add_zero]) (KeyVal.Agree.refl _ _) hi
          rw [RPoly.write_row_of_le _ _ hi, RPoly.write_row_of_le _ _ hi, hr0 i hi, if_pos rfl,
            if_pos rfl, Finset.sum_insert hnd, hd, add_left_comm, add_comm (ext _ _ _ _ _)]
          rfl
        · rw [if_neg hne', if_neg hne'])
  exact ⟨s'.1, s'.2, h1', hks, by rw [← hoS]; exact h2⟩

theorem conjCrsLoop_spec (hC : C.Good) {L : ℕ} (hL : L < C.nQ) {crs : CRS C}
    {K S : Finset String} {u : SwKey C} (hu : crs.get? (-2) = some u) (hSK : S ⊆ K)
    {o : List String} (ho : o.Nodup)
    (hoS : o.toFinset = S) (ks : KS C) (hok : ks.Ok) (ct : Ct C)
    {F : String → (i : ℕ) → Nega C.N (ZMod (C.q i))}
    (hF : CtIs ct L K fun id i => (F id i).coeff) :
    ∃ ks' ct', forEach o (KS.conjCrsStep crs L) (ks, ct) = .ok (ks', ct') ∧
      ks'.Ok ∧ CtIs ct' L K fun id i =>
        (if id ∈ S then ext C L (digit C L (F id)) u.kv i else F id i).coeff := by
  obtain ⟨s', h1', hks, h2⟩ := forEach_inv o ho (KS.conjCrsStep crs L)
    (fun done s => s.1.Ok ∧ CtIs s.2 L K fun id i =>
      (if id ∈ done then ext C L (digit C L (F id)) u.kv i else F id i).coeff)
    (ks, ct) ⟨hok, by simpa using hF⟩ (by
      rintro done x ⟨ks1, ct1⟩ hnd hx ⟨hok1, hI⟩
      dsimp only at hok1 hI
      have hxS : x ∈ S := by rw [← hoS]; simpa using hx
      obtain ⟨ox, hox, hlx, hnx, hrx⟩ := hI.get (hSK hxS)
      obtain ⟨inv, p0, p1, e1⟩ := externalProduct_spec hC ks1 L ox u ks1.pq0
      refine ⟨({ ks1 with
          poolInv := inv, pool0 := p0, pool1 := p1
          pq0 := ks1.pq0.write L fun i =>
            (ext C L (digit C L (ox.val C.nttQ)) u.kv i).coeff },
          ⟨ct1.value.set x ((ks1.pq0.write L fun i =>
            (ext C L (digit C L (ox.val C.nttQ)) u.kv i).coeff).copy ox)⟩), ?_,
        ⟨hok1.ntt, hok1.len⟩, ?_⟩
      · unfold KS.conjCrsStep
        simp only [e1, GoMap.deref_of_get? hu, GoMap.deref_of_get? hox,
          Go.ok_bind, Go.pure_eq]
      · refine hI.set (hSK hxS) hlx hok1.ntt (fun i hi => ?_) fun id' _ hne' i _ => ?_
        · have hlt : i < min ox.len (ks1.pq0.write L fun i =>
              (ext C L (digit C L (ox.val C.nttQ)) u.kv i).coeff).len := by
            rw [RPoly.write_len, hlx, hok1.len]; omega
          have hd : ext C L (digit C L (ox.val C.nttQ)) u.kv i =
              ext C L (digit C L (F x)) u.kv i :=
            ext_congr (fun k hk => digit_congr hC.alpha_pos' hk fun i hi => by
              rw [RPoly.val_false _ hnx, hrx i hi, if_neg hnd]) (KeyVal.Agree.refl _ _) hi
          simp only [RPoly.copy, if_pos hlt]
          rw [RPoly.write_row_of_le _ _ hi, hd, if_pos (mem_insert_self _ _)]
        · simp only [mem_insert, hne', false_or])
  exact ⟨s'.1, s'.2, h1', hks, by rw [← hoS]; exact h2⟩

/-- The ciphertext a conjugation returns. -/
def conjOut (C : Ctx) (L : ℕ) (S : Finset String)
    (c : String → (i : ℕ) → Nega C.N (ZMod (C.q i)))
    (ck : String → KeyVal C) (u : KeyVal C) (id : String) (i : ℕ) : Nega C.N (ZMod (C.q i)) :=
  if id = "0" then Nega.auto (galRow C.N) (c "0" i) +
    ∑ j ∈ S, ext C L (digit C L fun i => Nega.auto (galRow C.N) (c j i)) (ck j) i
  else ext C L (digit C L fun i => Nega.auto (galRow C.N) (c id i)) u i

/-- **Closed form of `Conjugate`** at the maximum level. -/
theorem conjugate_spec {k : ℕ} (hN : C.N = 2 ^ k) (hC : C.Good) {ctIn ctOut : Ct C}
    {L0 : ℕ} (hL0 : C.lq ≤ L0) (w0 : ctIn.Wf L0 false) (wOut : ctOut.Wf C.lq false)
    (hkeys : ∀ id, id ∈ ctOut.value.keys ↔ id ∈ ctIn.value.keys) {crs : CRS C}
    {ckSet : KeySet (ConjKey C)} {ck : String → ConjKey C} {u : SwKey C}
    (hck : ∀ id ∈ ctIn.parties, ckSet.get id = .ok (ck id)) (hu : crs.get? (-2) = some u)
    {o : RotOrd} (ho : o.Ok ctIn) (ks : KS C) (hok : ks.Ok) :
    ∃ ks' ct', ks.Conjugate crs ctIn ckSet ctOut o = .ok (ks', ct') ∧ ks'.Ok ∧
      CtIs ct' C.lq (insert "0" ctIn.parties) fun id i =>
        (conjOut C C.lq ctIn.parties ctIn.comp (fun id => (ck id).value.kv) u.kv id i).coeff := by
  set K : Finset String := insert "0" ctIn.parties with hK
  have h0K : "0" ∈ K := mem_insert_self _ _
  have hSK : ctIn.parties ⊆ K := subset_insert _ _
  have hS0 : "0" ∉ ctIn.parties := fun h => (mem_parties.mp h).2 rfl
  have hlt : C.lq < C.nQ := by have := hC.nQ_pos; unfold Ctx.lq; omega
  have hout : CtIs ctOut C.lq K ctOut.rowsOf := by
    have := wOut.ctIs
    refine ⟨this.wf, fun id => ?_, this.len, this.ntt, this.rows⟩
    rw [hkeys, hK, insert_parties w0, List.mem_toFinset]
  obtain ⟨r0, hr0, _, _⟩ := ctIn.IDSet_spec ho.i
  obtain ⟨ct1, e1, hct1⟩ := conjPermLoop_spec hN hC hL0 w0 (K := K) (fun id hid => by
      rw [hK, insert_parties w0, List.mem_toFinset] at hid; exact hid)
    (ho.p.nodup w0.wf) (by
      ext id
      rw [List.mem_toFinset, ho.p.mem, hK, insert_parties w0, List.mem_toFinset]) _ hout
  obtain ⟨ks2, ct2, e2, hok2, hct2⟩ := conjKeyLoop_spec hC hck h0K hSK hS0 ho.k.1
    ho.k.toFinset ks hok ct1 hct1
  obtain ⟨ks3, ct3, e3, hok3, hct3⟩ := conjCrsLoop_spec hC hlt hu hSK ho.k2.1
    ho.k2.toFinset ks2 hok2 ct2 hct2
  refine ⟨ks3, ct3, ?_, hok3, hct3.congr fun id hid i hi => ?_⟩
  · unfold KS.Conjugate
    rw [wOut.level, hr0, w0.level]
    simp only [Go.ok_bind]
    rw [if_neg (by omega)]
    simp only [Go.ok_bind, e1, e2, e3]
  · congr 1
    unfold conjOut
    by_cases h00 : id = "0"
    · subst h00
      rw [if_neg hS0, if_pos rfl, if_pos rfl]
    · have : id ∈ ctIn.parties := by
        rw [hK, mem_insert] at hid
        exact hid.resolve_left h00
      rw [if_neg h00, if_pos this]
      simp only [h00, if_false, add_zero]

/-- **Phase law of a conjugation.** -/
theorem conj_phase (hC : C.Good) (hF : C.Fits) {L : ℕ} (hL : L < C.nQ) {S : Finset String}
    {c : String → (i : ℕ) → Nega C.N (ZMod (C.q i))} (hS0 : "0" ∉ S)
    {ck : String → SwKey C} {u : SwKey C} {s : String → Nega C.N ℤ}
    {e : String → ℕ → Nega C.N ℤ}
    (hk : ∀ id ∈ S, SwEq (ck id) u (s id) (Nega.auto (galRow C.N) (s id)) (e id)) {D T B : ℤ}
    (hD : digitBound C L D) (hs : ∀ id ∈ S, (s id).Bdd T)
    (he : ∀ id ∈ S, ∀ k < C.beta L, (e id k).Bdd B) :
    ∃ W : Nega C.N ℤ, ((C.P : Nega C.N ℤ) * W).Bdd (S.card * extNoise C L D T B) ∧
      ∀ i ≤ L, ringPhase S (conjOut C L S c (fun id => (ck id).kv) u.kv) s i =
        Nega.auto (galRow C.N) (ringPhase S c s i) + Nega.red (C.q i) W := by
  have hodd : Odd (galRow C.N) := galRow_odd (Nat.pos_of_ne_zero (NeZero.ne C.N))
  have hvs : ∀ id : String, ∃ W : Nega C.N ℤ, id ∈ S →
      ((C.P : Nega C.N ℤ) * W).Bdd (extNoise C L D T B) ∧
      ∀ i ≤ L, ext C L (digit C L fun i => Nega.auto (galRow C.N) (c id i)) (ck id).kv i +
        Nega.red (C.q i) (s id) *
          ext C L (digit C L fun i => Nega.auto (galRow C.N) (c id i)) u.kv i =
        Nega.auto (galRow C.N) (c id i) * Nega.red (C.q i) (Nega.auto (galRow C.N) (s id)) +
          Nega.red (C.q i) W := by
    intro id
    by_cases hid : id ∈ S
    · obtain ⟨W, h1, h2⟩ := ext_pair_bdd hC hF (hk id hid) hL
        (digit_isDigits hC hL fun i => Nega.auto (galRow C.N) (c id i))
        (fun k hk' => digit_Bdd hC hF hD hk' _) (hs id hid) (he id hid)
      exact ⟨W, fun _ => ⟨h1, h2⟩⟩
    · exact ⟨0, fun h => absurd h hid⟩
  choose W hW using hvs
  refine ⟨∑ id ∈ S, W id, ?_, fun i hi => ?_⟩
  · rw [Finset.mul_sum]
    exact Nega.Bdd.sum_const _ _ fun id hid => (hW id hid).1
  · unfold ringPhase
    have hz : conjOut C L S c (fun id => (ck id).kv) u.kv "0" i =
        Nega.auto (galRow C.N) (c "0" i) +
        ∑ j ∈ S, ext C L (digit C L fun i => Nega.auto (galRow C.N) (c j i)) (ck j).kv i := by
      unfold conjOut; rw [if_pos rfl]
    have hid : ∀ id ∈ S, conjOut C L S c (fun id => (ck id).kv) u.kv id i *
        Nega.red (C.q i) (s id) = Nega.red (C.q i) (s id) *
          ext C L (digit C L fun i => Nega.auto (galRow C.N) (c id i)) u.kv i := by
      intro id hid
      unfold conjOut
      rw [if_neg (fun hz => hS0 (hz ▸ hid) : id ≠ "0"), mul_comm]
    rw [Finset.sum_congr rfl hid, hz, ← Nega.autoHom_apply _ hodd (_ + _), map_add, map_sum,
      Nega.autoHom_apply, map_sum, add_assoc, add_assoc, ← Finset.sum_add_distrib,
      ← Finset.sum_add_distrib]
    congr 1
    refine Finset.sum_congr rfl fun id hid => ?_
    rw [(hW id hid).2 i hi, map_mul, Nega.autoHom_apply, Nega.autoHom_apply, Nega.auto_red]

end MK
