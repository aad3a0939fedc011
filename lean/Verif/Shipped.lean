import Verif.NttInst
import Verif.Props.Utils
import Verif.Props.ExKeySwitch
import Mathlib.NumberTheory.LucasPrimality
import Mathlib.Tactic.NormNum.Prime
import Mathlib.GroupTheory.OrderOfElement

/-!
# The shipped parameter set

`PN15QP880` of lr/lr.go 40-55 as a `Ctx`: ring degree `2^15`, the 21 moduli and two special primes of
the source, number-theoretic transforms by evaluation at the powers of a primitive `2^16`-th root
in bit-reversed order.  Primality of the moduli is proved from Lucas certificates which the kernel
evaluates.
-/

noncomputable section

namespace MK

/-! ## Certificates -/

/-- `a^e mod m` by repeated squaring, for `e < 2^fuel`. -/
def powMod (m : ℕ) : ℕ → ℕ → ℕ → ℕ
  | 0, _, _ => 1 % m
  | f + 1, a, e => (if e % 2 = 1 then a else 1) * powMod m f (a * a % m) (e / 2) % m

theorem powMod_cast (m : ℕ) : ∀ (f a e : ℕ), e < 2 ^ f → (powMod m f a e : ZMod m) = (a : ZMod m) ^ e
  | 0, a, e, h => by
    obtain rfl : e = 0 := by simpa using h
    simp [powMod]
  | f + 1, a, e, h => by
    have ih := powMod_cast m f (a * a % m) (e / 2) (by rw [pow_succ] at h; omega)
    rw [powMod, ZMod.natCast_mod, Nat.cast_mul, ih, ZMod.natCast_mod, Nat.cast_mul, ← pow_two,
      ← pow_mul]
    conv_rhs => rw [← Nat.div_add_mod e 2, pow_add]
    rcases Nat.mod_two_eq_zero_or_one e with h2 | h2 <;> simp [h2, mul_comm]

/-- The checks of a Lucas certificate: generator `a`, factorisation `fs` of `q-1`. -/
def lucasCheck (q a : ℕ) (fs : List (ℕ × ℕ)) : Bool :=
  decide (q - 1 < 2 ^ 64) && decide (1 < q) && decide (powMod q 64 a (q - 1) = 1) &&
    decide ((fs.map fun f => f.1 ^ f.2).prod = q - 1) &&
    fs.all fun f => decide (powMod q 64 a ((q - 1) / f.1) ≠ 1)

theorem powMod_lt {m : ℕ} (hm : 0 < m) (f a e : ℕ) : powMod m f a e < m := by
  cases f <;> exact Nat.mod_lt _ hm

theorem prime_of_cert {q : ℕ} (a : ℕ) (fs : List (ℕ × ℕ)) (hp : ∀ f ∈ fs, f.1.Prime)
    (h : lucasCheck q a fs = true) : q.Prime := by
  simp only [lucasCheck, Bool.and_eq_true, decide_eq_true_eq, List.all_eq_true] at h
  obtain ⟨⟨⟨⟨h0, h1⟩, h2⟩, h3⟩, h4⟩ := h
  have one : ((1 : ℕ) : ZMod q) = 1 := by simp
  refine lucas_primality q (a : ZMod q) ?_ fun p pp hd => ?_
  · rw [← powMod_cast q 64 a (q - 1) h0, h2, one]
  · rw [← h3] at hd
    obtain ⟨x, hx, hd⟩ := (Prime.dvd_prod_iff pp.prime).mp hd
    obtain ⟨f, hf, rfl⟩ := List.mem_map.mp hx
    obtain rfl := (Nat.prime_dvd_prime_iff_eq pp (hp f hf)).mp (pp.dvd_of_dvd_pow hd)
    intro e
    rw [← powMod_cast q 64 a _ (lt_of_le_of_lt (Nat.div_le_self _ _) h0), ← one,
      ZMod.natCast_eq_natCast_iff', Nat.mod_eq_of_lt (powMod_lt (by omega) _ _ _),
      Nat.mod_eq_of_lt h1] at e
    exact h4 f hf e

/-- Powers `ψ^(2·brv(j)+1)` of a primitive `2^(k+1)`-th root are distinct roots of `X^(2^k)+1`. -/
theorem roots_pow {k q : ℕ} {ψ : ZMod q} (h : ψ ^ 2 ^ k = -1) (e : ℕ) : (ψ ^ (2 * e + 1)) ^ 2 ^ k = -1 := by
  rw [← pow_mul, mul_comm, pow_mul, h]
  exact Odd.neg_one_pow ⟨_, rfl⟩

theorem roots_inj {k q N : ℕ} [Fact q.Prime] (hq : 2 < q) {ψ : ZMod q} (h : ψ ^ 2 ^ k = -1)
    (hN : N = 2 ^ k) :
    Function.Injective fun j : Fin N => ψ ^ (2 * Utils.bitRev k j + 1) := by
  subst hN
  have : Fact (2 < q) := ⟨hq⟩
  have o : orderOf ψ = 2 ^ (k + 1) := by
    refine orderOf_eq_prime_pow ?_ ?_
    · rw [h]; exact ZMod.neg_one_ne_one
    · rw [pow_succ, pow_mul, h]; norm_num
  intro i j e
  have hb := fun j => Utils.bitRev_lt k j
  have hlt : ∀ j : ℕ, 2 * Utils.bitRev k j + 1 < orderOf ψ := fun j => by
    have := hb j
    rw [o, pow_succ]; omega
  have e1 := pow_injOn_Iio_orderOf (hlt i) (hlt j) e
  have e2 : Utils.bitRev k i = Utils.bitRev k j := by omega
  apply Fin.ext
  rw [← Utils.bitRev_bitRev i.isLt, e2, Utils.bitRev_bitRev j.isLt]

/-- The transform modulo `q` of degree `N = 2^k`: evaluation at `ψ^(2·brv(j)+1)`. -/
def rootEquiv (N k q : ℕ) [NeZero N] [Fact q.Prime] (ψ : ℕ) (hN : N = 2 ^ k) (hq : 2 < q)
    (h : powMod q (k + 1) ψ N + 1 = q) : Nega N (ZMod q) ≃+* Row N q :=
  have hψ : (ψ : ZMod q) ^ 2 ^ k = -1 := by
    rw [← hN, ← powMod_cast q (k + 1) ψ N (by rw [hN]; exact Nat.pow_lt_pow_right (by norm_num) (by omega)),
      eq_neg_iff_add_eq_zero]
    have := congrArg (Nat.cast (R := ZMod q)) h
    simpa using this
  evalEquiv N q (fun j => (ψ : ZMod q) ^ (2 * Utils.bitRev k j + 1))
    (fun j => by subst hN; exact roots_pow hψ _) (roots_inj hq hψ hN)

/-- The transform of degree `2^15`. -/
abbrev pnEquiv (q : ℕ) [Fact q.Prime] (ψ : ℕ) (hq : 2 < q) (h : powMod q 16 ψ 32768 + 1 = q) :
    Nega 32768 (ZMod q) ≃+* Row 32768 q := rootEquiv 32768 15 q ψ (by norm_num) hq h

/-- The moduli `Q` of `PN15QP880` (lr/lr.go 43-50), continued by `1`. -/
def pnQ : ℕ → ℕ
  | 0 => 0x80000000080001
  | 1 => 0x4000170001
  | 2 => 0x40002f0001
  | 3 => 0x3fffe80001
  | 4 => 0x4000300001
  | 5 => 0x40003f0001
  | 6 => 0x3fffcf0001
  | 7 => 0x4000450001
  | 8 => 0x3fffc10001
  | 9 => 0x40004a0001
  | 10 => 0x3fffb80001
  | 11 => 0x3fffb70001
  | 12 => 0x4000510001
  | 13 => 0x3fffb20001
  | 14 => 0x4000540001
  | 15 => 0x3fffaf0001
  | 16 => 0x4000560001
  | 17 => 0x4000590001
  | 18 => 0x3fff810001
  | 19 => 0x40006b0001
  | 20 => 0x4000720001
  | _ => 1

/-- The special primes `P` of `PN15QP880` (lr/lr.go 51-52), continued by `1`. -/
def pnP : ℕ → ℕ
  | 0 => 0x40000001b0001
  | 1 => 0x4000000270001
  | _ => 1

/-! ## Primality -/

theorem prime_80000000080001 : (0x80000000080001 : ℕ).Prime :=
  prime_of_cert 3 [(2, 19), (17, 1), (241, 1), (433, 1), (38737, 1)] (by norm_num) (by decide +kernel)
instance fact_80000000080001 : Fact (Nat.Prime 0x80000000080001) := ⟨prime_80000000080001⟩

theorem prime_4000170001 : (0x4000170001 : ℕ).Prime :=
  prime_of_cert 10 [(2, 16), (3, 1), (47, 1), (151, 1), (197, 1)] (by norm_num) (by decide +kernel)
instance fact_4000170001 : Fact (Nat.Prime 0x4000170001) := ⟨prime_4000170001⟩

theorem prime_40002f0001 : (0x40002f0001 : ℕ).Prime :=
  prime_of_cert 10 [(2, 16), (3, 2), (7, 2), (9511, 1)] (by norm_num) (by decide +kernel)
instance fact_40002f0001 : Fact (Nat.Prime 0x40002f0001) := ⟨prime_40002f0001⟩

theorem prime_3fffe80001 : (0x3fffe80001 : ℕ).Prime :=
  prime_of_cert 3 [(2, 19), (5, 1), (23, 1), (47, 1), (97, 1)] (by norm_num) (by decide +kernel)
instance fact_3fffe80001 : Fact (Nat.Prime 0x3fffe80001) := ⟨prime_3fffe80001⟩

theorem prime_4000300001 : (0x4000300001 : ℕ).Prime :=
  prime_of_cert 3 [(2, 20), (262147, 1)] (by norm_num) (by decide +kernel)
instance fact_4000300001 : Fact (Nat.Prime 0x4000300001) := ⟨prime_4000300001⟩

theorem prime_40003f0001 : (0x40003f0001 : ℕ).Prime :=
  prime_of_cert 3 [(2, 16), (53, 1), (79139, 1)] (by norm_num) (by decide +kernel)
instance fact_40003f0001 : Fact (Nat.Prime 0x40003f0001) := ⟨prime_40003f0001⟩

theorem prime_3fffcf0001 : (0x3fffcf0001 : ℕ).Prime :=
  prime_of_cert 21 [(2, 16), (3, 1), (5, 1), (13, 1), (137, 1), (157, 1)] (by norm_num) (by decide +kernel)
instance fact_3fffcf0001 : Fact (Nat.Prime 0x3fffcf0001) := ⟨prime_3fffcf0001⟩

theorem prime_4000450001 : (0x4000450001 : ℕ).Prime :=
  prime_of_cert 3 [(2, 16), (541, 1), (7753, 1)] (by norm_num) (by decide +kernel)
instance fact_4000450001 : Fact (Nat.Prime 0x4000450001) := ⟨prime_4000450001⟩

theorem prime_3fffc10001 : (0x3fffc10001 : ℕ).Prime :=
  prime_of_cert 3 [(2, 16), (29, 1), (144629, 1)] (by norm_num) (by decide +kernel)
instance fact_3fffc10001 : Fact (Nat.Prime 0x3fffc10001) := ⟨prime_3fffc10001⟩

theorem prime_40004a0001 : (0x40004a0001 : ℕ).Prime :=
  prime_of_cert 13 [(2, 17), (3, 2), (233021, 1)] (by norm_num) (by decide +kernel)
instance fact_40004a0001 : Fact (Nat.Prime 0x40004a0001) := ⟨prime_40004a0001⟩

theorem prime_3fffb80001 : (0x3fffb80001 : ℕ).Prime :=
  prime_of_cert 3 [(2, 19), (7, 1), (74897, 1)] (by norm_num) (by decide +kernel)
instance fact_3fffb80001 : Fact (Nat.Prime 0x3fffb80001) := ⟨prime_3fffb80001⟩

theorem prime_3fffb70001 : (0x3fffb70001 : ℕ).Prime :=
  prime_of_cert 5 [(2, 16), (3, 1), (19, 1), (73583, 1)] (by norm_num) (by decide +kernel)
instance fact_3fffb70001 : Fact (Nat.Prime 0x3fffb70001) := ⟨prime_3fffb70001⟩

theorem prime_4000510001 : (0x4000510001 : ℕ).Prime :=
  prime_of_cert 3 [(2, 16), (5, 1), (13, 1), (173, 1), (373, 1)] (by norm_num) (by decide +kernel)
instance fact_4000510001 : Fact (Nat.Prime 0x4000510001) := ⟨prime_4000510001⟩

theorem prime_3fffb20001 : (0x3fffb20001 : ℕ).Prime :=
  prime_of_cert 3 [(2, 17), (733, 1), (2861, 1)] (by norm_num) (by decide +kernel)
instance fact_3fffb20001 : Fact (Nat.Prime 0x3fffb20001) := ⟨prime_3fffb20001⟩

theorem prime_4000540001 : (0x4000540001 : ℕ).Prime :=
  prime_of_cert 3 [(2, 18), (11, 1), (95327, 1)] (by norm_num) (by decide +kernel)
instance fact_4000540001 : Fact (Nat.Prime 0x4000540001) := ⟨prime_4000540001⟩

theorem prime_3fffaf0001 : (0x3fffaf0001 : ℕ).Prime :=
  prime_of_cert 3 [(2, 16), (11, 2), (17, 1), (2039, 1)] (by norm_num) (by decide +kernel)
instance fact_3fffaf0001 : Fact (Nat.Prime 0x3fffaf0001) := ⟨prime_3fffaf0001⟩

theorem prime_4000560001 : (0x4000560001 : ℕ).Prime :=
  prime_of_cert 29 [(2, 17), (3, 1), (5, 1), (139813, 1)] (by norm_num) (by decide +kernel)
instance fact_4000560001 : Fact (Nat.Prime 0x4000560001) := ⟨prime_4000560001⟩

theorem prime_4000590001 : (0x4000590001 : ℕ).Prime :=
  prime_of_cert 19 [(2, 16), (3, 1), (7, 1), (17, 1), (31, 1), (379, 1)] (by norm_num) (by decide +kernel)
instance fact_4000590001 : Fact (Nat.Prime 0x4000590001) := ⟨prime_4000590001⟩

theorem prime_3fff810001 : (0x3fff810001 : ℕ).Prime :=
  prime_of_cert 10 [(2, 16), (3, 1), (13, 1), (41, 1), (43, 1), (61, 1)] (by norm_num) (by decide +kernel)
instance fact_3fff810001 : Fact (Nat.Prime 0x3fff810001) := ⟨prime_3fff810001⟩

theorem prime_40006b0001 : (0x40006b0001 : ℕ).Prime :=
  prime_of_cert 10 [(2, 16), (3, 1), (13, 2), (8273, 1)] (by norm_num) (by decide +kernel)
instance fact_40006b0001 : Fact (Nat.Prime 0x40006b0001) := ⟨prime_40006b0001⟩

theorem prime_4000720001 : (0x4000720001 : ℕ).Prime :=
  prime_of_cert 3 [(2, 17), (23, 1), (91183, 1)] (by norm_num) (by decide +kernel)
instance fact_4000720001 : Fact (Nat.Prime 0x4000720001) := ⟨prime_4000720001⟩

theorem prime_40000001b0001 : (0x40000001b0001 : ℕ).Prime :=
  prime_of_cert 3 [(2, 16), (109, 1), (157613479, 1)] (by norm_num) (by decide +kernel)
instance fact_40000001b0001 : Fact (Nat.Prime 0x40000001b0001) := ⟨prime_40000001b0001⟩

theorem prime_4000000270001 : (0x4000000270001 : ℕ).Prime :=
  prime_of_cert 3 [(2, 16), (11, 1), (14479, 1), (107867, 1)] (by norm_num) (by decide +kernel)
instance fact_4000000270001 : Fact (Nat.Prime 0x4000000270001) := ⟨prime_4000000270001⟩

/-- The number-theoretic transforms modulo `Q`. -/
def pnNttQ : Ntt 32768 pnQ where
  equiv
  | 0 => pnEquiv 0x80000000080001 35815928566404894 (by norm_num) (by decide +kernel)
  | 1 => pnEquiv 0x4000170001 105322812880 (by norm_num) (by decide +kernel)
  | 2 => pnEquiv 0x40002f0001 2168694152 (by norm_num) (by decide +kernel)
  | 3 => pnEquiv 0x3fffe80001 237730546360 (by norm_num) (by decide +kernel)
  | 4 => pnEquiv 0x4000300001 200729638121 (by norm_num) (by decide +kernel)
  | 5 => pnEquiv 0x40003f0001 204276114564 (by norm_num) (by decide +kernel)
  | 6 => pnEquiv 0x3fffcf0001 99690987088 (by norm_num) (by decide +kernel)
  | 7 => pnEquiv 0x4000450001 141275987057 (by norm_num) (by decide +kernel)
  | 8 => pnEquiv 0x3fffc10001 261178253158 (by norm_num) (by decide +kernel)
  | 9 => pnEquiv 0x40004a0001 48679588078 (by norm_num) (by decide +kernel)
  | 10 => pnEquiv 0x3fffb80001 153498959650 (by norm_num) (by decide +kernel)
  | 11 => pnEquiv 0x3fffb70001 16691891318 (by norm_num) (by decide +kernel)
  | 12 => pnEquiv 0x4000510001 127183163269 (by norm_num) (by decide +kernel)
  | 13 => pnEquiv 0x3fffb20001 252814442088 (by norm_num) (by decide +kernel)
  | 14 => pnEquiv 0x4000540001 43522412639 (by norm_num) (by decide +kernel)
  | 15 => pnEquiv 0x3fffaf0001 12312243121 (by norm_num) (by decide +kernel)
  | 16 => pnEquiv 0x4000560001 249517748967 (by norm_num) (by decide +kernel)
  | 17 => pnEquiv 0x4000590001 187644553887 (by norm_num) (by decide +kernel)
  | 18 => pnEquiv 0x3fff810001 162951903444 (by norm_num) (by decide +kernel)
  | 19 => pnEquiv 0x40006b0001 40433257080 (by norm_num) (by decide +kernel)
  | 20 => pnEquiv 0x4000720001 265245836815 (by norm_num) (by decide +kernel)
  | _ + 21 => trivEquiv 32768

/-- The number-theoretic transforms modulo `P`. -/
def pnNttP : Ntt 32768 pnP where
  equiv
  | 0 => pnEquiv 0x40000001b0001 535551717800958 (by norm_num) (by decide +kernel)
  | 1 => pnEquiv 0x4000000270001 1084172711437224 (by norm_num) (by decide +kernel)
  | _ + 2 => trivEquiv 32768

/-- The parameter set of lr/lr.go (40-55) with `gamma = 2` (mkckks/params.go 21-40 calls
`mkrlwe.NewParameters(params, 2)`). -/
def pnCtx : Ctx where
  N := 32768
  q := pnQ
  p := pnP
  nQ := 21
  nP := 2
  gamma := 2
  nttQ := pnNttQ
  nttP := pnNttP
  fv := exactV

theorem pnQ_prime : ∀ {i : ℕ}, i < 21 → (pnQ i).Prime
  | 0, _ => prime_80000000080001
  | 1, _ => prime_4000170001
  | 2, _ => prime_40002f0001
  | 3, _ => prime_3fffe80001
  | 4, _ => prime_4000300001
  | 5, _ => prime_40003f0001
  | 6, _ => prime_3fffcf0001
  | 7, _ => prime_4000450001
  | 8, _ => prime_3fffc10001
  | 9, _ => prime_40004a0001
  | 10, _ => prime_3fffb80001
  | 11, _ => prime_3fffb70001
  | 12, _ => prime_4000510001
  | 13, _ => prime_3fffb20001
  | 14, _ => prime_4000540001
  | 15, _ => prime_3fffaf0001
  | 16, _ => prime_4000560001
  | 17, _ => prime_4000590001
  | 18, _ => prime_3fff810001
  | 19, _ => prime_40006b0001
  | 20, _ => prime_4000720001
  | _ + 21, h => by omega

theorem pnP_prime : ∀ {i : ℕ}, i < 2 → (pnP i).Prime
  | 0, _ => prime_40000001b0001
  | 1, _ => prime_4000000270001
  | _ + 2, h => by omega

theorem pnQ_one {i : ℕ} (hi : 21 ≤ i) : pnQ i = 1 := by
  obtain ⟨j, rfl⟩ := Nat.exists_eq_add_of_le' hi
  rfl

theorem pnP_one {i : ℕ} (hi : 2 ≤ i) : pnP i = 1 := by
  obtain ⟨j, rfl⟩ := Nat.exists_eq_add_of_le' hi
  rfl

theorem pnCtx_good : pnCtx.Good where
  oddQ i := by
    show (pnQ i).Coprime montR
    rcases lt_or_ge i 21 with h | h
    · interval_cases i <;> decide +kernel
    · rw [pnQ_one h]; exact Nat.coprime_one_left _
  oddP i := by
    show (pnP i).Coprime montR
    rcases lt_or_ge i 2 with h | h
    · interval_cases i <;> decide +kernel
    · rw [pnP_one h]; exact Nat.coprime_one_left _
  posQ i := by
    show 0 < pnQ i
    rcases lt_or_ge i 21 with h | h
    · exact (pnQ_prime h).pos
    · rw [pnQ_one h]; exact one_pos
  posP i := by
    show 0 < pnP i
    rcases lt_or_ge i 2 with h | h
    · exact (pnP_prime h).pos
    · rw [pnP_one h]; exact one_pos
  copQ := by
    have h : ∀ i < 21, ∀ j < 21, i ≠ j → (pnQ i).Coprime (pnQ j) := by decide +kernel
    exact fun i j hi hj => h i hi j hj
  copP := by
    have h : ∀ i < 2, ∀ j < 2, i ≠ j → (pnP i).Coprime (pnP j) := by decide +kernel
    exact fun i j hi hj => h i hi j hj
  copQP := by
    have h : ∀ i < 21, ∀ j < 2, (pnQ i).Coprime (pnP j) := by decide +kernel
    exact fun i j hi hj => h i hi j hj
  nQ_pos := by show 0 < 21; norm_num
  alpha_pos := by show 0 < 2 / 2; norm_num

theorem pnCtx_fits : pnCtx.Fits where
  float := exactV_ok
  q_lt i := by
    show pnQ i < 2 ^ 61
    rcases lt_or_ge i 21 with h | h
    · interval_cases i <;> decide +kernel
    · rw [pnQ_one h]; norm_num
  p_lt i := by
    show pnP i < 2 ^ 61
    rcases lt_or_ge i 2 with h | h
    · interval_cases i <;> decide +kernel
    · rw [pnP_one h]; norm_num
  nP_le := by show 2 ≤ 32; norm_num

end MK
