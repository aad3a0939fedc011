import Verif.Shipped

/-!
# The parameter sets written in the tests

`PN16QP1761` of mkrlwe/mkrlwe_test.go 22-35 and `PN15QP880`, `PN14QP439` of
mkckks/mkckks_test.go 51-91 as contexts, all with `gamma = 2` (mkrlwe/mkrlwe_test.go 67,
mkckks/params.go 21-40).  Constructed as in `Verif.Shipped`: primality from Lucas certificates,
transforms by evaluation at the powers of a primitive root of order `2N` in bit-reversed order.
-/

noncomputable section

namespace MK

/-! ## `PN16QP1761` -/

/-- The moduli `Q` of `PN16QP1761` (mkrlwe/mkrlwe_test.go 22-35), continued by `1`. -/
def tpQ : ℕ → ℕ
  | 0 => 0x80000000080001
  | 1 => 0x2000000a0001
  | 2 => 0x2000000e0001
  | 3 => 0x1fffffc20001
  | 4 => 0x200000440001
  | 5 => 0x200000500001
  | 6 => 0x200000620001
  | 7 => 0x1fffff980001
  | 8 => 0x2000006a0001
  | 9 => 0x1fffff7e0001
  | 10 => 0x200000860001
  | 11 => 0x200000a60001
  | 12 => 0x200000aa0001
  | 13 => 0x200000b20001
  | 14 => 0x200000c80001
  | 15 => 0x1fffff360001
  | 16 => 0x200000e20001
  | 17 => 0x1fffff060001
  | 18 => 0x200000fe0001
  | 19 => 0x1ffffede0001
  | 20 => 0x1ffffeca0001
  | 21 => 0x1ffffeb40001
  | 22 => 0x200001520001
  | 23 => 0x1ffffe760001
  | 24 => 0x2000019a0001
  | 25 => 0x1ffffe640001
  | 26 => 0x200001a00001
  | 27 => 0x1ffffe520001
  | 28 => 0x200001e80001
  | 29 => 0x1ffffe0c0001
  | 30 => 0x1ffffdee0001
  | 31 => 0x200002480001
  | 32 => 0x1ffffdb60001
  | 33 => 0x200002560001
  | _ => 1

/-- The special primes `P` of `PN16QP1761` (mkrlwe/mkrlwe_test.go 22-35), continued by `1`. -/
def tpP : ℕ → ℕ
  | 0 => 0x80000000440001
  | 1 => 0x7fffffffba0001
  | 2 => 0x80000000500001
  | 3 => 0x7fffffffaa0001
  | _ => 1

theorem prime_2000000a0001 : (0x2000000a0001 : ℕ).Prime :=
  prime_of_cert 5 [(2, 17), (3, 1), (7, 1), (23, 1), (555767, 1)] (by norm_num) (by decide +kernel)
instance fact_2000000a0001 : Fact (Nat.Prime 0x2000000a0001) := ⟨prime_2000000a0001⟩

theorem prime_dec_268435463 : (268435463 : ℕ).Prime :=
  prime_of_cert 5 [(2, 1), (4057, 1), (33083, 1)] (by norm_num) (by decide +kernel)

theorem prime_2000000e0001 : (0x2000000e0001 : ℕ).Prime :=
  prime_of_cert 3 [(2, 17), (268435463, 1)]
    (List.forall_mem_cons.mpr ⟨by norm_num,
    (List.forall_mem_cons.mpr ⟨prime_dec_268435463, List.forall_mem_nil _⟩)⟩)
    (by decide +kernel)
instance fact_2000000e0001 : Fact (Nat.Prime 0x2000000e0001) := ⟨prime_2000000e0001⟩

theorem prime_1fffffc20001 : (0x1fffffc20001 : ℕ).Prime :=
  prime_of_cert 13 [(2, 17), (3, 1), (5, 2), (3579139, 1)] (by norm_num) (by decide +kernel)
instance fact_1fffffc20001 : Fact (Nat.Prime 0x1fffffc20001) := ⟨prime_1fffffc20001⟩

theorem prime_dec_26843549 : (26843549 : ℕ).Prime :=
  prime_of_cert 2 [(2, 2), (6710887, 1)] (by norm_num) (by decide +kernel)

theorem prime_200000440001 : (0x200000440001 : ℕ).Prime :=
  prime_of_cert 3 [(2, 18), (5, 1), (26843549, 1)]
    (List.forall_mem_cons.mpr ⟨by norm_num,
    (List.forall_mem_cons.mpr ⟨by norm_num,
    (List.forall_mem_cons.mpr ⟨prime_dec_26843549, List.forall_mem_nil _⟩)⟩)⟩)
    (by decide +kernel)
instance fact_200000440001 : Fact (Nat.Prime 0x200000440001) := ⟨prime_200000440001⟩

theorem prime_200000500001 : (0x200000500001 : ℕ).Prime :=
  prime_of_cert 3 [(2, 20), (7, 1), (19, 1), (252289, 1)] (by norm_num) (by decide +kernel)
instance fact_200000500001 : Fact (Nat.Prime 0x200000500001) := ⟨prime_200000500001⟩

theorem prime_200000620001 : (0x200000620001 : ℕ).Prime :=
  prime_of_cert 3 [(2, 17), (5, 1), (13, 1), (4129777, 1)] (by norm_num) (by decide +kernel)
instance fact_200000620001 : Fact (Nat.Prime 0x200000620001) := ⟨prime_200000620001⟩

theorem prime_1fffff980001 : (0x1fffff980001 : ℕ).Prime :=
  prime_of_cert 11 [(2, 19), (3, 3), (2485513, 1)] (by norm_num) (by decide +kernel)
instance fact_1fffff980001 : Fact (Nat.Prime 0x1fffff980001) := ⟨prime_1fffff980001⟩

theorem prime_dec_89478503 : (89478503 : ℕ).Prime :=
  prime_of_cert 5 [(2, 1), (131, 1), (341521, 1)] (by norm_num) (by decide +kernel)

theorem prime_2000006a0001 : (0x2000006a0001 : ℕ).Prime :=
  prime_of_cert 11 [(2, 17), (3, 1), (89478503, 1)]
    (List.forall_mem_cons.mpr ⟨by norm_num,
    (List.forall_mem_cons.mpr ⟨by norm_num,
    (List.forall_mem_cons.mpr ⟨prime_dec_89478503, List.forall_mem_nil _⟩)⟩)⟩)
    (by decide +kernel)
instance fact_2000006a0001 : Fact (Nat.Prime 0x2000006a0001) := ⟨prime_2000006a0001⟩

theorem prime_dec_38347913 : (38347913 : ℕ).Prime :=
  prime_of_cert 3 [(2, 3), (4793489, 1)] (by norm_num) (by decide +kernel)

theorem prime_1fffff7e0001 : (0x1fffff7e0001 : ℕ).Prime :=
  prime_of_cert 5 [(2, 17), (7, 1), (38347913, 1)]
    (List.forall_mem_cons.mpr ⟨by norm_num,
    (List.forall_mem_cons.mpr ⟨by norm_num,
    (List.forall_mem_cons.mpr ⟨prime_dec_38347913, List.forall_mem_nil _⟩)⟩)⟩)
    (by decide +kernel)
instance fact_1fffff7e0001 : Fact (Nat.Prime 0x1fffff7e0001) := ⟨prime_1fffff7e0001⟩

theorem prime_dec_268435523 : (268435523 : ℕ).Prime :=
  prime_of_cert 2 [(2, 1), (71, 1), (79, 1), (23929, 1)] (by norm_num) (by decide +kernel)

theorem prime_200000860001 : (0x200000860001 : ℕ).Prime :=
  prime_of_cert 3 [(2, 17), (268435523, 1)]
    (List.forall_mem_cons.mpr ⟨by norm_num,
    (List.forall_mem_cons.mpr ⟨prime_dec_268435523, List.forall_mem_nil _⟩)⟩)
    (by decide +kernel)
instance fact_200000860001 : Fact (Nat.Prime 0x200000860001) := ⟨prime_200000860001⟩

theorem prime_200000a60001 : (0x200000a60001 : ℕ).Prime :=
  prime_of_cert 17 [(2, 17), (3, 5), (857, 1), (1289, 1)] (by norm_num) (by decide +kernel)
instance fact_200000a60001 : Fact (Nat.Prime 0x200000a60001) := ⟨prime_200000a60001⟩

theorem prime_200000aa0001 : (0x200000aa0001 : ℕ).Prime :=
  prime_of_cert 3 [(2, 17), (11, 1), (31, 1), (43, 1), (18307, 1)] (by norm_num) (by decide +kernel)
instance fact_200000aa0001 : Fact (Nat.Prime 0x200000aa0001) := ⟨prime_200000aa0001⟩

theorem prime_200000b20001 : (0x200000b20001 : ℕ).Prime :=
  prime_of_cert 26 [(2, 17), (3, 1), (5, 1), (7, 1), (59, 1), (43331, 1)] (by norm_num) (by decide +kernel)
instance fact_200000b20001 : Fact (Nat.Prime 0x200000b20001) := ⟨prime_200000b20001⟩

theorem prime_200000c80001 : (0x200000c80001 : ℕ).Prime :=
  prime_of_cert 3 [(2, 19), (1129, 1), (59441, 1)] (by norm_num) (by decide +kernel)
instance fact_200000c80001 : Fact (Nat.Prime 0x200000c80001) := ⟨prime_200000c80001⟩

theorem prime_1fffff360001 : (0x1fffff360001 : ℕ).Prime :=
  prime_of_cert 3 [(2, 17), (5, 1), (17, 1), (31, 1), (101873, 1)] (by norm_num) (by decide +kernel)
instance fact_1fffff360001 : Fact (Nat.Prime 0x1fffff360001) := ⟨prime_1fffff360001⟩

theorem prime_200000e20001 : (0x200000e20001 : ℕ).Prime :=
  prime_of_cert 7 [(2, 17), (3, 1), (41, 1), (97, 1), (149, 1), (151, 1)] (by norm_num) (by decide +kernel)
instance fact_200000e20001 : Fact (Nat.Prime 0x200000e20001) := ⟨prime_200000e20001⟩

theorem prime_dec_268435331 : (268435331 : ℕ).Prime :=
  prime_of_cert 2 [(2, 1), (5, 1), (47, 1), (439, 1), (1301, 1)] (by norm_num) (by decide +kernel)

theorem prime_1fffff060001 : (0x1fffff060001 : ℕ).Prime :=
  prime_of_cert 3 [(2, 17), (268435331, 1)]
    (List.forall_mem_cons.mpr ⟨by norm_num,
    (List.forall_mem_cons.mpr ⟨prime_dec_268435331, List.forall_mem_nil _⟩)⟩)
    (by decide +kernel)
instance fact_1fffff060001 : Fact (Nat.Prime 0x1fffff060001) := ⟨prime_1fffff060001⟩

theorem prime_dec_20648891 : (20648891 : ℕ).Prime :=
  prime_of_cert 6 [(2, 1), (5, 1), (89, 1), (23201, 1)] (by norm_num) (by decide +kernel)

theorem prime_200000fe0001 : (0x200000fe0001 : ℕ).Prime :=
  prime_of_cert 3 [(2, 17), (13, 1), (20648891, 1)]
    (List.forall_mem_cons.mpr ⟨by norm_num,
    (List.forall_mem_cons.mpr ⟨by norm_num,
    (List.forall_mem_cons.mpr ⟨prime_dec_20648891, List.forall_mem_nil _⟩)⟩)⟩)
    (by decide +kernel)
instance fact_200000fe0001 : Fact (Nat.Prime 0x200000fe0001) := ⟨prime_200000fe0001⟩

theorem prime_dec_89478437 : (89478437 : ℕ).Prime :=
  prime_of_cert 2 [(2, 2), (73, 1), (181, 1), (1693, 1)] (by norm_num) (by decide +kernel)

theorem prime_1ffffede0001 : (0x1ffffede0001 : ℕ).Prime :=
  prime_of_cert 7 [(2, 17), (3, 1), (89478437, 1)]
    (List.forall_mem_cons.mpr ⟨by norm_num,
    (List.forall_mem_cons.mpr ⟨by norm_num,
    (List.forall_mem_cons.mpr ⟨prime_dec_89478437, List.forall_mem_nil _⟩)⟩)⟩)
    (by decide +kernel)
instance fact_1ffffede0001 : Fact (Nat.Prime 0x1ffffede0001) := ⟨prime_1ffffede0001⟩

theorem prime_1ffffeca0001 : (0x1ffffeca0001 : ℕ).Prime :=
  prime_of_cert 3 [(2, 17), (53, 1), (5064817, 1)] (by norm_num) (by decide +kernel)
instance fact_1ffffeca0001 : Fact (Nat.Prime 0x1ffffeca0001) := ⟨prime_1ffffeca0001⟩

theorem prime_1ffffeb40001 : (0x1ffffeb40001 : ℕ).Prime :=
  prime_of_cert 7 [(2, 18), (3, 1), (5, 1), (8947843, 1)] (by norm_num) (by decide +kernel)
instance fact_1ffffeb40001 : Fact (Nat.Prime 0x1ffffeb40001) := ⟨prime_1ffffeb40001⟩

theorem prime_200001520001 : (0x200001520001 : ℕ).Prime :=
  prime_of_cert 3 [(2, 17), (5, 4), (429497, 1)] (by norm_num) (by decide +kernel)
instance fact_200001520001 : Fact (Nat.Prime 0x200001520001) := ⟨prime_200001520001⟩

theorem prime_1ffffe760001 : (0x1ffffe760001 : ℕ).Prime :=
  prime_of_cert 3 [(2, 17), (37, 1), (7255007, 1)] (by norm_num) (by decide +kernel)
instance fact_1ffffe760001 : Fact (Nat.Prime 0x1ffffe760001) := ⟨prime_1ffffe760001⟩

theorem prime_2000019a0001 : (0x2000019a0001 : ℕ).Prime :=
  prime_of_cert 3 [(2, 17), (13, 1), (17, 1), (1214641, 1)] (by norm_num) (by decide +kernel)
instance fact_2000019a0001 : Fact (Nat.Prime 0x2000019a0001) := ⟨prime_2000019a0001⟩

theorem prime_1ffffe640001 : (0x1ffffe640001 : ℕ).Prime :=
  prime_of_cert 3 [(2, 18), (5, 3), (59, 1), (18199, 1)] (by norm_num) (by decide +kernel)
instance fact_1ffffe640001 : Fact (Nat.Prime 0x1ffffe640001) := ⟨prime_1ffffe640001⟩

theorem prime_200001a00001 : (0x200001a00001 : ℕ).Prime :=
  prime_of_cert 3 [(2, 21), (7, 1), (71, 1), (33757, 1)] (by norm_num) (by decide +kernel)
instance fact_200001a00001 : Fact (Nat.Prime 0x200001a00001) := ⟨prime_200001a00001⟩

theorem prime_1ffffe520001 : (0x1ffffe520001 : ℕ).Prime :=
  prime_of_cert 3 [(2, 17), (41, 1), (1279, 1), (5119, 1)] (by norm_num) (by decide +kernel)
instance fact_1ffffe520001 : Fact (Nat.Prime 0x1ffffe520001) := ⟨prime_1ffffe520001⟩

theorem prime_200001e80001 : (0x200001e80001 : ℕ).Prime :=
  prime_of_cert 7 [(2, 19), (5, 2), (13, 1), (206489, 1)] (by norm_num) (by decide +kernel)
instance fact_200001e80001 : Fact (Nat.Prime 0x200001e80001) := ⟨prime_200001e80001⟩

theorem prime_1ffffe0c0001 : (0x1ffffe0c0001 : ℕ).Prime :=
  prime_of_cert 5 [(2, 18), (3, 2), (13, 2), (79, 1), (1117, 1)] (by norm_num) (by decide +kernel)
instance fact_1ffffe0c0001 : Fact (Nat.Prime 0x1ffffe0c0001) := ⟨prime_1ffffe0c0001⟩

theorem prime_1ffffdee0001 : (0x1ffffdee0001 : ℕ).Prime :=
  prime_of_cert 5 [(2, 17), (3, 1), (59, 1), (1516583, 1)] (by norm_num) (by decide +kernel)
instance fact_1ffffdee0001 : Fact (Nat.Prime 0x1ffffdee0001) := ⟨prime_1ffffdee0001⟩

theorem prime_200002480001 : (0x200002480001 : ℕ).Prime :=
  prime_of_cert 5 [(2, 19), (7, 1), (89, 1), (107719, 1)] (by norm_num) (by decide +kernel)
instance fact_200002480001 : Fact (Nat.Prime 0x200002480001) := ⟨prime_200002480001⟩

theorem prime_1ffffdb60001 : (0x1ffffdb60001 : ℕ).Prime :=
  prime_of_cert 3 [(2, 17), (12941, 1), (20743, 1)] (by norm_num) (by decide +kernel)
instance fact_1ffffdb60001 : Fact (Nat.Prime 0x1ffffdb60001) := ⟨prime_1ffffdb60001⟩

theorem prime_200002560001 : (0x200002560001 : ℕ).Prime :=
  prime_of_cert 13 [(2, 17), (3, 3), (5, 1), (7, 1), (284059, 1)] (by norm_num) (by decide +kernel)
instance fact_200002560001 : Fact (Nat.Prime 0x200002560001) := ⟨prime_200002560001⟩

theorem prime_80000000440001 : (0x80000000440001 : ℕ).Prime :=
  prime_of_cert 3 [(2, 18), (19, 1), (42379, 1), (170689, 1)] (by norm_num) (by decide +kernel)
instance fact_80000000440001 : Fact (Nat.Prime 0x80000000440001) := ⟨prime_80000000440001⟩

theorem prime_dec_95410589 : (95410589 : ℕ).Prime :=
  prime_of_cert 2 [(2, 2), (7, 1), (13, 1), (61, 1), (4297, 1)] (by norm_num) (by decide +kernel)

theorem prime_7fffffffba0001 : (0x7fffffffba0001 : ℕ).Prime :=
  prime_of_cert 3 [(2, 17), (43, 1), (67, 1), (95410589, 1)]
    (List.forall_mem_cons.mpr ⟨by norm_num,
    (List.forall_mem_cons.mpr ⟨by norm_num,
    (List.forall_mem_cons.mpr ⟨by norm_num,
    (List.forall_mem_cons.mpr ⟨prime_dec_95410589, List.forall_mem_nil _⟩)⟩)⟩)⟩)
    (by decide +kernel)
instance fact_7fffffffba0001 : Fact (Nat.Prime 0x7fffffffba0001) := ⟨prime_7fffffffba0001⟩

theorem prime_dec_582368447 : (582368447 : ℕ).Prime :=
  prime_of_cert 5 [(2, 1), (11, 1), (47, 1), (563219, 1)] (by norm_num) (by decide +kernel)

theorem prime_80000000500001 : (0x80000000500001 : ℕ).Prime :=
  prime_of_cert 3 [(2, 20), (59, 1), (582368447, 1)]
    (List.forall_mem_cons.mpr ⟨by norm_num,
    (List.forall_mem_cons.mpr ⟨by norm_num,
    (List.forall_mem_cons.mpr ⟨prime_dec_582368447, List.forall_mem_nil _⟩)⟩)⟩)
    (by decide +kernel)
instance fact_80000000500001 : Fact (Nat.Prime 0x80000000500001) := ⟨prime_80000000500001⟩

theorem prime_7fffffffaa0001 : (0x7fffffffaa0001 : ℕ).Prime :=
  prime_of_cert 5 [(2, 17), (3, 1), (13, 1), (163, 1), (5119, 1), (8447, 1)] (by norm_num) (by decide +kernel)
instance fact_7fffffffaa0001 : Fact (Nat.Prime 0x7fffffffaa0001) := ⟨prime_7fffffffaa0001⟩

/-- The transform of degree `2^16`. -/
abbrev tpEquiv (q : ℕ) [Fact q.Prime] (ψ : ℕ) (hq : 2 < q)
    (h : powMod q 17 ψ 65536 + 1 = q) : Nega 65536 (ZMod q) ≃+* Row 65536 q :=
  rootEquiv 65536 16 q ψ (by norm_num) hq h

/-- The number-theoretic transforms modulo the moduli. -/
def tpNttQ : Ntt 65536 tpQ where
  equiv
  | 0 => tpEquiv 0x80000000080001 5496172116484437 (by norm_num) (by decide +kernel)
  | 1 => tpEquiv 0x2000000a0001 26570341729359 (by norm_num) (by decide +kernel)
  | 2 => tpEquiv 0x2000000e0001 29173965914997 (by norm_num) (by decide +kernel)
  | 3 => tpEquiv 0x1fffffc20001 31324945430104 (by norm_num) (by decide +kernel)
  | 4 => tpEquiv 0x200000440001 11967725323850 (by norm_num) (by decide +kernel)
  | 5 => tpEquiv 0x200000500001 9417116787951 (by norm_num) (by decide +kernel)
  | 6 => tpEquiv 0x200000620001 10279581685689 (by norm_num) (by decide +kernel)
  | 7 => tpEquiv 0x1fffff980001 33929935339125 (by norm_num) (by decide +kernel)
  | 8 => tpEquiv 0x2000006a0001 837552380641 (by norm_num) (by decide +kernel)
  | 9 => tpEquiv 0x1fffff7e0001 30505502527720 (by norm_num) (by decide +kernel)
  | 10 => tpEquiv 0x200000860001 33266809523740 (by norm_num) (by decide +kernel)
  | 11 => tpEquiv 0x200000a60001 138989354776 (by norm_num) (by decide +kernel)
  | 12 => tpEquiv 0x200000aa0001 19538535267104 (by norm_num) (by decide +kernel)
  | 13 => tpEquiv 0x200000b20001 11320325549973 (by norm_num) (by decide +kernel)
  | 14 => tpEquiv 0x200000c80001 5320928491724 (by norm_num) (by decide +kernel)
  | 15 => tpEquiv 0x1fffff360001 25643250466013 (by norm_num) (by decide +kernel)
  | 16 => tpEquiv 0x200000e20001 28743078050621 (by norm_num) (by decide +kernel)
  | 17 => tpEquiv 0x1fffff060001 33132215459815 (by norm_num) (by decide +kernel)
  | 18 => tpEquiv 0x200000fe0001 33130816244780 (by norm_num) (by decide +kernel)
  | 19 => tpEquiv 0x1ffffede0001 31030257020785 (by norm_num) (by decide +kernel)
  | 20 => tpEquiv 0x1ffffeca0001 24285883876603 (by norm_num) (by decide +kernel)
  | 21 => tpEquiv 0x1ffffeb40001 19433962522564 (by norm_num) (by decide +kernel)
  | 22 => tpEquiv 0x200001520001 643657715896 (by norm_num) (by decide +kernel)
  | 23 => tpEquiv 0x1ffffe760001 3513891506063 (by norm_num) (by decide +kernel)
  | 24 => tpEquiv 0x2000019a0001 33325582089285 (by norm_num) (by decide +kernel)
  | 25 => tpEquiv 0x1ffffe640001 11243559711029 (by norm_num) (by decide +kernel)
  | 26 => tpEquiv 0x200001a00001 20823736592558 (by norm_num) (by decide +kernel)
  | 27 => tpEquiv 0x1ffffe520001 13707326202840 (by norm_num) (by decide +kernel)
  | 28 => tpEquiv 0x200001e80001 9126419096623 (by norm_num) (by decide +kernel)
  | 29 => tpEquiv 0x1ffffe0c0001 21022675657955 (by norm_num) (by decide +kernel)
  | 30 => tpEquiv 0x1ffffdee0001 16438101651781 (by norm_num) (by decide +kernel)
  | 31 => tpEquiv 0x200002480001 7863061861554 (by norm_num) (by decide +kernel)
  | 32 => tpEquiv 0x1ffffdb60001 25465867545972 (by norm_num) (by decide +kernel)
  | 33 => tpEquiv 0x200002560001 9406295580 (by norm_num) (by decide +kernel)
  | _ + 34 => trivEquiv 65536

/-- The number-theoretic transforms modulo the special primes. -/
def tpNttP : Ntt 65536 tpP where
  equiv
  | 0 => tpEquiv 0x80000000440001 990087887418232 (by norm_num) (by decide +kernel)
  | 1 => tpEquiv 0x7fffffffba0001 17941272946583125 (by norm_num) (by decide +kernel)
  | 2 => tpEquiv 0x80000000500001 22478341329029611 (by norm_num) (by decide +kernel)
  | 3 => tpEquiv 0x7fffffffaa0001 8750162127986996 (by norm_num) (by decide +kernel)
  | _ + 4 => trivEquiv 65536

/-- The parameter set `PN16QP1761` (mkrlwe/mkrlwe_test.go 22-35) with `gamma = 2`. -/
def tpCtx : Ctx where
  N := 65536
  q := tpQ
  p := tpP
  nQ := 34
  nP := 4
  gamma := 2
  nttQ := tpNttQ
  nttP := tpNttP
  fv := exactV

theorem tpQ_prime : ∀ {i : ℕ}, i < 34 → (tpQ i).Prime
  | 0, _ => prime_80000000080001
  | 1, _ => prime_2000000a0001
  | 2, _ => prime_2000000e0001
  | 3, _ => prime_1fffffc20001
  | 4, _ => prime_200000440001
  | 5, _ => prime_200000500001
  | 6, _ => prime_200000620001
  | 7, _ => prime_1fffff980001
  | 8, _ => prime_2000006a0001
  | 9, _ => prime_1fffff7e0001
  | 10, _ => prime_200000860001
  | 11, _ => prime_200000a60001
  | 12, _ => prime_200000aa0001
  | 13, _ => prime_200000b20001
  | 14, _ => prime_200000c80001
  | 15, _ => prime_1fffff360001
  | 16, _ => prime_200000e20001
  | 17, _ => prime_1fffff060001
  | 18, _ => prime_200000fe0001
  | 19, _ => prime_1ffffede0001
  | 20, _ => prime_1ffffeca0001
  | 21, _ => prime_1ffffeb40001
  | 22, _ => prime_200001520001
  | 23, _ => prime_1ffffe760001
  | 24, _ => prime_2000019a0001
  | 25, _ => prime_1ffffe640001
  | 26, _ => prime_200001a00001
  | 27, _ => prime_1ffffe520001
  | 28, _ => prime_200001e80001
  | 29, _ => prime_1ffffe0c0001
  | 30, _ => prime_1ffffdee0001
  | 31, _ => prime_200002480001
  | 32, _ => prime_1ffffdb60001
  | 33, _ => prime_200002560001
  | _ + 34, h => by omega

theorem tpP_prime : ∀ {i : ℕ}, i < 4 → (tpP i).Prime
  | 0, _ => prime_80000000440001
  | 1, _ => prime_7fffffffba0001
  | 2, _ => prime_80000000500001
  | 3, _ => prime_7fffffffaa0001
  | _ + 4, h => by omega

theorem tpQ_one {i : ℕ} (hi : 34 ≤ i) : tpQ i = 1 := by
  obtain ⟨j, rfl⟩ := Nat.exists_eq_add_of_le' hi
  rfl

theorem tpP_one {i : ℕ} (hi : 4 ≤ i) : tpP i = 1 := by
  obtain ⟨j, rfl⟩ := Nat.exists_eq_add_of_le' hi
  rfl

theorem tpCtx_good : tpCtx.Good where
  oddQ i := by
    show (tpQ i).Coprime montR
    rcases lt_or_ge i 34 with h | h
    · interval_cases i <;> decide +kernel
    · rw [tpQ_one h]; exact Nat.coprime_one_left _
  oddP i := by
    show (tpP i).Coprime montR
    rcases lt_or_ge i 4 with h | h
    · interval_cases i <;> decide +kernel
    · rw [tpP_one h]; exact Nat.coprime_one_left _
  posQ i := by
    show 0 < tpQ i
    rcases lt_or_ge i 34 with h | h
    · exact (tpQ_prime h).pos
    · rw [tpQ_one h]; exact one_pos
  posP i := by
    show 0 < tpP i
    rcases lt_or_ge i 4 with h | h
    · exact (tpP_prime h).pos
    · rw [tpP_one h]; exact one_pos
  copQ := by
    have h : ∀ i < 34, ∀ j < 34, i ≠ j → (tpQ i).Coprime (tpQ j) := by decide +kernel
    exact fun i j hi hj => h i hi j hj
  copP := by
    have h : ∀ i < 4, ∀ j < 4, i ≠ j → (tpP i).Coprime (tpP j) := by decide +kernel
    exact fun i j hi hj => h i hi j hj
  copQP := by
    have h : ∀ i < 34, ∀ j < 4, (tpQ i).Coprime (tpP j) := by decide +kernel
    exact fun i j hi hj => h i hi j hj
  nQ_pos := by show 0 < 34; norm_num
  alpha_pos := by show 0 < 4 / 2; norm_num

theorem tpCtx_fits : tpCtx.Fits where
  float := exactV_ok
  q_lt i := by
    show tpQ i < 2 ^ 61
    rcases lt_or_ge i 34 with h | h
    · interval_cases i <;> decide +kernel
    · rw [tpQ_one h]; norm_num
  p_lt i := by
    show tpP i < 2 ^ 61
    rcases lt_or_ge i 4 with h | h
    · interval_cases i <;> decide +kernel
    · rw [tpP_one h]; norm_num
  nP_le := by show 4 ≤ 32; norm_num


/-! ## `PN15QP880` -/

/-- The moduli `Q` of `PN15QP880` (mkckks/mkckks_test.go 51-72), continued by `1`. -/
def taQ : ℕ → ℕ
  | 0 => 0xfffffffff6a0001
  | 1 => 0x3fffffffd60001
  | 2 => 0x3fffffffca0001
  | 3 => 0x3fffffff6d0001
  | 4 => 0x3fffffff5d0001
  | 5 => 0x3fffffff550001
  | 6 => 0x3fffffff390001
  | 7 => 0x3fffffff360001
  | 8 => 0x3fffffff2a0001
  | 9 => 0x3fffffff000001
  | 10 => 0x3ffffffefa0001
  | 11 => 0x3ffffffef40001
  | 12 => 0x3ffffffed70001
  | 13 => 0x3ffffffed30001
  | _ => 1

/-- The special primes `P` of `PN15QP880` (mkckks/mkckks_test.go 51-72), continued by `1`. -/
def taP : ℕ → ℕ
  | 0 => 0x7ffffffffe70001
  | 1 => 0x7ffffffffe10001
  | _ => 1

theorem prime_dec_27919939 : (27919939 : ℕ).Prime :=
  prime_of_cert 2 [(2, 1), (3, 1), (107, 1), (157, 1), (277, 1)] (by norm_num) (by decide +kernel)

theorem prime_fffffffff6a0001 : (0xfffffffff6a0001 : ℕ).Prime :=
  prime_of_cert 3 [(2, 17), (315047, 1), (27919939, 1)]
    (List.forall_mem_cons.mpr ⟨by norm_num,
    (List.forall_mem_cons.mpr ⟨by norm_num,
    (List.forall_mem_cons.mpr ⟨prime_dec_27919939, List.forall_mem_nil _⟩)⟩)⟩)
    (by decide +kernel)
instance fact_fffffffff6a0001 : Fact (Nat.Prime 0xfffffffff6a0001) := ⟨prime_fffffffff6a0001⟩

theorem prime_dec_82200331 : (82200331 : ℕ).Prime :=
  prime_of_cert 2 [(2, 1), (3, 2), (5, 1), (913337, 1)] (by norm_num) (by decide +kernel)

theorem prime_dec_7233629129 : (7233629129 : ℕ).Prime :=
  prime_of_cert 3 [(2, 3), (11, 1), (82200331, 1)]
    (List.forall_mem_cons.mpr ⟨by norm_num,
    (List.forall_mem_cons.mpr ⟨by norm_num,
    (List.forall_mem_cons.mpr ⟨prime_dec_82200331, List.forall_mem_nil _⟩)⟩)⟩)
    (by decide +kernel)

theorem prime_3fffffffd60001 : (0x3fffffffd60001 : ℕ).Prime :=
  prime_of_cert 3 [(2, 17), (19, 1), (7233629129, 1)]
    (List.forall_mem_cons.mpr ⟨by norm_num,
    (List.forall_mem_cons.mpr ⟨by norm_num,
    (List.forall_mem_cons.mpr ⟨prime_dec_7233629129, List.forall_mem_nil _⟩)⟩)⟩)
    (by decide +kernel)
instance fact_3fffffffd60001 : Fact (Nat.Prime 0x3fffffffd60001) := ⟨prime_3fffffffd60001⟩

theorem prime_dec_70662701 : (70662701 : ℕ).Prime :=
  prime_of_cert 10 [(2, 2), (5, 2), (277, 1), (2551, 1)] (by norm_num) (by decide +kernel)

theorem prime_3fffffffca0001 : (0x3fffffffca0001 : ℕ).Prime :=
  prime_of_cert 3 [(2, 17), (5, 1), (389, 1), (70662701, 1)]
    (List.forall_mem_cons.mpr ⟨by norm_num,
    (List.forall_mem_cons.mpr ⟨by norm_num,
    (List.forall_mem_cons.mpr ⟨by norm_num,
    (List.forall_mem_cons.mpr ⟨prime_dec_70662701, List.forall_mem_nil _⟩)⟩)⟩)⟩)
    (by decide +kernel)
instance fact_3fffffffca0001 : Fact (Nat.Prime 0x3fffffffca0001) := ⟨prime_3fffffffca0001⟩

theorem prime_3fffffff6d0001 : (0x3fffffff6d0001 : ℕ).Prime :=
  prime_of_cert 3 [(2, 16), (13, 1), (23, 1), (347, 1), (479, 1), (5531, 1)] (by norm_num) (by decide +kernel)
instance fact_3fffffff6d0001 : Fact (Nat.Prime 0x3fffffff6d0001) := ⟨prime_3fffffff6d0001⟩

theorem prime_3fffffff5d0001 : (0x3fffffff5d0001 : ℕ).Prime :=
  prime_of_cert 5 [(2, 16), (3, 1), (31, 1), (20483, 1), (144299, 1)] (by norm_num) (by decide +kernel)
instance fact_3fffffff5d0001 : Fact (Nat.Prime 0x3fffffff5d0001) := ⟨prime_3fffffff5d0001⟩

theorem prime_dec_4506195193 : (4506195193 : ℕ).Prime :=
  prime_of_cert 5 [(2, 3), (3, 1), (19, 1), (919, 1), (10753, 1)] (by norm_num) (by decide +kernel)

theorem prime_3fffffff550001 : (0x3fffffff550001 : ℕ).Prime :=
  prime_of_cert 3 [(2, 16), (61, 1), (4506195193, 1)]
    (List.forall_mem_cons.mpr ⟨by norm_num,
    (List.forall_mem_cons.mpr ⟨by norm_num,
    (List.forall_mem_cons.mpr ⟨prime_dec_4506195193, List.forall_mem_nil _⟩)⟩)⟩)
    (by decide +kernel)
instance fact_3fffffff550001 : Fact (Nat.Prime 0x3fffffff550001) := ⟨prime_3fffffff550001⟩

theorem prime_3fffffff390001 : (0x3fffffff390001 : ℕ).Prime :=
  prime_of_cert 7 [(2, 16), (3, 1), (5, 1), (13, 1), (16217, 1), (86923, 1)] (by norm_num) (by decide +kernel)
instance fact_3fffffff390001 : Fact (Nat.Prime 0x3fffffff390001) := ⟨prime_3fffffff390001⟩

theorem prime_dec_15270994819 : (15270994819 : ℕ).Prime :=
  prime_of_cert 2 [(2, 1), (3, 2), (10337, 1), (82073, 1)] (by norm_num) (by decide +kernel)

theorem prime_3fffffff360001 : (0x3fffffff360001 : ℕ).Prime :=
  prime_of_cert 5 [(2, 17), (3, 2), (15270994819, 1)]
    (List.forall_mem_cons.mpr ⟨by norm_num,
    (List.forall_mem_cons.mpr ⟨by norm_num,
    (List.forall_mem_cons.mpr ⟨prime_dec_15270994819, List.forall_mem_nil _⟩)⟩)⟩)
    (by decide +kernel)
instance fact_3fffffff360001 : Fact (Nat.Prime 0x3fffffff360001) := ⟨prime_3fffffff360001⟩

theorem prime_3fffffff2a0001 : (0x3fffffff2a0001 : ℕ).Prime :=
  prime_of_cert 13 [(2, 17), (3, 1), (5, 1), (7, 1), (26431, 1), (49523, 1)] (by norm_num) (by decide +kernel)
instance fact_3fffffff2a0001 : Fact (Nat.Prime 0x3fffffff2a0001) := ⟨prime_3fffffff2a0001⟩

theorem prime_3fffffff000001 : (0x3fffffff000001 : ℕ).Prime :=
  prime_of_cert 38 [(2, 24), (3, 2), (7, 1), (11, 1), (31, 1), (151, 1), (331, 1)] (by norm_num) (by decide +kernel)
instance fact_3fffffff000001 : Fact (Nat.Prime 0x3fffffff000001) := ⟨prime_3fffffff000001⟩

theorem prime_3ffffffefa0001 : (0x3ffffffefa0001 : ℕ).Prime :=
  prime_of_cert 5 [(2, 17), (3, 1), (23, 1), (127, 1), (173, 1), (90659, 1)] (by norm_num) (by decide +kernel)
instance fact_3ffffffefa0001 : Fact (Nat.Prime 0x3ffffffefa0001) := ⟨prime_3ffffffefa0001⟩

theorem prime_dec_1347440719 : (1347440719 : ℕ).Prime :=
  prime_of_cert 3 [(2, 1), (3, 1), (13, 2), (499, 1), (2663, 1)] (by norm_num) (by decide +kernel)

theorem prime_3ffffffef40001 : (0x3ffffffef40001 : ℕ).Prime :=
  prime_of_cert 7 [(2, 18), (3, 1), (17, 1), (1347440719, 1)]
    (List.forall_mem_cons.mpr ⟨by norm_num,
    (List.forall_mem_cons.mpr ⟨by norm_num,
    (List.forall_mem_cons.mpr ⟨by norm_num,
    (List.forall_mem_cons.mpr ⟨prime_dec_1347440719, List.forall_mem_nil _⟩)⟩)⟩)⟩)
    (by decide +kernel)
instance fact_3ffffffef40001 : Fact (Nat.Prime 0x3ffffffef40001) := ⟨prime_3ffffffef40001⟩

theorem prime_dec_6544712063 : (6544712063 : ℕ).Prime :=
  prime_of_cert 5 [(2, 1), (7, 1), (2129, 1), (219577, 1)] (by norm_num) (by decide +kernel)

theorem prime_dec_274877906647 : (274877906647 : ℕ).Prime :=
  prime_of_cert 6 [(2, 1), (3, 1), (7, 1), (6544712063, 1)]
    (List.forall_mem_cons.mpr ⟨by norm_num,
    (List.forall_mem_cons.mpr ⟨by norm_num,
    (List.forall_mem_cons.mpr ⟨by norm_num,
    (List.forall_mem_cons.mpr ⟨prime_dec_6544712063, List.forall_mem_nil _⟩)⟩)⟩)⟩)
    (by decide +kernel)

theorem prime_3ffffffed70001 : (0x3ffffffed70001 : ℕ).Prime :=
  prime_of_cert 3 [(2, 16), (274877906647, 1)]
    (List.forall_mem_cons.mpr ⟨by norm_num,
    (List.forall_mem_cons.mpr ⟨prime_dec_274877906647, List.forall_mem_nil _⟩)⟩)
    (by decide +kernel)
instance fact_3ffffffed70001 : Fact (Nat.Prime 0x3ffffffed70001) := ⟨prime_3ffffffed70001⟩

theorem prime_dec_1131184801 : (1131184801 : ℕ).Prime :=
  prime_of_cert 7 [(2, 5), (3, 2), (5, 2), (157109, 1)] (by norm_num) (by decide +kernel)

theorem prime_3ffffffed30001 : (0x3ffffffed30001 : ℕ).Prime :=
  prime_of_cert 13 [(2, 16), (3, 5), (1131184801, 1)]
    (List.forall_mem_cons.mpr ⟨by norm_num,
    (List.forall_mem_cons.mpr ⟨by norm_num,
    (List.forall_mem_cons.mpr ⟨prime_dec_1131184801, List.forall_mem_nil _⟩)⟩)⟩)
    (by decide +kernel)
instance fact_3ffffffed30001 : Fact (Nat.Prime 0x3ffffffed30001) := ⟨prime_3ffffffed30001⟩

theorem prime_dec_1841342479 : (1841342479 : ℕ).Prime :=
  prime_of_cert 3 [(2, 1), (3, 1), (19, 1), (439, 1), (36793, 1)] (by norm_num) (by decide +kernel)

theorem prime_7ffffffffe70001 : (0x7ffffffffe70001 : ℕ).Prime :=
  prime_of_cert 3 [(2, 16), (17, 1), (281, 1), (1841342479, 1)]
    (List.forall_mem_cons.mpr ⟨by norm_num,
    (List.forall_mem_cons.mpr ⟨by norm_num,
    (List.forall_mem_cons.mpr ⟨by norm_num,
    (List.forall_mem_cons.mpr ⟨prime_dec_1841342479, List.forall_mem_nil _⟩)⟩)⟩)⟩)
    (by decide +kernel)
instance fact_7ffffffffe70001 : Fact (Nat.Prime 0x7ffffffffe70001) := ⟨prime_7ffffffffe70001⟩

theorem prime_dec_883319243 : (883319243 : ℕ).Prime :=
  prime_of_cert 2 [(2, 1), (13, 1), (733, 1), (46349, 1)] (by norm_num) (by decide +kernel)

theorem prime_dec_22966300319 : (22966300319 : ℕ).Prime :=
  prime_of_cert 7 [(2, 1), (13, 1), (883319243, 1)]
    (List.forall_mem_cons.mpr ⟨by norm_num,
    (List.forall_mem_cons.mpr ⟨by norm_num,
    (List.forall_mem_cons.mpr ⟨prime_dec_883319243, List.forall_mem_nil _⟩)⟩)⟩)
    (by decide +kernel)

theorem prime_7ffffffffe10001 : (0x7ffffffffe10001 : ℕ).Prime :=
  prime_of_cert 3 [(2, 16), (383, 1), (22966300319, 1)]
    (List.forall_mem_cons.mpr ⟨by norm_num,
    (List.forall_mem_cons.mpr ⟨by norm_num,
    (List.forall_mem_cons.mpr ⟨prime_dec_22966300319, List.forall_mem_nil _⟩)⟩)⟩)
    (by decide +kernel)
instance fact_7ffffffffe10001 : Fact (Nat.Prime 0x7ffffffffe10001) := ⟨prime_7ffffffffe10001⟩

/-- The transform of degree `2^15`. -/
abbrev taEquiv (q : ℕ) [Fact q.Prime] (ψ : ℕ) (hq : 2 < q)
    (h : powMod q 16 ψ 32768 + 1 = q) : Nega 32768 (ZMod q) ≃+* Row 32768 q :=
  rootEquiv 32768 15 q ψ (by norm_num) hq h

/-- The number-theoretic transforms modulo the moduli. -/
def taNttQ : Ntt 32768 taQ where
  equiv
  | 0 => taEquiv 0xfffffffff6a0001 741224627014235163 (by norm_num) (by decide +kernel)
  | 1 => taEquiv 0x3fffffffd60001 17965612358773772 (by norm_num) (by decide +kernel)
  | 2 => taEquiv 0x3fffffffca0001 12474175070067225 (by norm_num) (by decide +kernel)
  | 3 => taEquiv 0x3fffffff6d0001 4879360000855566 (by norm_num) (by decide +kernel)
  | 4 => taEquiv 0x3fffffff5d0001 2697199737055144 (by norm_num) (by decide +kernel)
  | 5 => taEquiv 0x3fffffff550001 12399842671717063 (by norm_num) (by decide +kernel)
  | 6 => taEquiv 0x3fffffff390001 2637855342907683 (by norm_num) (by decide +kernel)
  | 7 => taEquiv 0x3fffffff360001 15678278338511305 (by norm_num) (by decide +kernel)
  | 8 => taEquiv 0x3fffffff2a0001 16689072915307334 (by norm_num) (by decide +kernel)
  | 9 => taEquiv 0x3fffffff000001 17795436779222352 (by norm_num) (by decide +kernel)
  | 10 => taEquiv 0x3ffffffefa0001 5919288865957998 (by norm_num) (by decide +kernel)
  | 11 => taEquiv 0x3ffffffef40001 12203774557895625 (by norm_num) (by decide +kernel)
  | 12 => taEquiv 0x3ffffffed70001 9262645573027320 (by norm_num) (by decide +kernel)
  | 13 => taEquiv 0x3ffffffed30001 17022205020376607 (by norm_num) (by decide +kernel)
  | _ + 14 => trivEquiv 32768

/-- The number-theoretic transforms modulo the special primes. -/
def taNttP : Ntt 32768 taP where
  equiv
  | 0 => taEquiv 0x7ffffffffe70001 68295455694347081 (by norm_num) (by decide +kernel)
  | 1 => taEquiv 0x7ffffffffe10001 7430198914596132 (by norm_num) (by decide +kernel)
  | _ + 2 => trivEquiv 32768

/-- The parameter set `PN15QP880` (mkckks/mkckks_test.go 51-72) with `gamma = 2`. -/
def taCtx : Ctx where
  N := 32768
  q := taQ
  p := taP
  nQ := 14
  nP := 2
  gamma := 2
  nttQ := taNttQ
  nttP := taNttP
  fv := exactV

theorem taQ_prime : ∀ {i : ℕ}, i < 14 → (taQ i).Prime
  | 0, _ => prime_fffffffff6a0001
  | 1, _ => prime_3fffffffd60001
  | 2, _ => prime_3fffffffca0001
  | 3, _ => prime_3fffffff6d0001
  | 4, _ => prime_3fffffff5d0001
  | 5, _ => prime_3fffffff550001
  | 6, _ => prime_3fffffff390001
  | 7, _ => prime_3fffffff360001
  | 8, _ => prime_3fffffff2a0001
  | 9, _ => prime_3fffffff000001
  | 10, _ => prime_3ffffffefa0001
  | 11, _ => prime_3ffffffef40001
  | 12, _ => prime_3ffffffed70001
  | 13, _ => prime_3ffffffed30001
  | _ + 14, h => by omega

theorem taP_prime : ∀ {i : ℕ}, i < 2 → (taP i).Prime
  | 0, _ => prime_7ffffffffe70001
  | 1, _ => prime_7ffffffffe10001
  | _ + 2, h => by omega

theorem taQ_one {i : ℕ} (hi : 14 ≤ i) : taQ i = 1 := by
  obtain ⟨j, rfl⟩ := Nat.exists_eq_add_of_le' hi
  rfl

theorem taP_one {i : ℕ} (hi : 2 ≤ i) : taP i = 1 := by
  obtain ⟨j, rfl⟩ := Nat.exists_eq_add_of_le' hi
  rfl

theorem taCtx_good : taCtx.Good where
  oddQ i := by
    show (taQ i).Coprime montR
    rcases lt_or_ge i 14 with h | h
    · interval_cases i <;> decide +kernel
    · rw [taQ_one h]; exact Nat.coprime_one_left _
  oddP i := by
    show (taP i).Coprime montR
    rcases lt_or_ge i 2 with h | h
    · interval_cases i <;> decide +kernel
    · rw [taP_one h]; exact Nat.coprime_one_left _
  posQ i := by
    show 0 < taQ i
    rcases lt_or_ge i 14 with h | h
    · exact (taQ_prime h).pos
    · rw [taQ_one h]; exact one_pos
  posP i := by
    show 0 < taP i
    rcases lt_or_ge i 2 with h | h
    · exact (taP_prime h).pos
    · rw [taP_one h]; exact one_pos
  copQ := by
    have h : ∀ i < 14, ∀ j < 14, i ≠ j → (taQ i).Coprime (taQ j) := by decide +kernel
    exact fun i j hi hj => h i hi j hj
  copP := by
    have h : ∀ i < 2, ∀ j < 2, i ≠ j → (taP i).Coprime (taP j) := by decide +kernel
    exact fun i j hi hj => h i hi j hj
  copQP := by
    have h : ∀ i < 14, ∀ j < 2, (taQ i).Coprime (taP j) := by decide +kernel
    exact fun i j hi hj => h i hi j hj
  nQ_pos := by show 0 < 14; norm_num
  alpha_pos := by show 0 < 2 / 2; norm_num

theorem taCtx_fits : taCtx.Fits where
  float := exactV_ok
  q_lt i := by
    show taQ i < 2 ^ 61
    rcases lt_or_ge i 14 with h | h
    · interval_cases i <;> decide +kernel
    · rw [taQ_one h]; norm_num
  p_lt i := by
    show taP i < 2 ^ 61
    rcases lt_or_ge i 2 with h | h
    · interval_cases i <;> decide +kernel
    · rw [taP_one h]; norm_num
  nP_le := by show 2 ≤ 32; norm_num


/-! ## `PN14QP439` -/

/-- The moduli `Q` of `PN14QP439` (mkckks/mkckks_test.go 73-90), continued by `1`. -/
def tbQ : ℕ → ℕ
  | 0 => 0x7ffffffffe70001
  | 1 => 0xffffffff00001
  | 2 => 0xfffffffe40001
  | 3 => 0xfffffffe20001
  | 4 => 0xfffffffbe0001
  | 5 => 0xfffffffa60001
  | _ => 1

/-- The special primes `P` of `PN14QP439` (mkckks/mkckks_test.go 73-90), continued by `1`. -/
def tbP : ℕ → ℕ
  | 0 => 0xffffffffffc0001
  | 1 => 0xfffffffff840001
  | _ => 1

theorem prime_ffffffff00001 : (0xffffffff00001 : ℕ).Prime :=
  prime_of_cert 7 [(2, 20), (3, 1), (5, 1), (17, 1), (257, 1), (65537, 1)] (by norm_num) (by decide +kernel)
instance fact_ffffffff00001 : Fact (Nat.Prime 0xffffffff00001) := ⟨prime_ffffffff00001⟩

theorem prime_dec_636291451 : (636291451 : ℕ).Prime :=
  prime_of_cert 10 [(2, 1), (3, 4), (5, 2), (157109, 1)] (by norm_num) (by decide +kernel)

theorem prime_fffffffe40001 : (0xfffffffe40001 : ℕ).Prime :=
  prime_of_cert 14 [(2, 18), (3, 3), (636291451, 1)]
    (List.forall_mem_cons.mpr ⟨by norm_num,
    (List.forall_mem_cons.mpr ⟨by norm_num,
    (List.forall_mem_cons.mpr ⟨prime_dec_636291451, List.forall_mem_nil _⟩)⟩)⟩)
    (by decide +kernel)
instance fact_fffffffe40001 : Fact (Nat.Prime 0xfffffffe40001) := ⟨prime_fffffffe40001⟩

theorem prime_fffffffe20001 : (0xfffffffe20001 : ℕ).Prime :=
  prime_of_cert 3 [(2, 17), (113, 1), (373, 1), (815197, 1)] (by norm_num) (by decide +kernel)
instance fact_fffffffe20001 : Fact (Nat.Prime 0xfffffffe20001) := ⟨prime_fffffffe20001⟩

theorem prime_fffffffbe0001 : (0xfffffffbe0001 : ℕ).Prime :=
  prime_of_cert 3 [(2, 17), (5, 1), (13, 1), (1783, 1), (296473, 1)] (by norm_num) (by decide +kernel)
instance fact_fffffffbe0001 : Fact (Nat.Prime 0xfffffffbe0001) := ⟨prime_fffffffbe0001⟩

theorem prime_fffffffa60001 : (0xfffffffa60001 : ℕ).Prime :=
  prime_of_cert 3 [(2, 17), (9733, 1), (3530231, 1)] (by norm_num) (by decide +kernel)
instance fact_fffffffa60001 : Fact (Nat.Prime 0xfffffffa60001) := ⟨prime_fffffffa60001⟩

theorem prime_ffffffffffc0001 : (0xffffffffffc0001 : ℕ).Prime :=
  prime_of_cert 10 [(2, 18), (3, 2), (7, 2), (43, 1), (127, 1), (337, 1), (5419, 1)] (by norm_num) (by decide +kernel)
instance fact_ffffffffffc0001 : Fact (Nat.Prime 0xffffffffffc0001) := ⟨prime_ffffffffffc0001⟩

theorem prime_fffffffff840001 : (0xfffffffff840001 : ℕ).Prime :=
  prime_of_cert 5 [(2, 18), (3, 1), (571, 1), (2099, 1), (1223179, 1)] (by norm_num) (by decide +kernel)
instance fact_fffffffff840001 : Fact (Nat.Prime 0xfffffffff840001) := ⟨prime_fffffffff840001⟩

/-- The transform of degree `2^14`. -/
abbrev tbEquiv (q : ℕ) [Fact q.Prime] (ψ : ℕ) (hq : 2 < q)
    (h : powMod q 15 ψ 16384 + 1 = q) : Nega 16384 (ZMod q) ≃+* Row 16384 q :=
  rootEquiv 16384 14 q ψ (by norm_num) hq h

/-- The number-theoretic transforms modulo the moduli. -/
def tbNttQ : Ntt 16384 tbQ where
  equiv
  | 0 => tbEquiv 0x7ffffffffe70001 270700918604529988 (by norm_num) (by decide +kernel)
  | 1 => tbEquiv 0xffffffff00001 4006422944391896 (by norm_num) (by decide +kernel)
  | 2 => tbEquiv 0xfffffffe40001 421427337521162 (by norm_num) (by decide +kernel)
  | 3 => tbEquiv 0xfffffffe20001 790431361655986 (by norm_num) (by decide +kernel)
  | 4 => tbEquiv 0xfffffffbe0001 881138614017410 (by norm_num) (by decide +kernel)
  | 5 => tbEquiv 0xfffffffa60001 3291220161230273 (by norm_num) (by decide +kernel)
  | _ + 6 => trivEquiv 16384

/-- The number-theoretic transforms modulo the special primes. -/
def tbNttP : Ntt 16384 tbP where
  equiv
  | 0 => tbEquiv 0xffffffffffc0001 830960893856697165 (by norm_num) (by decide +kernel)
  | 1 => tbEquiv 0xfffffffff840001 1037877039958379439 (by norm_num) (by decide +kernel)
  | _ + 2 => trivEquiv 16384

/-- The parameter set `PN14QP439` (mkckks/mkckks_test.go 73-90) with `gamma = 2`. -/
def tbCtx : Ctx where
  N := 16384
  q := tbQ
  p := tbP
  nQ := 6
  nP := 2
  gamma := 2
  nttQ := tbNttQ
  nttP := tbNttP
  fv := exactV

theorem tbQ_prime : ∀ {i : ℕ}, i < 6 → (tbQ i).Prime
  | 0, _ => prime_7ffffffffe70001
  | 1, _ => prime_ffffffff00001
  | 2, _ => prime_fffffffe40001
  | 3, _ => prime_fffffffe20001
  | 4, _ => prime_fffffffbe0001
  | 5, _ => prime_fffffffa60001
  | _ + 6, h => by omega

theorem tbP_prime : ∀ {i : ℕ}, i < 2 → (tbP i).Prime
  | 0, _ => prime_ffffffffffc0001
  | 1, _ => prime_fffffffff840001
  | _ + 2, h => by omega

theorem tbQ_one {i : ℕ} (hi : 6 ≤ i) : tbQ i = 1 := by
  obtain ⟨j, rfl⟩ := Nat.exists_eq_add_of_le' hi
  rfl

theorem tbP_one {i : ℕ} (hi : 2 ≤ i) : tbP i = 1 := by
  obtain ⟨j, rfl⟩ := Nat.exists_eq_add_of_le' hi
  rfl

theorem tbCtx_good : tbCtx.Good where
  oddQ i := by
    show (tbQ i).Coprime montR
    rcases lt_or_ge i 6 with h | h
    · interval_cases i <;> decide +kernel
    · rw [tbQ_one h]; exact Nat.coprime_one_left _
  oddP i := by
    show (tbP i).Coprime montR
    rcases lt_or_ge i 2 with h | h
    · interval_cases i <;> decide +kernel
    · rw [tbP_one h]; exact Nat.coprime_one_left _
  posQ i := by
    show 0 < tbQ i
    rcases lt_or_ge i 6 with h | h
    · exact (tbQ_prime h).pos
    · rw [tbQ_one h]; exact one_pos
  posP i := by
    show 0 < tbP i
    rcases lt_or_ge i 2 with h | h
    · exact (tbP_prime h).pos
    · rw [tbP_one h]; exact one_pos
  copQ := by
    have h : ∀ i < 6, ∀ j < 6, i ≠ j → (tbQ i).Coprime (tbQ j) := by decide +kernel
    exact fun i j hi hj => h i hi j hj
  copP := by
    have h : ∀ i < 2, ∀ j < 2, i ≠ j → (tbP i).Coprime (tbP j) := by decide +kernel
    exact fun i j hi hj => h i hi j hj
  copQP := by
    have h : ∀ i < 6, ∀ j < 2, (tbQ i).Coprime (tbP j) := by decide +kernel
    exact fun i j hi hj => h i hi j hj
  nQ_pos := by show 0 < 6; norm_num
  alpha_pos := by show 0 < 2 / 2; norm_num

theorem tbCtx_fits : tbCtx.Fits where
  float := exactV_ok
  q_lt i := by
    show tbQ i < 2 ^ 61
    rcases lt_or_ge i 6 with h | h
    · interval_cases i <;> decide +kernel
    · rw [tbQ_one h]; norm_num
  p_lt i := by
    show tbP i < 2 ^ 61
    rcases lt_or_ge i 2 with h | h
    · interval_cases i <;> decide +kernel
    · rw [tbP_one h]; norm_num
  nP_le := by show 2 ≤ 32; norm_num


end MK
