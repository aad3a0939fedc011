import Verif.Props.LrMain
import Mathlib.Data.List.Rotate
import Mathlib.Algebra.Order.Round

/-!
# Error bounds as numbers

`boundHE` describes a run by real numbers that depend on the slots.  `numHE` replaces them by rational
numbers: a bound for every slot, an interval for the scale, a bound on the error.  It can be evaluated,
also by the kernel.  `num_sim`: whatever `boundHE` computes stays within what `numHE` computes.
-/

namespace MK.Lr

/-- Bounds of a ciphertext: absolute values of the slots, level, interval of the scale, error. -/
structure NVal where
  b : List ℚ
  lvl : ℕ
  lo : ℚ
  hi : ℚ
  err : ℚ

/-- Bounds of a plaintext. -/
structure NPt where
  b : List ℚ
  err : ℚ

/-- Bounds of the parameters: moduli, scale, and the noise of products, of products with plaintexts and
of rotations at each level. -/
structure NPar where
  q : ℕ → ℕ
  scale : ℚ
  mul : ℕ → ℚ
  pt : ℕ → ℚ
  rot : ℕ → ℚ

/-- Upwards to a multiple of `2⁻¹⁰⁰`. -/
def up (x : ℚ) : ℚ := (⌈x * 2 ^ 100⌉ : ℚ) / 2 ^ 100

/-- Downwards to a multiple of `2⁻¹⁰⁰`, unless that is not positive. -/
def down (x : ℚ) : ℚ :=
  let y := (⌊x * 2 ^ 100⌋ : ℚ) / 2 ^ 100
  if 0 < y then y else x

/-- The largest element, or `0`. -/
def top (l : List ℚ) : ℚ := l.foldr max 0

/-- Relative error of a float64 operation. -/
def ulp1 : ℚ := 1 / 2 ^ 53

/-- A product at level `l` with noise `η`, rescaled by one modulus. -/
def numProd (p : NPar) (η : ℚ) (l : ℕ) (a b : NVal) : NVal :=
  let q : ℚ := p.q l
  let lo := down (a.lo * b.lo * (1 - ulp1) ^ 2 / (q * (1 + ulp1)))
  ⟨List.zipWith (fun x y => up (x * y)) a.b b.b, l - 1, lo,
    up (a.hi * b.hi * (1 + ulp1) ^ 2 / (q * (1 - ulp1))),
    up ((1 + 4 * ulp1) * (top a.b * b.err + top b.b * a.err + a.err * b.err) +
      4 * ulp1 * (top a.b * top b.b) + η / (q * lo))⟩

/-- The operations on bounds. -/
def numHE (p : NPar) : HE Id NVal NPt where
  mulRelin _ a b := numProd p (p.mul (min a.lvl b.lvl)) (min a.lvl b.lvl) a b
  mulPtxt a t := numProd p (p.pt a.lvl) a.lvl a ⟨t.b, a.lvl, p.scale, p.scale, t.err⟩
  add a b := ⟨List.zipWith (· + ·) a.b b.b, min a.lvl b.lvl, max a.lo b.lo, max a.hi b.hi,
    up (a.err + max 0 (1 - a.lo / b.hi) * top a.b + (b.err + max 0 (1 - b.lo / a.hi) * top b.b))⟩
  rotate a k := ⟨a.b.rotate (k % (a.b.length : ℤ)).toNat, a.lvl, a.lo, a.hi,
    up (a.err + p.rot a.lvl / a.lo)⟩

/-! ## Numbers for a run -/

/-- The numbers of a run: parameters, top level, hyperparameters, error of fresh ciphertexts, bound on
the data, bound of the encoder. -/
structure NCfg where
  p : NPar
  L : ℕ
  hp : Hyper ℚ
  fe : ℚ
  X : ℚ
  M : ℚ

namespace NCfg

/-- A fresh ciphertext. -/
def ct (ν : NCfg) (b : List ℚ) : NVal := ⟨b, ν.L, ν.p.scale, ν.p.scale, ν.fe⟩

/-- A plaintext. -/
def pt (ν : NCfg) (b : List ℚ) : NPt := ⟨b, ν.fe⟩

/-- The constants of `main`. -/
def consts (ν : NCfg) (n cols : ℕ) : Consts NVal NPt where
  mask := ν.pt (maskVec n cols)
  c3 := ν.pt ((const3 ν.hp n).map abs)
  c4 a := ν.pt ((const4 ν.hp n a).map abs)
  c5 := ν.ct ((const5 ν.hp n).map abs)
  c6 a := ν.pt ((const6 ν.hp n a).map abs)
  c7 a := ν.pt ((const7 ν.hp n a).map abs)
  c8 := ν.pt ((const8 ν.hp n).map abs)
  c9 := ν.ct ((const9 ν.hp n).map abs)

/-- The larger of `|c0|` and `|c0 - 1|`: the labels are `0` and `1`. -/
def lab (ν : NCfg) : ℚ := max |ν.hp.c0| |ν.hp.c0 - 1|

/-- The data: the first `F` of every `cols` slots are at most `X`. -/
def data (ν : NCfg) (n cols F : ℕ) : Data NVal NPt where
  z := ν.ct ((List.range n).map fun i => if i % cols < F then ν.X else 0)
  k1 := ν.pt (List.replicate n (|ν.hp.gamma / ν.hp.batchSize| * ν.lab))
  k2 a := ν.pt (List.replicate n (|(1 - ν.hp.eta a) * ν.hp.gamma / ν.hp.batchSize| * ν.lab))

/-- Bounds of `beta` and `v` after `t` iterations. -/
def train (ν : NCfg) (n rows cols F t : ℕ) : NVal × NVal :=
  lrTrain (M := Id) (numHE ν.p) (ν.consts n cols) rows cols (ν.data n cols F) t
    (ν.ct (List.replicate n 0)) (ν.ct (List.replicate n 0))

/-- Bounds of the result. -/
def infer (ν : NCfg) (n rows cols F t : ℕ) : NVal :=
  Lr.infer (M := Id) (numHE ν.p) (ν.consts n cols) F
    (ν.ct ((List.range n).map fun i => if i < F then ν.X else 0)) (ν.train n rows cols F t).1

/-- The bounds stay below `M` and leave room in the moduli of their level. -/
def In (ν : NCfg) (w : NVal) : Prop :=
  top w.b + w.err ≤ ν.M ∧ 2 * (w.hi * ν.M) < ((List.range (w.lvl + 1)).map ν.p.q).prod

instance (ν : NCfg) (w : NVal) : Decidable (ν.In w) := by unfold In; infer_instance

end NCfg

noncomputable section

open Finset

variable {C : Ctx}

/-! ## Rounding and lists -/

theorem le_up (x : ℚ) : x ≤ up x := by
  rw [up, le_div_iff₀ (by norm_num)]
  exact Int.le_ceil _

theorem down_le (x : ℚ) : down x ≤ x := by
  rw [down]
  split_ifs
  · rw [div_le_iff₀ (by norm_num)]; exact Int.floor_le _
  · exact le_rfl

theorem down_pos {x : ℚ} (h : 0 < x) : 0 < down x := by
  rw [down]
  split_ifs with h1
  · exact h1
  · exact h

theorem top_nonneg (l : List ℚ) : 0 ≤ top l := by
  induction l with
  | nil => exact le_rfl
  | cons a l ih => exact le_max_of_le_right ih

theorem le_top (l : List ℚ) (i : ℕ) : l.getD i 0 ≤ top l := by
  induction l generalizing i with
  | nil => simp [top]
  | cons a l ih =>
    cases i with
    | zero => exact le_max_left _ _
    | succ i => exact le_max_of_le_right (ih i)

variable {n : ℕ} [NeZero n]

/-- `b` bounds the slots of `x`. -/
structure Dom (b : List ℚ) (x : Slots n ℂ) : Prop where
  len : b.length = n
  le : ∀ i : ZMod n, ‖x i‖ ≤ ((b.getD i.val 0 : ℚ) : ℝ)

theorem Dom.top {b : List ℚ} {x : Slots n ℂ} (h : Dom b x) : ‖x‖ ≤ ((top b : ℚ) : ℝ) := by
  refine (pi_norm_le_iff_of_nonneg (by exact_mod_cast top_nonneg b)).mpr fun i => (h.le i).trans ?_
  exact_mod_cast le_top b _

theorem Dom.mul {a b : List ℚ} {x y : Slots n ℂ} (ha : Dom a x) (hb : Dom b y) :
    Dom (List.zipWith (fun s t => up (s * t)) a b) (x * y) := by
  refine ⟨by simp [ha.len, hb.len], fun i => ?_⟩
  have hi := ZMod.val_lt i
  have h1 : i.val < a.length := by rw [ha.len]; exact hi
  have h2 : i.val < b.length := by rw [hb.len]; exact hi
  rw [List.getD_eq_getElem _ _ (by simp [h1, h2]), List.getElem_zipWith, Pi.mul_apply, norm_mul]
  have ea := ha.le i
  have eb := hb.le i
  rw [List.getD_eq_getElem _ _ h1] at ea
  rw [List.getD_eq_getElem _ _ h2] at eb
  refine (mul_le_mul ea eb (norm_nonneg _) ((norm_nonneg _).trans ea)).trans ?_
  exact_mod_cast le_up _

theorem Dom.add {a b : List ℚ} {x y : Slots n ℂ} (ha : Dom a x) (hb : Dom b y) :
    Dom (List.zipWith (· + ·) a b) (x + y) := by
  refine ⟨by simp [ha.len, hb.len], fun i => ?_⟩
  have hi := ZMod.val_lt i
  have h1 : i.val < a.length := by rw [ha.len]; exact hi
  have h2 : i.val < b.length := by rw [hb.len]; exact hi
  rw [List.getD_eq_getElem _ _ (by simp [h1, h2]), List.getElem_zipWith, Pi.add_apply]
  have ea := ha.le i
  have eb := hb.le i
  rw [List.getD_eq_getElem _ _ h1] at ea
  rw [List.getD_eq_getElem _ _ h2] at eb
  push_cast
  exact (norm_add_le _ _).trans (add_le_add ea eb)

theorem Dom.rot {a : List ℚ} {x : Slots n ℂ} (ha : Dom a x) (k : ℤ) :
    Dom (a.rotate (k % (a.length : ℤ)).toNat) (rot k x) := by
  have hn : (0 : ℤ) < n := by exact_mod_cast Nat.pos_of_ne_zero (NeZero.ne n)
  refine ⟨by simp [ha.len], fun i => ?_⟩
  have hi := ZMod.val_lt i
  have h1 : i.val < a.length := by rw [ha.len]; exact hi
  rw [List.getD_eq_getElem _ _ (by simpa using h1), List.getElem_rotate]
  have ea := ha.le (i + (k : ZMod n))
  have e : (i + (k : ZMod n)).val = (i.val + (k % (a.length : ℤ)).toNat) % a.length := by
    rw [ZMod.val_add, ha.len]
    have : ((k : ZMod n)).val = (k % (n : ℤ)).toNat := by
      have h2 := ZMod.val_intCast (n := n) k
      omega
    rw [this]
  rw [e, List.getD_eq_getElem _ _ (Nat.mod_lt _ (by omega))] at ea
  exact ea

/-! ## One operation -/

/-- The description stays within the bounds. -/
structure Below (v : AVal n) (w : NVal) : Prop where
  dom : Dom w.b v.x
  lvl : v.lvl = w.lvl
  pos : 0 < w.lo
  lo : w.lo ≤ v.scale
  hi : v.scale ≤ w.hi
  err0 : 0 ≤ v.err
  err : v.err ≤ (w.err : ℝ)

/-- The same for plaintexts. -/
structure PtBelow (v : PVal n) (w : NPt) : Prop where
  dom : Dom w.b v.x
  err0 : 0 ≤ v.err
  err : v.err ≤ (w.err : ℝ)

/-- `p` bounds the parameters: `c` parties, digits below `D`, secrets below `T`, errors below `B`. -/
structure NPar.Ok (p : NPar) (prm : CPar C) (c : ℕ) (D T B : ℤ) : Prop where
  q : ∀ l, C.q l = p.q l
  scale : prm.scale = p.scale
  mul0 : ∀ l, 0 ≤ mulEta C c D T B l
  mul : ∀ l, mulEta C c D T B l ≤ p.mul l
  pt0 : ∀ l, 0 ≤ ptEta C c T l
  pt : ∀ l, ptEta C c T l ≤ p.pt l
  rot0 : ∀ l k, 0 ≤ rotEta C prm.crs c D T B l k
  rot : ∀ l k, rotEta C prm.crs c D T B l k ≤ p.rot l

theorem prodScale_bounds {F : Fl} (hF : F.Ok) {q : ℕ → ℕ} {l : ℕ} (hq : 0 < q l) {s t : ℚ} (hs : 0 < s)
    (ht : 0 < t) :
    s * t * (1 - ulp1) ^ 2 / (q l * (1 + ulp1)) ≤ prodScale F q l s t ∧
      prodScale F q l s t ≤ s * t * (1 + ulp1) ^ 2 / (q l * (1 - ulp1)) := by
  have hq' : (0 : ℚ) < q l := by exact_mod_cast hq
  obtain ⟨a1, a2⟩ := hF.bounds (mul_pos hs ht).le
  obtain ⟨b1, b2⟩ := hF.bounds hq'.le
  have hst := mul_pos hs ht
  have ha := hF.pos hst
  have hb := hF.pos hq'
  obtain ⟨c1, c2⟩ := hF.bounds (div_pos ha hb).le
  have e : prodScale F q l s t = F.rnd (F.rnd (s * t) / F.rnd (q l)) := by
    rw [prodScale, scaleSeq, scaleSeq, Nat.sub_zero]
  rw [e]
  have u0 : (0 : ℚ) < 1 - ulp1 := by norm_num [ulp1]
  have u1 : (0 : ℚ) < 1 + ulp1 := by norm_num [ulp1]
  constructor
  · refine le_trans ?_ c1
    have : s * t * (1 - ulp1) / (q l * (1 + ulp1)) ≤ F.rnd (s * t) / F.rnd (q l) :=
      div_le_div₀ ha.le a1 hb b2
    calc s * t * (1 - ulp1) ^ 2 / (q l * (1 + ulp1))
        = s * t * (1 - ulp1) / (q l * (1 + ulp1)) * (1 - ulp1) := by ring
      _ ≤ _ := mul_le_mul_of_nonneg_right this u0.le
  · refine c2.trans ?_
    have : F.rnd (s * t) / F.rnd (q l) ≤ s * t * (1 + ulp1) / (q l * (1 - ulp1)) :=
      div_le_div₀ (by positivity) a2 (by positivity) b1
    calc F.rnd (s * t) / F.rnd (q l) * (1 + 1 / 2 ^ 53)
        ≤ s * t * (1 + ulp1) / (q l * (1 - ulp1)) * (1 + ulp1) :=
          mul_le_mul_of_nonneg_right this u1.le
      _ = _ := by ring

theorem ratio_bounds {F : Fl} (hF : F.Ok) {q : ℕ → ℕ} {l : ℕ} (hq : 0 < q l) {s t : ℚ} (hs : 0 < s)
    (ht : 0 < t) :
    1 - 4 * ulp1 ≤ s * t / (q l * prodScale F q l s t) ∧
      s * t / (q l * prodScale F q l s t) ≤ 1 + 4 * ulp1 := by
  obtain ⟨h1, h2⟩ := prodScale_bounds hF hq hs ht
  have hp := prodScale_pos hF hq hs ht
  have hq' : (0 : ℚ) < q l := by exact_mod_cast hq
  have hst := mul_pos hs ht
  have u0 : (0 : ℚ) < 1 - ulp1 := by norm_num [ulp1]
  have u1 : (0 : ℚ) < 1 + ulp1 := by norm_num [ulp1]
  rw [div_le_iff₀ (by positivity)] at h1
  rw [le_div_iff₀ (by positivity)] at h2
  constructor
  · rw [le_div_iff₀ (by positivity)]
    have k1 : (1 - 4 * ulp1) * (1 + ulp1) ^ 2 ≤ 1 - ulp1 := by norm_num [ulp1]
    have h3 : (1 - 4 * ulp1) * (q l * prodScale F q l s t) * (1 - ulp1) ≤ s * t * (1 - ulp1) := by
      calc (1 - 4 * ulp1) * (q l * prodScale F q l s t) * (1 - ulp1)
          = (1 - 4 * ulp1) * (prodScale F q l s t * (q l * (1 - ulp1))) := by ring
        _ ≤ (1 - 4 * ulp1) * (s * t * (1 + ulp1) ^ 2) :=
            mul_le_mul_of_nonneg_left h2 (by norm_num [ulp1])
        _ = s * t * ((1 - 4 * ulp1) * (1 + ulp1) ^ 2) := by ring
        _ ≤ _ := mul_le_mul_of_nonneg_left k1 hst.le
    exact le_of_mul_le_mul_right h3 u0
  · rw [div_le_iff₀ (by positivity)]
    have k1 : 1 + ulp1 ≤ (1 + 4 * ulp1) * (1 - ulp1) ^ 2 := by norm_num [ulp1]
    have h3 : s * t * (1 + ulp1) ≤ (1 + 4 * ulp1) * (q l * prodScale F q l s t) * (1 + ulp1) := by
      calc s * t * (1 + ulp1) ≤ s * t * ((1 + 4 * ulp1) * (1 - ulp1) ^ 2) :=
            mul_le_mul_of_nonneg_left k1 hst.le
        _ = (1 + 4 * ulp1) * (s * t * (1 - ulp1) ^ 2) := by ring
        _ ≤ (1 + 4 * ulp1) * (prodScale F q l s t * (q l * (1 + ulp1))) :=
            mul_le_mul_of_nonneg_left h1 (by norm_num [ulp1])
        _ = _ := by ring
    exact le_of_mul_le_mul_right h3 u1

theorem prodErr_le {xa xb ea eb η Xa Xb Ea Eb H : ℝ} {q : ℕ} {s t s' lo : ℚ} (h0 : 0 ≤ xa)
    (h1 : xa ≤ Xa) (h2 : 0 ≤ xb) (h3 : xb ≤ Xb) (h4 : 0 ≤ ea) (h5 : ea ≤ Ea) (h6 : 0 ≤ eb)
    (h7 : eb ≤ Eb) (h8 : 0 ≤ η) (h9 : η ≤ H) (hq : 0 < q) (hlo : 0 < lo) (hs : lo ≤ s')
    (hst : 0 < s * t)
    (r1 : 1 - 4 * ulp1 ≤ s * t / (q * s')) (r2 : s * t / (q * s') ≤ 1 + 4 * ulp1) :
    0 ≤ prodErr xa xb ea eb η q s t s' ∧ prodErr xa xb ea eb η q s t s' ≤
      (1 + 4 * ulp1 : ℚ) * (Xa * Eb + Xb * Ea + Ea * Eb) + (4 * ulp1 : ℚ) * (Xa * Xb) +
        H / (q * lo) := by
  have hq' : (0 : ℝ) < q := by exact_mod_cast hq
  have hlo' : (0 : ℝ) < lo := by exact_mod_cast hlo
  have hs' : (lo : ℝ) ≤ s' := by exact_mod_cast hs
  have hs0 : (0 : ℝ) < s' := hlo'.trans_le hs'
  have hst' : (0 : ℝ) < (s : ℝ) * t := by exact_mod_cast hst
  have r1' : ((1 - 4 * ulp1 : ℚ) : ℝ) ≤ s * t / (q * s') := by exact_mod_cast r1
  have r2' : (s * t / (q * s') : ℝ) ≤ ((1 + 4 * ulp1 : ℚ) : ℝ) := by exact_mod_cast r2
  have ra : |(s * t / (q * s') : ℝ) - 1| ≤ ((4 * ulp1 : ℚ) : ℝ) := by
    rw [abs_le]
    push_cast at r1' r2' ⊢
    constructor <;> linarith
  have r0 : (0 : ℝ) ≤ s * t / (q * s') := by positivity
  have rt : (0 : ℝ) ≤ ((1 + 4 * ulp1 : ℚ) : ℝ) := r0.trans r2'
  have ru : (0 : ℝ) ≤ ((4 * ulp1 : ℚ) : ℝ) := (abs_nonneg _).trans ra
  have hXa := h0.trans h1
  have hXb := h2.trans h3
  have hEa := h4.trans h5
  have hEb := h6.trans h7
  unfold prodErr
  refine ⟨by positivity, ?_⟩
  refine add_le_add (add_le_add ?_ ?_) ?_
  · exact mul_le_mul r2' (by gcongr) (by positivity) rt
  · exact mul_le_mul ra (by gcongr) (by positivity) ru
  · gcongr
    exact h8.trans h9

theorem sumErr_le {xa xb ea eb Xa Xb Ea Eb : ℝ} {s t alo ahi blo bhi : ℚ} (h0 : 0 ≤ xa) (h1 : xa ≤ Xa)
    (h2 : 0 ≤ xb) (h3 : xb ≤ Xb) (h4 : 0 ≤ ea) (h5 : ea ≤ Ea) (h6 : 0 ≤ eb) (h7 : eb ≤ Eb)
    (pa : 0 < alo) (la : alo ≤ s) (ua : s ≤ ahi) (pb : 0 < blo) (lb : blo ≤ t) (ub : t ≤ bhi) :
    0 ≤ sumErr xa xb ea eb s t ∧ sumErr xa xb ea eb s t ≤
      Ea + (max 0 (1 - alo / bhi) : ℚ) * Xa + (Eb + (max 0 (1 - blo / ahi) : ℚ) * Xb) := by
  have key : ∀ {s t lo hi : ℚ}, 0 < lo → lo ≤ s → 0 < t → t ≤ hi →
      0 ≤ s / max s t ∧ s / max s t ≤ 1 ∧ 1 - s / max s t ≤ max 0 (1 - lo / hi) := by
    intro s t lo hi hl ls ht th
    have hs : 0 < s := hl.trans_le ls
    have hm : 0 < max s t := lt_max_of_lt_left hs
    refine ⟨by positivity, (div_le_one hm).mpr (le_max_left _ _), ?_⟩
    rcases le_total t s with hts | hts
    · rw [max_eq_left hts, div_self hs.ne', sub_self]; exact le_max_left _ _
    · rw [max_eq_right hts]
      refine le_max_of_le_right (sub_le_sub_left ?_ _)
      exact div_le_div₀ hs.le ls ht th
  obtain ⟨a1, a2, a3⟩ := key pa la (pb.trans_le lb) ub
  obtain ⟨b1, b2, b3⟩ := key pb lb (pa.trans_le la) ua
  rw [max_comm t s] at b1 b2 b3
  have a1' : (0 : ℝ) ≤ s / max s t := by exact_mod_cast a1
  have a2' : (s / max s t : ℝ) ≤ 1 := by exact_mod_cast a2
  have a3' : (1 - s / max s t : ℝ) ≤ (max 0 (1 - alo / bhi) : ℚ) := by exact_mod_cast a3
  have b1' : (0 : ℝ) ≤ t / max s t := by exact_mod_cast b1
  have b2' : (t / max s t : ℝ) ≤ 1 := by exact_mod_cast b2
  have b3' : (1 - t / max s t : ℝ) ≤ (max 0 (1 - blo / ahi) : ℚ) := by exact_mod_cast b3
  have a4 : (0 : ℝ) ≤ 1 - s / max s t := by linarith
  have b4 : (0 : ℝ) ≤ 1 - t / max s t := by linarith
  unfold sumErr
  refine ⟨by positivity, ?_⟩
  have e1 : (s / max s t : ℝ) * ea ≤ Ea := (mul_le_of_le_one_left h4 a2').trans h5
  have e2 : (t / max s t : ℝ) * eb ≤ Eb := (mul_le_of_le_one_left h6 b2').trans h7
  have e3 := mul_le_mul a3' h1 h0 (a4.trans a3')
  have e4 := mul_le_mul b3' h3 h2 (b4.trans b3')
  linarith

/-! ## The simulation -/

variable {prm : CPar C} {c : ℕ} {D T B : ℤ}

/-- A product of descriptions within a product of bounds. -/
theorem Below.prod {p : NPar} (hp : p.Ok prm c D T B) (hC : C.Good) (hF : prm.fl.Ok) {a b : AVal n}
    {a' b' : NVal} (ha : Below a a') (hb : Below b b') {l : ℕ} {η : ℝ} {H : ℚ} (h0 : 0 ≤ η) (h1 : η ≤ H) :
    Below ⟨a.x * b.x, l - 1, prodScale prm.fl C.q l a.scale b.scale,
      prodErr ‖a.x‖ ‖b.x‖ a.err b.err η (C.q l) a.scale b.scale
        (prodScale prm.fl C.q l a.scale b.scale)⟩ (numProd p H l a' b') := by
  have sa : 0 < a.scale := ha.pos.trans_le ha.lo
  have sb : 0 < b.scale := hb.pos.trans_le hb.lo
  have hq := hC.posQ l
  have hq' : (0 : ℚ) < p.q l := by rw [← hp.q]; exact_mod_cast hq
  have u0 : (0 : ℚ) < 1 - ulp1 := by norm_num [ulp1]
  have u1 : (0 : ℚ) < 1 + ulp1 := by norm_num [ulp1]
  obtain ⟨s1, s2⟩ := prodScale_bounds hF hq sa sb
  obtain ⟨r1, r2⟩ := ratio_bounds hF hq sa sb
  have pa := ha.pos
  have pb := hb.pos
  have lo : (numProd p H l a' b').lo ≤ prodScale prm.fl C.q l a.scale b.scale := by
    refine ((down_le _).trans ?_).trans s1
    rw [hp.q]
    have := ha.lo
    have := hb.lo
    gcongr
  have lo0 : 0 < (numProd p H l a' b').lo := by
    refine down_pos ?_
    positivity
  obtain ⟨e0, e1⟩ := prodErr_le (norm_nonneg a.x) ha.dom.top (norm_nonneg b.x) hb.dom.top ha.err0
    ha.err hb.err0 hb.err h0 h1 hq lo0 lo (mul_pos sa sb) r1 r2
  refine ⟨ha.dom.mul hb.dom, rfl, lo0, lo, ?_, e0, e1.trans ?_⟩
  · refine (s2.trans ?_).trans (le_up _)
    rw [hp.q]
    have := ha.hi
    have := hb.hi
    have : 0 ≤ a'.hi := sa.le.trans ha.hi
    gcongr
  · rw [hp.q]
    have := le_up ((1 + 4 * ulp1) * (top a'.b * b'.err + top b'.b * a'.err + a'.err * b'.err) +
      4 * ulp1 * (top a'.b * top b'.b) + H / (p.q l * (numProd p H l a' b').lo))
    exact_mod_cast this

/-- Whatever `boundHE` computes stays within the numbers. -/
theorem num_sim {p : NPar} (hp : p.Ok prm c D T B) (hC : C.Good) (hF : prm.fl.Ok) (hs : 0 < prm.scale) :
    HESim optIdRel (boundHE prm n c D T B) (numHE p) Below PtBelow where
  mul := by
    intro a b a' b' ha hb v hv
    simp only [boundHE] at hv
    split at hv
    · cases hv
      show Below _ (numProd p (p.mul (min a'.lvl b'.lvl)) (min a'.lvl b'.lvl) a' b')
      rw [← ha.lvl, ← hb.lvl]
      exact Below.prod hp hC hF ha hb (hp.mul0 _) (hp.mul _)
    · cases hv
  sq := by
    intro a a' ha v hv
    simp only [boundHE] at hv
    split at hv
    · cases hv
      show Below _ (numProd p (p.mul (min a'.lvl a'.lvl)) (min a'.lvl a'.lvl) a' a')
      rw [← ha.lvl]
      exact Below.prod hp hC hF ha ha (hp.mul0 _) (hp.mul _)
    · cases hv
  mulPtxt := by
    intro a a' t t' ha ht v hv
    simp only [boundHE] at hv
    split at hv
    · cases hv
      show Below _ (numProd p (p.pt a'.lvl) a'.lvl a' ⟨t'.b, a'.lvl, p.scale, p.scale, t'.err⟩)
      rw [← ha.lvl]
      have hb : Below (⟨t.x, a.lvl, prm.scale, t.err⟩ : AVal n)
          ⟨t'.b, a.lvl, p.scale, p.scale, t'.err⟩ :=
        ⟨ht.dom, rfl, by rw [← hp.scale]; exact hs, hp.scale.ge, hp.scale.le, ht.err0, ht.err⟩
      exact Below.prod hp hC hF ha hb (hp.pt0 _) (hp.pt _)
    · cases hv
  add := by
    intro a b a' b' ha hb v hv
    simp only [boundHE] at hv
    split at hv
    · cases hv
      obtain ⟨e0, e1⟩ := sumErr_le (norm_nonneg a.x) ha.dom.top (norm_nonneg b.x) hb.dom.top ha.err0
        ha.err hb.err0 hb.err ha.pos ha.lo ha.hi hb.pos hb.lo hb.hi
      refine ⟨ha.dom.add hb.dom, ?_, lt_max_of_lt_left ha.pos, max_le_max ha.lo hb.lo,
        max_le_max ha.hi hb.hi, e0, e1.trans ?_⟩
      · show min a.lvl b.lvl = min a'.lvl b'.lvl
        rw [ha.lvl, hb.lvl]
      · have := le_up (a'.err + max 0 (1 - a'.lo / b'.hi) * top a'.b +
          (b'.err + max 0 (1 - b'.lo / a'.hi) * top b'.b))
        exact_mod_cast this
    · cases hv
  rotate := by
    intro a a' k ha v hv
    simp only [boundHE] at hv
    cases hv
    have sa : 0 < a.scale := ha.pos.trans_le ha.lo
    have hr := hp.rot0 a.lvl k
    have hr' := hp.rot a.lvl k
    have sa' : (0 : ℝ) < a.scale := by exact_mod_cast sa
    have pa : (0 : ℝ) < a'.lo := by exact_mod_cast ha.pos
    have la : (a'.lo : ℝ) ≤ a.scale := by exact_mod_cast ha.lo
    refine ⟨ha.dom.rot k, ha.lvl, ha.pos, ha.lo, ha.hi, add_nonneg ha.err0 (by positivity), ?_⟩
    have h1 : rotEta C prm.crs c D T B a.lvl k / a.scale ≤ p.rot a.lvl / a'.lo := by
      have : 0 ≤ (p.rot a.lvl : ℝ) := hr.trans hr'
      gcongr
    refine (add_le_add ha.err h1).trans ?_
    rw [ha.lvl]
    have := le_up (a'.err + p.rot a'.lvl / a'.lo)
    exact_mod_cast this

/-! ## Numbers of a parameter set -/

/-- The noise bounds of `boundHE` as rational numbers; every rotation takes at most `m` key switches. -/
def NPar.of (C : Ctx) (scale : ℚ) (c : ℕ) (D T B : ℤ) (m : ℕ) : NPar where
  q := C.q
  scale := scale
  mul l := C.N * (mulNoise C l c c D D D T B : ℤ) / C.P + C.N * (rescaleErr C l 1 c T : ℤ)
  pt l := C.N * (rescaleErr C l 1 c T : ℤ)
  rot l := C.N * (m * (c * extNoise C l D T B) : ℤ) / C.P

theorem digits_sum_le (m : ℕ) : ∀ r < 2 ^ m, (Nat.digits 2 r).sum ≤ m := by
  induction m with
  | zero => intro r hr; obtain rfl : r = 0 := by omega
            simp
  | succ m ih =>
    intro r hr
    rcases Nat.eq_zero_or_pos r with rfl | h0
    · simp
    · rw [Nat.digits_def' (by norm_num) h0, List.sum_cons]
      have := ih (r / 2) (by rw [pow_succ] at hr; omega)
      omega

/-- A rotation takes at most one key switch per bit of the number of slots. -/
theorem rotCount_le {m : ℕ} (hm : 1 ≤ m) (hN : C.N / 2 = 2 ^ m) (crs : CRS C) (k : ℤ) :
    rotCount crs (slotIdx C.N k) ≤ m := by
  unfold rotCount
  split_ifs
  · omega
  · exact hm
  · refine digits_sum_le m _ ?_
    rw [slotIdx, hN]
    have h1 := Int.emod_nonneg k (b := ((2 ^ m : ℕ) : ℤ)) (by positivity)
    have h2 := Int.emod_lt_of_pos k (b := ((2 ^ m : ℕ) : ℤ)) (by positivity)
    omega

theorem NPar.of_ok (hC : C.Good) (hD : 0 ≤ D) (hT : 0 ≤ T) (hB : 0 ≤ B) {m : ℕ} (hm : 1 ≤ m)
    (hN : C.N / 2 = 2 ^ m) (prm : CPar C) : (NPar.of C prm.scale c D T B m).Ok prm c D T B := by
  have hP : (0 : ℝ) < C.P := by exact_mod_cast hC.P_pos
  have e0 := fun l => extNoise_nonneg (C := C) (l := l) hD hT hB
  have m0 : ∀ l, 0 ≤ mulNoise C l c c D D D T B := by
    intro l
    have := e0 l
    unfold mulNoise
    positivity
  have r0 : ∀ l, 0 ≤ rescaleErr C l 1 c T := by
    intro l
    unfold rescaleErr
    positivity
  have m0' : ∀ l, (0 : ℝ) ≤ (mulNoise C l c c D D D T B : ℤ) := fun l => by exact_mod_cast m0 l
  have r0' : ∀ l, (0 : ℝ) ≤ (rescaleErr C l 1 c T : ℤ) := fun l => by exact_mod_cast r0 l
  refine ⟨fun _ => rfl, rfl, fun l => ?_, fun l => ?_, fun l => ?_, fun l => ?_, fun l k => ?_,
    fun l k => ?_⟩
  · have := m0' l
    have := r0' l
    unfold mulEta
    positivity
  · refine le_of_eq ?_
    simp only [mulEta, NPar.of]
    push_cast
    rfl
  · have := r0' l
    unfold ptEta
    positivity
  · refine le_of_eq ?_
    simp only [ptEta, NPar.of]
    push_cast
    rfl
  · have := e0 l
    have h : (0 : ℝ) ≤ ((rotCount prm.crs (slotIdx C.N k) * (c * extNoise C l D T B) : ℤ) : ℝ) := by
      exact_mod_cast (by positivity : 0 ≤ (rotCount prm.crs (slotIdx C.N k) *
        (c * extNoise C l D T B) : ℤ))
    unfold rotEta
    positivity
  · have h1 := rotCount_le hm hN prm.crs k
    have h2 : (rotCount prm.crs (slotIdx C.N k) * (c * extNoise C l D T B) : ℤ) ≤
        m * (c * extNoise C l D T B) := by
      have := e0 l
      gcongr
    have h3 : ((rotCount prm.crs (slotIdx C.N k) * (c * extNoise C l D T B) : ℤ) : ℝ) ≤
        ((m * (c * extNoise C l D T B) : ℤ) : ℝ) := by exact_mod_cast h2
    have h4 : ((NPar.of C prm.scale c D T B m).rot l : ℝ) =
        C.N * ((m * (c * extNoise C l D T B) : ℤ) : ℝ) / C.P := by
      simp only [NPar.of]
      push_cast
      rfl
    rw [h4, rotEta]
    gcongr

/-! ## Inputs -/

/-- The hyperparameters are the rational numbers `q`. -/
structure HyperIs (p : Hyper ℂ) (q : Hyper ℚ) : Prop where
  gamma : p.gamma = (q.gamma : ℂ)
  eta : ∀ a, p.eta a = (q.eta a : ℂ)
  c3 : p.c3 = (q.c3 : ℂ)
  c1 : p.c1 = (q.c1 : ℂ)
  c0 : p.c0 = (q.c0 : ℂ)
  batchSize : p.batchSize = q.batchSize

theorem norm_rat (q : ℚ) : ‖(q : ℂ)‖ = ((|q| : ℚ) : ℝ) := by
  have : (q : ℂ) = ((q : ℝ) : ℂ) := by push_cast; rfl
  rw [this, Complex.norm_real, Real.norm_eq_abs]
  push_cast; rfl

theorem Dom.replicate {q : ℚ} {x : Slots n ℂ} (h : ∀ i, ‖x i‖ ≤ (q : ℝ)) : Dom (List.replicate n q) x := by
  refine ⟨List.length_replicate, fun i => ?_⟩
  rw [List.getD_eq_getElem _ _ (by simpa using ZMod.val_lt i), List.getElem_replicate]
  exact h i

theorem Dom.const {q : ℚ} {c : ℂ} (h : c = (q : ℂ)) :
    Dom ((List.replicate n q).map abs) (toSlots n (List.replicate n c)) := by
  rw [List.map_replicate]
  refine Dom.replicate fun i => ?_
  rw [toSlots_replicate, h, norm_rat]

theorem Dom.range {f : ℕ → ℚ} {x : Slots n ℂ} (h : ∀ i : ZMod n, ‖x i‖ ≤ (f i.val : ℝ)) :
    Dom ((List.range n).map f) x := by
  refine ⟨by simp, fun i => ?_⟩
  rw [List.getD_eq_getElem _ _ (by simpa using ZMod.val_lt i), List.getElem_map, List.getElem_range]
  exact h i

variable {ν : NCfg} {η : ℝ}

/-- What ties the numbers to a run with fresh error `η`. -/
structure NCfg.Ok (ν : NCfg) (prm : CPar C) (hp : Hyper ℂ) (c : ℕ) (D T B : ℤ) (η : ℝ) : Prop where
  par : ν.p.Ok prm c D T B
  L : C.nQ - 1 = ν.L
  hyper : HyperIs hp ν.hp
  fe0 : 0 ≤ η
  fe : η ≤ (ν.fe : ℝ)
  pos : 0 < prm.scale

omit [NeZero n] in
theorem NCfg.Ok.ct [NeZero n] {hp : Hyper ℂ} (h : ν.Ok prm hp c D T B η) {b : List ℚ} {x : Slots n ℂ} (hx : Dom b x) :
    Below (freshVal prm η x) (ν.ct b) :=
  ⟨hx, h.L, by show 0 < ν.p.scale; rw [← h.par.scale]; exact h.pos, h.par.scale.ge, h.par.scale.le,
    h.fe0, h.fe⟩

omit [NeZero n] in
theorem NCfg.Ok.pt {hp : Hyper ℂ} (h : ν.Ok prm hp c D T B η) {b : List ℚ} {x : Slots n ℂ} [NeZero n]
    (hx : Dom b x) : PtBelow (freshPt η x) (ν.pt b) := ⟨hx, h.fe0, h.fe⟩

theorem NCfg.Ok.consts {hp : Hyper ℂ} (h : ν.Ok prm hp c D T B η) (cols : ℕ) :
    ConstsRel Below PtBelow ((constSlots n cols hp).map (freshVal prm η) (freshPt η))
      (ν.consts n cols) := by
  have H := h.hyper
  refine ⟨h.pt ?_, h.pt (Dom.const ?_), fun a => h.pt (Dom.const ?_), h.ct (Dom.const ?_),
    fun a => h.pt (Dom.const ?_), fun a => h.pt (Dom.const ?_), h.pt (Dom.const ?_),
    h.ct (Dom.const ?_)⟩
  · refine Dom.range fun i => ?_
    have hi := ZMod.val_lt i
    show ‖toSlots n (maskVec n cols) i‖ ≤ _
    simp only [toSlots, maskVec, List.getD_eq_getElem?_getD]
    rw [List.getElem?_map, List.getElem?_range hi]
    simp only [Option.map_some, Option.getD_some]
    split_ifs <;> simp
  · rw [H.gamma, H.c3, H.batchSize]; push_cast; rfl
  · rw [H.gamma, H.c3, H.eta, H.batchSize]; push_cast; rfl
  · rw [H.c1, H.c3]; push_cast; rfl
  · rw [H.eta]; push_cast; rfl
  · rw [H.eta]
  · rw [H.c3]
  · rw [H.c0]

theorem NCfg.Ok.lab {hp : Hyper ℂ} (h : ν.Ok prm hp c D T B η) {y : ℂ} (hy : y = 0 ∨ y = 1) :
    ‖hp.c0 - y‖ ≤ (ν.lab : ℝ) := by
  rw [h.hyper.c0]
  rcases hy with rfl | rfl
  · rw [sub_zero, norm_rat]
    exact_mod_cast le_max_left _ _
  · have e : (ν.hp.c0 : ℂ) - 1 = ((ν.hp.c0 - 1 : ℚ) : ℂ) := by push_cast; rfl
    rw [e, norm_rat]
    exact_mod_cast le_max_right _ _

theorem NCfg.Ok.data {hp : Hyper ℂ} (h : ν.Ok prm hp c D T B η) (cols F : ℕ) {z label : List ℂ}
    (hz : ∀ i : ZMod n, ‖toSlots n z i‖ ≤ ((if i.val % cols < F then ν.X else 0 : ℚ) : ℝ))
    (hl : label.length = n) (h01 : ∀ y ∈ label, y = 0 ∨ y = 1) :
    DataRel Below PtBelow ((dataSlots n hp z label).map (freshVal prm η) (freshPt η))
      (ν.data n cols F) := by
  have H := h.hyper
  have hy : ∀ i : ZMod n, toSlots n label i = 0 ∨ toSlots n label i = 1 := by
    intro i
    have hi : i.val < label.length := by rw [hl]; exact ZMod.val_lt i
    rw [toSlots, List.getD_eq_getElem _ _ hi]
    exact h01 _ (List.getElem_mem hi)
  refine ⟨h.ct (Dom.range hz), h.pt (Dom.replicate fun i => ?_), fun a => h.pt (Dom.replicate fun i => ?_)⟩
  · show ‖toSlots n (const1 hp label) i‖ ≤ _
    rw [const1, toSlots_map _ hl, norm_mul]
    have e : -hp.gamma / hp.batchSize = ((-(ν.hp.gamma / ν.hp.batchSize) : ℚ) : ℂ) := by
      rw [H.gamma, H.batchSize]; push_cast; ring
    rw [e, norm_rat, abs_neg]
    push_cast
    exact mul_le_mul_of_nonneg_left (h.lab (hy i)) (abs_nonneg _)
  · show ‖toSlots n (const2 hp label a) i‖ ≤ _
    rw [const2, toSlots_map _ hl, norm_mul]
    have e : -(1 - hp.eta a) * hp.gamma / hp.batchSize =
        ((-((1 - ν.hp.eta a) * ν.hp.gamma / ν.hp.batchSize) : ℚ) : ℂ) := by
      rw [H.gamma, H.batchSize, H.eta]; push_cast; ring
    rw [e, norm_rat, abs_neg]
    push_cast
    exact mul_le_mul_of_nonneg_left (h.lab (hy i)) (abs_nonneg _)

/-! ## C56 -/

variable {E : Encoder C (List ℂ)} {ε δ : ℝ}

/-- The packed data, labels and test record stay within the numbers. -/
theorem main_inputs {prm0 : CPar C} {logN : ℕ} {cfg : MainCfg} [NeZero cfg.slotNum] {rnd : MainRand C}
    {data : List (List ℂ)} {labels : List ℂ} {r : ℚ} {K : ℕ} {M : ℝ}
    (h : MainOk E prm0 logN cfg rnd data labels r K D B M ε δ)
    (hX : ∀ i j, ‖entry data i j‖ ≤ (ν.X : ℝ)) :
    (∀ i : ZMod cfg.slotNum, ‖toSlots cfg.slotNum (mainZ cfg data) i‖ ≤
      ((if i.val % cfg.numCol < cfg.numFeature then ν.X else 0 : ℚ) : ℝ)) ∧
    (∀ i : ZMod cfg.slotNum, ‖toSlots cfg.slotNum (mainTest cfg data) i‖ ≤
      ((if i.val < cfg.numFeature then ν.X else 0 : ℚ) : ℝ)) ∧
    (mainLabel cfg labels).length = cfg.slotNum ∧ ∀ y ∈ mainLabel cfg labels, y = 0 ∨ y = 1 := by
  have hX0 : (0 : ℝ) ≤ ν.X := (norm_nonneg _).trans (hX 0 0)
  obtain ⟨cb, hcb⟩ := h.cols
  have hc : 0 < cfg.numCol := by rw [hcb]; positivity
  have hB : cfg.hp.batchSize * cfg.numCol ≤ cfg.slotNum := by
    rw [h.shape]; exact Nat.mul_le_mul_right _ h.batch
  obtain ⟨z, e, h1, h2⟩ := packZ_spec (slotNum := cfg.slotNum) hB h.feat (h.batchData.trans h.dataLen)
    fun r hr => h.rowLen r (lt_of_lt_of_le hr h.batchData)
  have ez : mainZ cfg data = z := by rw [mainZ, e]; rfl
  have hFn : cfg.numFeature ≤ cfg.slotNum := by
    refine h.feat.trans ?_
    rw [h.shape]
    obtain ⟨a, ha⟩ := h.rows
    exact Nat.le_mul_of_pos_left _ (by rw [ha]; positivity)
  obtain ⟨t, et, t1, t2⟩ := packTest_spec (slotNum := cfg.slotNum) hFn (h.rowLen _ h.testId)
  have ett : mainTest cfg data = t := by rw [mainTest, et]; rfl
  refine ⟨fun i => ?_, fun i => ?_, ?_⟩
  · rw [ez, toSlots, ← Nat.div_add_mod i.val cfg.numCol, h2 _ _ (Nat.mod_lt _ hc),
      Nat.mul_add_mod, Nat.mod_mod]
    split_ifs with a1 a2 a2
    · exact hX _ _
    · exact absurd a1.2 a2
    · simpa using hX0
    · simp
  · rw [ett, toSlots, t2]
    split_ifs
    · exact hX _ _
    · simp
  · obtain ⟨l, el, l1, l2⟩ := packLabel_spec (slotNum := cfg.slotNum) (cols := cfg.numCol)
      (labels := labels.map (target cfg.isCls)) hB
      (by rw [List.length_map]; exact h.batchData.trans h.labelLen)
    have ell : mainLabel cfg labels = l := by rw [mainLabel, el]; rfl
    rw [ell]
    refine packLabel_mem h.shape h.batch hc
      (by rw [List.length_map]; exact h.batchData.trans h.labelLen) (fun i hi => ?_) el
    have hi' : i < (labels.map (target cfg.isCls)).length := by
      rw [List.length_map]; exact lt_of_lt_of_le hi (h.batchData.trans h.labelLen)
    rw [List.getD_eq_getElem _ _ hi', List.getElem_map]
    unfold target
    split_ifs
    · exact Or.inr rfl
    · exact Or.inl rfl

omit [NeZero n] in
theorem prod_range_list (f : ℕ → ℕ) (m : ℕ) : ∏ i ∈ range m, f i = ((List.range m).map f).prod := by
  induction m with
  | zero => rfl
  | succ m ih => rw [prod_range_succ, ih, List.range_succ]; simp

theorem Below.in {w : NVal} {v : AVal n} (hv : Below v w) (hq : ∀ l, C.q l = ν.p.q l) (hM : 0 ≤ ν.M)
    (h : ν.In w) : v.In C (ν.M : ℝ) := by
  constructor
  · intro i
    have h1 := (norm_le_pi_norm v.x i).trans hv.dom.top
    have h2 : ((top w.b : ℚ) : ℝ) + w.err ≤ ν.M := by exact_mod_cast h.1
    linarith [hv.err]
  · have e : ((C.qProd v.lvl : ℕ) : ℚ) = ((List.range (w.lvl + 1)).map ν.p.q).prod := by
      rw [Ctx.qProd, hv.lvl, prod_range_list, funext hq]
    have h1 : 2 * (v.scale * ν.M) < C.qProd v.lvl := by
      rw [e]
      refine lt_of_le_of_lt ?_ h.2
      have := hv.hi
      gcongr
    exact_mod_cast h1

attribute [local irreducible] setupCRS in
/-- **C56 (bounds).** The error of every printed pair and of the result of lr.go is bounded by numbers
which depend on the parameters, the hyperparameters and a bound on the data only, not on data, keys or
samples. -/
theorem C56_bounds {prm0 : CPar C} {logN : ℕ} {cfg : MainCfg} [NeZero cfg.slotNum] {rnd : MainRand C}
    {data : List (List ℂ)} {labels : List ℂ} {r : ℚ} {K : ℕ} {M : ℝ}
    (h : MainOk E prm0 logN cfg rnd data labels r K D B M ε δ)
    (hν : ν.Ok (mainPar prm0 logN rnd) cfg.hp (companies cfg.numCompany).toFinset.card D 1 B
      (freshErr C prm0.scale B ε))
    (hX : ∀ i j, ‖entry data i j‖ ≤ (ν.X : ℝ)) :
    (∀ t vb vv, mainTrainVal (mainPar prm0 logN rnd) cfg data labels D B (freshErr C prm0.scale B ε) t =
        some (vb, vv) →
      Below vb (ν.train cfg.slotNum cfg.numRow cfg.numCol cfg.numFeature t).1 ∧
      Below vv (ν.train cfg.slotNum cfg.numRow cfg.numCol cfg.numFeature t).2) ∧
    ∀ vr, mainInferVal (mainPar prm0 logN rnd) cfg data labels D B (freshErr C prm0.scale B ε) =
        some vr →
      Below vr (ν.infer cfg.slotNum cfg.numRow cfg.numCol cfg.numFeature cfg.numIter) := by
  obtain ⟨hz, ht, hl, h01⟩ := main_inputs h hX
  have hfl : (mainPar prm0 logN rnd).fl.Ok := h.fl
  have z0 : Dom (List.replicate cfg.slotNum (0 : ℚ)) (0 : Slots cfg.slotNum ℂ) :=
    Dom.replicate fun i => by simp
  have H := num_sim (n := cfg.slotNum) hν.par h.good hfl hν.pos
  have tr : ∀ t vb vv, mainTrainVal (mainPar prm0 logN rnd) cfg data labels D B
      (freshErr C prm0.scale B ε) t = some (vb, vv) →
      Below vb (ν.train cfg.slotNum cfg.numRow cfg.numCol cfg.numFeature t).1 ∧
      Below vv (ν.train cfg.slotNum cfg.numRow cfg.numCol cfg.numFeature t).2 := fun t vb vv hv =>
    lrTrain_sim H (hν.consts cfg.numCol) cfg.numRow cfg.numCol
      (hν.data cfg.numCol cfg.numFeature hz hl h01) t (hν.ct z0) (hν.ct z0) (vb, vv) hv
  refine ⟨tr, fun vr hv => ?_⟩
  rw [mainInferVal] at hv
  cases e : mainTrainVal (mainPar prm0 logN rnd) cfg data labels D B (freshErr C prm0.scale B ε)
      cfg.numIter with
  | none => rw [e] at hv; cases hv
  | some p =>
    obtain ⟨vb, vv⟩ := p
    rw [e] at hv
    exact infer_sim H (hν.consts cfg.numCol) cfg.numFeature (hν.ct (Dom.range ht)) (tr _ _ _ e).1 vr hv

/-- **C56 (accuracy).** If the numbers stay in range, every printed number of lr.go is within the
computed bound of the plain iterate, the result within the computed bound of the plain prediction, and
`correct` is what the plain prediction gives unless that lies within the bound of the threshold. -/
theorem C56_accuracy {prm0 : CPar C} {logN : ℕ} {cfg : MainCfg} [NeZero cfg.slotNum] {rnd : MainRand C}
    {data : List (List ℂ)} {labels : List ℂ} {r : ℚ} {K : ℕ}
    (h : MainOk E prm0 logN cfg rnd data labels r K D B (ν.M : ℝ) ε δ)
    (hν : ν.Ok (mainPar prm0 logN rnd) cfg.hp (companies cfg.numCompany).toFinset.card D 1 B
      (freshErr C prm0.scale B ε))
    (hX : ∀ i j, ‖entry data i j‖ ≤ (ν.X : ℝ)) :
    ∃ out, lrMain E prm0 logN cfg rnd data labels = .ok out ∧
      (∀ t < cfg.numIter, ∃ pb pv, out.prints[t]? = some (pb, pv) ∧
        ∀ c < 2, c < cfg.numFeature →
          (ν.In (ν.train cfg.slotNum cfg.numRow cfg.numCol cfg.numFeature (t + 1)).1 →
            ‖pb.getD c 0 - (plainTrain cfg data labels (t + 1)).1 c‖ ≤
              (ν.train cfg.slotNum cfg.numRow cfg.numCol cfg.numFeature (t + 1)).1.err + δ) ∧
          (ν.In (ν.train cfg.slotNum cfg.numRow cfg.numCol cfg.numFeature (t + 1)).2 →
            ‖pv.getD c 0 - (plainTrain cfg data labels (t + 1)).2 c‖ ≤
              (ν.train cfg.slotNum cfg.numRow cfg.numCol cfg.numFeature (t + 1)).2.err + δ)) ∧
      (ν.In (ν.infer cfg.slotNum cfg.numRow cfg.numCol cfg.numFeature cfg.numIter) →
        ‖out.result.getD 0 0 - plainPredict cfg data labels‖ ≤
          (ν.infer cfg.slotNum cfg.numRow cfg.numCol cfg.numFeature cfg.numIter).err + δ ∧
        ((ν.infer cfg.slotNum cfg.numRow cfg.numCol cfg.numFeature cfg.numIter).err + δ <
            |(plainPredict cfg data labels).re - 1 / 2| →
          out.correct = verdict (plainPredict cfg data labels).re
            (cfg.isCls (labels.getD cfg.testId 0).re))) := by
  have hM : 0 ≤ ν.M := by
    have : (0 : ℝ) ≤ ν.M := zero_le_one.trans h.hyper.one
    exact_mod_cast this
  obtain ⟨out, ho, -, hpr, vr, ei, -⟩ := C51_lr_main h
  obtain ⟨a1, a2⟩ := C51_accuracy h ho
  obtain ⟨b1, b2⟩ := C56_bounds h hν hX
  refine ⟨out, ho, fun t ht => ?_, fun hin => ?_⟩
  · obtain ⟨vb, vv, bd, vd, e1, -⟩ := hpr t ht
    obtain ⟨pb, pv, e2, -, -, e3⟩ := a1 t ht vb vv e1
    obtain ⟨l1, l2⟩ := b1 _ _ _ e1
    refine ⟨pb, pv, e2, fun c hc hF => ⟨fun hin => ?_, fun hin => ?_⟩⟩
    · exact ((e3 c hc hF).1 (l1.in hν.par.q hM hin)).trans (by linarith [l1.err])
    · exact ((e3 c hc hF).2 (l2.in hν.par.q hM hin)).trans (by linarith [l2.err])
  · have l := b2 vr ei
    obtain ⟨c1, c2⟩ := a2 vr ei (l.in hν.par.q hM hin)
    exact ⟨c1.trans (by linarith [l.err]), fun hm => c2 (by linarith [l.err])⟩

end

end MK.Lr
