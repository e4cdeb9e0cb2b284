import Mathlib.Analysis.SpecialFunctions.Pow.Real
import Mathlib.Analysis.SpecialFunctions.Log.Base
import Mathlib.Analysis.SpecialFunctions.Sqrt

/-!
# Numbers

`Flt` models a numpy / Python float: NaN, the two infinities and finite values.
Finite arithmetic is exact (rounding, overflow, underflow and signed zeros are not
modelled); NaN and the infinities follow IEEE 754.
-/

namespace Calk

/-- A float: finite values are real numbers. -/
inductive Flt where
  | nan
  | ninf
  | pinf
  | fin (x : ℝ)

namespace Flt

noncomputable section

/-- Sign-aware infinity: `s < 0` gives `-inf`, `s > 0` gives `inf`, `0` gives `nan`
(the IEEE result of `inf * s`). -/
def infMul (s : ℝ) : Flt :=
  if 0 < s then pinf else if s < 0 then ninf else nan

def neg : Flt → Flt
  | nan => nan
  | ninf => pinf
  | pinf => ninf
  | fin x => fin (-x)

def add : Flt → Flt → Flt
  | nan, _ => nan
  | _, nan => nan
  | fin x, fin y => fin (x + y)
  | fin _, i => i
  | i, fin _ => i
  | pinf, pinf => pinf
  | ninf, ninf => ninf
  | pinf, ninf => nan
  | ninf, pinf => nan

def mul : Flt → Flt → Flt
  | nan, _ => nan
  | _, nan => nan
  | fin x, fin y => fin (x * y)
  | fin x, pinf => infMul x
  | fin x, ninf => infMul (-x)
  | pinf, fin y => infMul y
  | ninf, fin y => infMul (-y)
  | pinf, pinf => pinf
  | ninf, ninf => pinf
  | pinf, ninf => ninf
  | ninf, pinf => ninf

/-- Division, numpy rules: a finite non-zero value over zero is an infinity (the sign of
the zero is not modelled, it is taken as `+0`), `0/0` is NaN. -/
def div : Flt → Flt → Flt
  | nan, _ => nan
  | _, nan => nan
  | fin x, fin y => if y = 0 then infMul x else fin (x / y)
  | fin _, _ => fin 0
  | pinf, fin y => if y = 0 then pinf else infMul y
  | ninf, fin y => if y = 0 then ninf else infMul (-y)
  | _, _ => nan

instance : Neg Flt := ⟨neg⟩
instance : Add Flt := ⟨add⟩
instance : Sub Flt := ⟨fun a b => add a (neg b)⟩
instance : Mul Flt := ⟨mul⟩
instance : Div Flt := ⟨div⟩
instance : Inhabited Flt := ⟨nan⟩

/-- `np.exp` -/
def exp : Flt → Flt
  | nan => nan
  | ninf => fin 0
  | pinf => pinf
  | fin x => fin (Real.exp x)

/-- `np.log` (natural): `log 0 = -inf`, negative gives NaN. -/
def log : Flt → Flt
  | nan => nan
  | ninf => nan
  | pinf => pinf
  | fin x => if 0 < x then fin (Real.log x) else if x = 0 then ninf else nan

/-- `np.log10` -/
def log10 : Flt → Flt
  | nan => nan
  | ninf => nan
  | pinf => pinf
  | fin x => if 0 < x then fin (Real.logb 10 x) else if x = 0 then ninf else nan

/-- `10.0 ** x` -/
def pow10 : Flt → Flt
  | nan => nan
  | ninf => fin 0
  | pinf => pinf
  | fin x => fin ((10 : ℝ) ^ x)

/-- `np.sqrt` -/
def sqrt : Flt → Flt
  | nan => nan
  | ninf => nan
  | pinf => pinf
  | fin x => if x < 0 then nan else fin (Real.sqrt x)

/-- `x ** 2` -/
def sq (x : Flt) : Flt := x * x

/-- `<`; comparisons with NaN are `False`. -/
def lt : Flt → Flt → Bool
  | nan, _ => false
  | _, nan => false
  | fin x, fin y => decide (x < y)
  | ninf, ninf => false
  | ninf, _ => true
  | _, ninf => false
  | pinf, _ => false
  | fin _, pinf => true

/-- `<=`; comparisons with NaN are `False`. -/
def le : Flt → Flt → Bool
  | nan, _ => false
  | _, nan => false
  | fin x, fin y => decide (x ≤ y)
  | ninf, _ => true
  | _, ninf => false
  | _, pinf => true
  | pinf, fin _ => false

/-- `np.isnan` / `pd.isnull` on a number. -/
def isNaN : Flt → Bool
  | nan => true
  | _ => false

/-- `np.abs` -/
def abs : Flt → Flt
  | nan => nan
  | ninf => pinf
  | pinf => pinf
  | fin x => fin |x|

end

section
variable (x y : ℝ) (a : Flt)

@[simp] theorem fin_inj : fin x = fin y ↔ x = y := by
  constructor
  · intro h; injection h
  · rintro rfl; rfl
@[simp] theorem neg_fin : -(fin x) = fin (-x) := rfl
@[simp] theorem add_fin : fin x + fin y = fin (x + y) := rfl
@[simp] theorem sub_fin : fin x - fin y = fin (x - y) := by
  show fin (x + -y) = _; rw [sub_eq_add_neg]
@[simp] theorem mul_fin : fin x * fin y = fin (x * y) := rfl
theorem div_fin (h : y ≠ 0) : fin x / fin y = fin (x / y) := by
  show (if y = 0 then _ else _) = _; rw [if_neg h]
@[simp] theorem exp_fin : exp (fin x) = fin (Real.exp x) := rfl
@[simp] theorem pow10_fin : pow10 (fin x) = fin ((10:ℝ) ^ x) := rfl
theorem log_fin (h : 0 < x) : log (fin x) = fin (Real.log x) := by
  show (if _ then _ else _) = _; rw [if_pos h]
theorem log10_fin (h : 0 < x) : log10 (fin x) = fin (Real.logb 10 x) := by
  show (if _ then _ else _) = _; rw [if_pos h]
theorem sqrt_fin (h : 0 ≤ x) : sqrt (fin x) = fin (Real.sqrt x) := by
  show (if _ then _ else _) = _; rw [if_neg (not_lt.mpr h)]
@[simp] theorem sq_fin : sq (fin x) = fin (x ^ 2) := by
  show fin (x * x) = _; rw [pow_two]
@[simp] theorem lt_fin : lt (fin x) (fin y) = decide (x < y) := rfl
@[simp] theorem le_fin : le (fin x) (fin y) = decide (x ≤ y) := rfl
@[simp] theorem isNaN_fin : isNaN (fin x) = false := rfl
@[simp] theorem isNaN_nan : isNaN nan = true := rfl

@[simp] theorem nan_add : nan + a = nan := rfl
@[simp] theorem add_nan : a + nan = nan := by cases a <;> rfl
@[simp] theorem neg_nan : -nan = nan := rfl
@[simp] theorem nan_sub : nan - a = nan := rfl
@[simp] theorem sub_nan : a - nan = nan := by cases a <;> rfl
@[simp] theorem nan_mul : nan * a = nan := rfl
@[simp] theorem mul_nan : a * nan = nan := by cases a <;> rfl
@[simp] theorem nan_div : nan / a = nan := rfl
@[simp] theorem div_nan : a / nan = nan := by cases a <;> rfl
@[simp] theorem nan_le : le nan a = false := rfl
@[simp] theorem le_nan : le a nan = false := by cases a <;> rfl
@[simp] theorem nan_lt : lt nan a = false := rfl
@[simp] theorem lt_nan : lt a nan = false := by cases a <;> rfl

theorem isNaN_iff : isNaN a = true ↔ a = nan := by cases a <;> simp [isNaN]

end

/-! Exact addition with NaN and infinities is still a commutative monoid. -/

instance : Zero Flt := ⟨fin 0⟩

@[simp] theorem zero_def : (0 : Flt) = fin 0 := rfl

protected theorem add_comm (a b : Flt) : a + b = b + a := by
  cases a <;> cases b <;> first | rfl | (simp [add_comm])

protected theorem add_assoc (a b c : Flt) : a + b + c = a + (b + c) := by
  cases a <;> cases b <;> cases c <;> first | rfl | (simp [add_assoc])

protected theorem zero_add (a : Flt) : (0 : Flt) + a = a := by
  cases a <;> first | rfl | simp

instance : AddCommMonoid Flt where
  add_assoc := Flt.add_assoc
  zero_add := Flt.zero_add
  add_zero a := by rw [Flt.add_comm]; exact Flt.zero_add a
  add_comm := Flt.add_comm
  nsmul := nsmulRec

protected theorem mul_comm (a b : Flt) : a * b = b * a := by
  cases a <;> cases b <;> first | rfl | (simp [mul_comm])

protected theorem fin_mul_one (a : Flt) : a * fin 1 = a := by
  cases a with
  | nan => rfl
  | ninf => show infMul (-1) = ninf; simp [infMul]
  | pinf => show infMul 1 = pinf; simp [infMul]
  | fin x => simp

end Flt

end Calk
