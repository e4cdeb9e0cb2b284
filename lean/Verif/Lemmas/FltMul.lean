import Verif.Lemmas.Np

/-! Helper lemmas: scaling floats by a positive number. -/

namespace Calk
open Flt

theorem infMul_pos {s : ℝ} (h : 0 < s) : infMul s = pinf := by simp [infMul, h]
theorem infMul_neg {s : ℝ} (h : s < 0) : infMul s = ninf := by
  simp [infMul, h, not_lt.mpr h.le]
@[simp] theorem infMul_zero : infMul 0 = nan := by simp [infMul]

theorem infMul_scale {k : ℝ} (hk : 0 < k) (x : ℝ) : infMul (k * x) = infMul x := by
  rcases lt_trichotomy x 0 with h | h | h
  · rw [infMul_neg h, infMul_neg (mul_neg_of_pos_of_neg hk h)]
  · subst h; simp
  · rw [infMul_pos h, infMul_pos (mul_pos hk h)]

@[simp] theorem scale_pinf {k : ℝ} (hk : 0 < k) : fin k * pinf = pinf := infMul_pos hk
@[simp] theorem scale_ninf {k : ℝ} (hk : 0 < k) : fin k * ninf = ninf := infMul_neg (by linarith)

theorem scale_infMul {k : ℝ} (hk : 0 < k) (x : ℝ) : fin k * infMul x = infMul x := by
  rcases lt_trichotomy x 0 with h | h | h
  · rw [infMul_neg h, scale_ninf hk]
  · subst h; simp
  · rw [infMul_pos h, scale_pinf hk]

theorem pinf_mul_pinf : pinf * pinf = pinf := rfl
theorem pinf_mul_ninf : pinf * ninf = ninf := rfl
theorem ninf_mul_pinf : ninf * pinf = ninf := rfl
theorem ninf_mul_ninf : ninf * ninf = pinf := rfl
theorem pinf_mul_fin (x : ℝ) : pinf * fin x = infMul x := rfl
theorem ninf_mul_fin (x : ℝ) : ninf * fin x = infMul (-x) := rfl
theorem fin_mul_pinf (x : ℝ) : fin x * pinf = infMul x := rfl
theorem fin_mul_ninf (x : ℝ) : fin x * ninf = infMul (-x) := rfl

theorem scale_mul {k : ℝ} (hk : 0 < k) (a b : Flt) : fin k * a * b = fin k * (a * b) := by
  cases a <;> cases b <;> simp only [scale_pinf hk, scale_ninf hk, nan_mul, mul_nan, mul_fin,
    pinf_mul_pinf, pinf_mul_ninf, ninf_mul_pinf, ninf_mul_ninf, pinf_mul_fin, ninf_mul_fin,
    scale_infMul hk, mul_assoc]
  · rw [fin_mul_ninf, fin_mul_ninf, scale_infMul hk, ← mul_neg, infMul_scale hk]
  · rw [fin_mul_pinf, fin_mul_pinf, scale_infMul hk, infMul_scale hk]

theorem scale_div {k : ℝ} (hk : 0 < k) (a b : Flt) : fin k * a / b = fin k * (a / b) := by
  cases a with
  | nan => simp
  | ninf =>
    rw [scale_ninf hk]
    cases b with
    | nan => simp
    | ninf => show nan = fin k * nan; simp
    | pinf => show nan = fin k * nan; simp
    | fin y =>
      show (if y = 0 then ninf else infMul (-y)) = fin k * (if y = 0 then ninf else infMul (-y))
      split
      · rw [scale_ninf hk]
      · rw [scale_infMul hk]
  | pinf =>
    rw [scale_pinf hk]
    cases b with
    | nan => simp
    | ninf => show nan = fin k * nan; simp
    | pinf => show nan = fin k * nan; simp
    | fin y =>
      show (if y = 0 then pinf else infMul y) = fin k * (if y = 0 then pinf else infMul y)
      split
      · rw [scale_pinf hk]
      · rw [scale_infMul hk]
  | fin x =>
    rw [mul_fin]
    cases b with
    | nan => simp
    | ninf => show fin 0 = fin k * fin 0; simp
    | pinf => show fin 0 = fin k * fin 0; simp
    | fin y =>
      show (if y = 0 then infMul (k * x) else fin (k * x / y))
        = fin k * (if y = 0 then infMul x else fin (x / y))
      split
      · rw [scale_infMul hk, infMul_scale hk]
      · rw [mul_fin, mul_div_assoc]

/-- a common positive factor cancels in a quotient -/
theorem div_scale {k : ℝ} (hk : 0 < k) (a b : Flt) : (fin k * a) / (fin k * b) = a / b := by
  cases b with
  | nan => simp
  | ninf => 
    rw [scale_ninf hk]
    cases a with
    | nan => simp
    | ninf => rw [scale_ninf hk]
    | pinf => rw [scale_pinf hk]
    | fin x => rfl
  | pinf =>
    rw [scale_pinf hk]
    cases a with
    | nan => simp
    | ninf => rw [scale_ninf hk]
    | pinf => rw [scale_pinf hk]
    | fin x => rfl
  | fin y =>
    rw [mul_fin]
    have hy : (k * y = 0) ↔ (y = 0) := by simp [hk.ne']
    cases a with
    | nan => simp
    | ninf =>
      rw [scale_ninf hk]
      show (if k * y = 0 then ninf else infMul (-(k * y))) = (if y = 0 then ninf else infMul (-y))
      rw [← mul_neg, infMul_scale hk]; simp only [hy]
    | pinf =>
      rw [scale_pinf hk]
      show (if k * y = 0 then pinf else infMul (k * y)) = (if y = 0 then pinf else infMul y)
      rw [infMul_scale hk]; simp only [hy]
    | fin x =>
      rw [mul_fin]
      show (if k * y = 0 then infMul (k * x) else fin (k * x / (k * y)))
        = (if y = 0 then infMul x else fin (x / y))
      rw [infMul_scale hk, mul_div_mul_left _ _ hk.ne']; simp only [hy]

theorem scale_neg {k : ℝ} (hk : 0 < k) (a : Flt) : -(fin k * a) = fin k * -a := by
  cases a with
  | nan => simp
  | ninf => rw [scale_ninf hk]; show pinf = fin k * pinf; rw [scale_pinf hk]
  | pinf => rw [scale_pinf hk]; show ninf = fin k * ninf; rw [scale_ninf hk]
  | fin x => simp

theorem scale_add {k : ℝ} (hk : 0 < k) (a b : Flt) : fin k * (a + b) = fin k * a + fin k * b := by
  cases a <;> cases b <;> simp only [scale_pinf hk, scale_ninf hk, nan_add, add_nan, mul_nan, mul_fin,
    add_fin, mul_add] <;>
  first
  | rfl
  | exact scale_ninf hk
  | exact scale_pinf hk

theorem scale_sub {k : ℝ} (hk : 0 < k) (a b : Flt) : fin k * (a - b) = fin k * a - fin k * b := by
  show fin k * (a + -b) = fin k * a + -(fin k * b)
  rw [scale_add hk, scale_neg hk]

theorem scale_npSum {k : ℝ} (hk : 0 < k) (xs : List Flt) :
    npSum (xs.map fun x => fin k * x) = fin k * npSum xs := by
  induction xs with
  | nil => simp
  | cons x xs ih => simp [npSum_cons, ih, scale_add hk]

theorem scale_npMean {k : ℝ} (hk : 0 < k) (xs : List Flt) :
    npMean (xs.map fun x => fin k * x) = fin k * npMean xs := by
  simp only [npMean, scale_npSum hk, List.length_map, scale_div hk]

/-- adding a finite constant to every value shifts the mean -/
theorem npMean_shift (d : ℝ) (xs : List Flt) :
    npMean (xs.map fun x => x + fin d) = npMean xs + fin d := by
  have hs : npSum (xs.map fun x => x + fin d) = npSum xs + fin (xs.length * d) := by
    induction xs with
    | nil => simp
    | cons x xs ih =>
      simp only [List.map_cons, npSum_cons, ih, List.length_cons, Nat.cast_succ, add_mul, one_mul]
      rw [← add_fin, add_assoc x (fin d), add_left_comm (fin d), ← add_assoc x]
      rw [add_comm (fin d) (fin _)]
  by_cases h : xs = []
  · subst h; simp
  have hl : (xs.length : ℝ) ≠ 0 := by
    have := List.length_pos_iff.mpr h
    positivity
  have hl' : (0 : ℝ) < xs.length := by
    have := List.length_pos_iff.mpr h
    positivity
  unfold npMean
  rw [hs, List.length_map]
  cases npSum xs with
  | nan => simp
  | ninf =>
    show (if (xs.length : ℝ) = 0 then ninf else infMul (-(xs.length : ℝ)))
      = (if (xs.length : ℝ) = 0 then ninf else infMul (-(xs.length : ℝ))) + fin d
    rw [if_neg hl, infMul_neg (by linarith)]; rfl
  | pinf =>
    show (if (xs.length : ℝ) = 0 then pinf else infMul (xs.length : ℝ))
      = (if (xs.length : ℝ) = 0 then pinf else infMul (xs.length : ℝ)) + fin d
    rw [if_neg hl, infMul_pos hl']; rfl
  | fin s =>
    rw [add_fin, div_fin _ _ hl, div_fin _ _ hl, add_fin]
    congr 1
    field_simp

end Calk
