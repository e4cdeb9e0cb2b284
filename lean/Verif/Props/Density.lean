import Verif.Model.Density
import Mathlib.Tactic.Linarith
import Mathlib.Tactic.Positivity
import Mathlib.Tactic.NormNum
import Mathlib.Tactic.Ring

/-! # Densities (C61, C62) -/

namespace Calk
open Flt

/-! ## C61: seawater -/

/-- the polynomial of Millero and Poisson (1981) in the temperature and the square root `u` of the
salinity, in kg/m³ -/
noncomputable def mp81 (t u : ℝ) : ℝ :=
  999.842594 + 6.793952e-2 * t - 9.095290e-3 * t ^ 2 + 1.001685e-4 * t ^ 3 - 1.120083e-6 * t ^ 4
    + 6.536336e-9 * t ^ 5
    + (0.824493 - 4.0899e-3 * t + 7.6438e-5 * t ^ 2 - 8.2467e-7 * t ^ 3 + 5.3875e-9 * t ^ 4) * u ^ 2
    + (-5.72466e-3 + 1.0227e-4 * t - 1.6546e-6 * t ^ 2) * u ^ 3
    + 4.8314e-4 * u ^ 4

theorem fpow_fin (x : ℝ) (n : ℕ) : fpow (fin x) n = fin (x ^ n) := by
  induction n with
  | zero => simp [fpow]
  | succ n ih => rw [fpow, ih, mul_fin, pow_succ]

theorem seawater_eq {t s : ℝ} (hs : 0 ≤ s) :
    seawater_1atm_MP81 (fin t) (fin s) = fin (mp81 t (Real.sqrt s) * 1e-3) := by
  have h15 : fpow15 (fin s) = fin (s * Real.sqrt s) := by
    show (if s < 0 then _ else _) = _
    rw [if_neg (not_lt.mpr hs)]
  have h2 : Real.sqrt s ^ 2 = s := Real.sq_sqrt hs
  have h3 : Real.sqrt s ^ 3 = s * Real.sqrt s := by rw [pow_succ, h2]
  have h4 : Real.sqrt s ^ 4 = s ^ 2 := by rw [show (4 : ℕ) = 2 * 2 from rfl, pow_mul, h2]
  unfold seawater_1atm_MP81 mp81
  rw [h15, h2, h3, h4]
  simp only [fpow_fin, mul_fin, add_fin, sub_fin]

theorem mp81_b {t : ℝ} (h0 : 0 ≤ t) (h1 : t ≤ 40) :
    0.6 ≤ 0.824493 - 4.0899e-3 * t + 7.6438e-5 * t ^ 2 - 8.2467e-7 * t ^ 3 + 5.3875e-9 * t ^ 4 ∧
    0.824493 - 4.0899e-3 * t + 7.6438e-5 * t ^ 2 - 8.2467e-7 * t ^ 3 + 5.3875e-9 * t ^ 4 ≤ 0.8245 := by
  have h2 : 0 ≤ t ^ 2 := by positivity
  have h3 : 0 ≤ t ^ 3 := by positivity
  have a2 : t ^ 2 ≤ 40 * t := by nlinarith
  have a3 : t ^ 3 ≤ 40 * t ^ 2 := by nlinarith
  have a4 : t ^ 4 ≤ 40 * t ^ 3 := by nlinarith
  have b4 : 0 ≤ t ^ 4 := by positivity
  constructor <;> linarith

theorem mp81_c {t : ℝ} (h0 : 0 ≤ t) (h1 : t ≤ 40) :
    -0.006 ≤ -5.72466e-3 + 1.0227e-4 * t - 1.6546e-6 * t ^ 2 ∧
    -5.72466e-3 + 1.0227e-4 * t - 1.6546e-6 * t ^ 2 ≤ 0 := by
  constructor
  · nlinarith
  · nlinarith [sq_nonneg (t - 30)]

theorem mp81_a {t : ℝ} (h0 : 0 ≤ t) (h1 : t ≤ 40) :
    990.5 ≤ 999.842594 + 6.793952e-2 * t - 9.095290e-3 * t ^ 2 + 1.001685e-4 * t ^ 3
      - 1.120083e-6 * t ^ 4 + 6.536336e-9 * t ^ 5 ∧
    999.842594 + 6.793952e-2 * t - 9.095290e-3 * t ^ 2 + 1.001685e-4 * t ^ 3
      - 1.120083e-6 * t ^ 4 + 6.536336e-9 * t ^ 5 ≤ 1001 := by
  have b3 : 0 ≤ t ^ 3 := by positivity
  have b4 : 0 ≤ t ^ 4 := by positivity
  have b5 : 0 ≤ t ^ 5 := by positivity
  have a4 : t ^ 4 ≤ 40 * t ^ 3 := by nlinarith
  have a5 : t ^ 5 ≤ 40 * t ^ 4 := by nlinarith
  have a3 : t ^ 3 ≤ 40 * t ^ 2 := by nlinarith [sq_nonneg t]
  have c3 : 80 * t ^ 2 - 1600 * t ≤ t ^ 3 := by nlinarith [mul_nonneg h0 (sq_nonneg (t - 40))]
  have a2 : t ^ 2 ≤ 40 * t := by nlinarith
  constructor
  · nlinarith
  · nlinarith [sq_nonneg (t - 7)]

/-- **C61**: the density is strictly increasing in salinity (from fresh water on). -/
theorem C61_increasing {t s s' : ℝ} (h0 : 0 ≤ t) (h1 : t ≤ 40) (hs : 0 ≤ s) (hss : s < s')
    (hs' : s' ≤ 43) :
    (seawater_1atm_MP81 (fin t) (fin s)).lt (seawater_1atm_MP81 (fin t) (fin s')) = true := by
  rw [seawater_eq hs, seawater_eq (hs.trans hss.le), lt_fin, decide_eq_true_iff]
  have hu : 0 ≤ Real.sqrt s := Real.sqrt_nonneg s
  have huv : Real.sqrt s < Real.sqrt s' := Real.sqrt_lt_sqrt hs hss
  have hv : Real.sqrt s' ≤ 7 := by
    rw [Real.sqrt_le_left (by norm_num)]; linarith
  generalize Real.sqrt s = u at *
  generalize Real.sqrt s' = v at *
  have hb := (mp81_b h0 h1).1
  have hc := (mp81_c h0 h1).1
  unfold mp81
  generalize 0.824493 - 4.0899e-3 * t + 7.6438e-5 * t ^ 2 - 8.2467e-7 * t ^ 3 + 5.3875e-9 * t ^ 4
    = b at *
  generalize -5.72466e-3 + 1.0227e-4 * t - 1.6546e-6 * t ^ 2 = c at *
  have hd : 0 < v - u := by linarith
  have h4 : u ^ 4 < v ^ 4 := pow_lt_pow_left₀ huv hu (by norm_num)
  have hq : u ^ 2 + u * v + v ^ 2 ≤ 14 * (u + v) := by nlinarith [mul_nonneg hu (hu.trans huv.le)]
  have hq0 : 0 ≤ u ^ 2 + u * v + v ^ 2 := by nlinarith [mul_nonneg hu (hu.trans huv.le), sq_nonneg u, sq_nonneg v]
  have hs : 0 < u + v := by linarith
  have key : 0 < b * (u + v) + c * (u ^ 2 + u * v + v ^ 2) := by nlinarith
  have := mul_pos hd key
  nlinarith

/-- **C61**: the density lies between 0.99 and 1.04 kg/l. -/
theorem C61_bounds {t s : ℝ} (h0 : 0 ≤ t) (h1 : t ≤ 40) (hs : 0 ≤ s) (hs' : s ≤ 43) :
    ∃ d, seawater_1atm_MP81 (fin t) (fin s) = fin d ∧ 0.99 ≤ d ∧ d ≤ 1.04 := by
  refine ⟨_, seawater_eq hs, ?_⟩
  have hu : 0 ≤ Real.sqrt s := Real.sqrt_nonneg s
  have hv : Real.sqrt s ≤ 7 := by
    rw [Real.sqrt_le_left (by norm_num)]; linarith
  have h2 : Real.sqrt s ^ 2 = s := Real.sq_sqrt hs
  have h3 : Real.sqrt s ^ 3 = s * Real.sqrt s := by rw [pow_succ, h2]
  have h4 : Real.sqrt s ^ 4 = s ^ 2 := by rw [show (4 : ℕ) = 2 * 2 from rfl, pow_mul, h2]
  obtain ⟨hb, hb'⟩ := mp81_b h0 h1
  obtain ⟨hc, hc'⟩ := mp81_c h0 h1
  obtain ⟨ha, ha'⟩ := mp81_a h0 h1
  unfold mp81
  rw [h2, h3, h4]
  generalize 0.824493 - 4.0899e-3 * t + 7.6438e-5 * t ^ 2 - 8.2467e-7 * t ^ 3 + 5.3875e-9 * t ^ 4
    = b at *
  generalize -5.72466e-3 + 1.0227e-4 * t - 1.6546e-6 * t ^ 2 = c at *
  generalize 999.842594 + 6.793952e-2 * t - 9.095290e-3 * t ^ 2 + 1.001685e-4 * t ^ 3
      - 1.120083e-6 * t ^ 4 + 6.536336e-9 * t ^ 5 = a at *
  generalize Real.sqrt s = u at *
  have hsu : 0 ≤ s * u := mul_nonneg hs hu
  have hsu' : s * u ≤ 7 * s := by nlinarith
  have hc1 : c * (s * u) ≤ 0 := by nlinarith
  have hc2 : -0.042 * s ≤ c * (s * u) := by nlinarith
  have hb1 : 0.6 * s ≤ b * s := by nlinarith
  have hb2 : b * s ≤ 0.8245 * 43 := by nlinarith
  have hs2 : s ^ 2 ≤ 43 * 43 := by nlinarith
  have hs3 : 0 ≤ s ^ 2 := by positivity
  constructor <;> linarith

/-- A temperature or salinity that is a number and outside `[lo, hi]` -/
def OutOfRange (lo hi : ℝ) : Flt → Prop
  | .nan => False
  | .ninf => True
  | .pinf => True
  | .fin x => x < lo ∨ hi < x

theorem lt_or_lt_iff (lo hi : ℝ) (h : lo ≤ hi) (x : Flt) :
    (x.lt (fin lo) = true ∨ (fin hi).lt x = true) ↔ OutOfRange lo hi x := by
  cases x <;> simp [OutOfRange, Flt.lt]

theorem any_or_any (l : List Flt) (lo hi : ℝ) (h : lo ≤ hi) :
    ((l.any fun x => x.lt (fin lo)) || l.any fun x => (fin hi).lt x) = true ↔
      ∃ x ∈ l, OutOfRange lo hi x := by
  simp only [Bool.or_eq_true, List.any_eq_true, ← exists_or, ← and_or_left, lt_or_lt_iff lo hi h]

/-- **C61**: the warnings are issued exactly when some value falls outside the range; NaN does not
count. -/
theorem C61_warns (l : List Flt) :
    (seawater_warns_temperature l = true ↔ ∃ t ∈ l, OutOfRange 0 40 t) ∧
    (seawater_warns_salinity l = true ↔ ∃ s ∈ l, OutOfRange 0.5 43 s) :=
  ⟨any_or_any l 0 40 (by norm_num), any_or_any l 0.5 43 (by norm_num)⟩

example : ∃ d, seawater_1atm_MP81 (fin 25) (fin 35) = fin d ∧ 0.99 ≤ d ∧ d ≤ 1.04 :=
  C61_bounds (by norm_num) (by norm_num) (by norm_num) (by norm_num)

example : seawater_warns_temperature [fin 20, fin 41] = true ∧
    seawater_warns_temperature [fin 20, nan, fin 40] = false := by
  constructor
  · exact ((C61_warns _).1).mpr ⟨fin 41, by simp, .inr (by norm_num)⟩
  · rw [Bool.eq_false_iff]
    intro h
    obtain ⟨t, ht, h⟩ := ((C61_warns _).1).mp h
    simp only [List.mem_cons, List.not_mem_nil, or_false] at ht
    rcases ht with rfl | rfl | rfl
    · rcases h with h | h <;> norm_num at h
    · exact h
    · rcases h with h | h <;> norm_num at h

/-! ## C62: titrants -/

/-- **C62**: the density of sulfuric acid is strictly increasing over the parameterisation range
(and beyond: up to 10 mol/kg), ... -/
theorem C62_increasing {m m' : ℝ} (h : m < m') (hm : m' ≤ 10) :
    (H2SO4_25C_EAIM (fin m)).lt (H2SO4_25C_EAIM (fin m')) = true := by
  unfold H2SO4_25C_EAIM
  simp only [fpow_fin, mul_fin, add_fin, sub_fin, lt_fin, decide_eq_true_iff]
  nlinarith

/-- ... and a warning is issued exactly outside the range. -/
theorem C62_warns (m : Flt) : H2SO4_warns m = true ↔ OutOfRange 0.05 3 m := by
  unfold H2SO4_warns
  rw [Bool.or_eq_true, lt_or_lt_iff _ _ (by norm_num)]

/-- **C62**: sulfuric acid is denser than 1 kg/l and lighter than 1.16 kg/l over the range. -/
theorem C62_bounds {m : ℝ} (h0 : 0.05 ≤ m) (h1 : m ≤ 3) :
    ∃ d, H2SO4_25C_EAIM (fin m) = fin d ∧ 1 < d ∧ d < 1.16 := by
  unfold H2SO4_25C_EAIM
  simp only [fpow_fin, mul_fin, add_fin, sub_fin]
  exact ⟨_, rfl, by nlinarith, by nlinarith⟩

/-- **C62**: a mixture of HCl and NaCl is denser than pure water. -/
theorem C62_mixture {a b : ℝ} (ha : 0 ≤ a) (hb : 0 ≤ b) (hab : 0 < a + b) (h : a + b ≤ 10) :
    ∃ d, HCl_NaCl_25C_DSC07 (fin a) (fin b) = fin d ∧ 0.99704 < d := by
  unfold HCl_NaCl_25C_DSC07
  simp only [mul_fin, add_fin, sub_fin, sqrt_fin _ hab.le, div_fin _ _ hab.ne']
  have hr0 : 0 ≤ Real.sqrt (a + b) := Real.sqrt_nonneg _
  have hr1 : Real.sqrt (a + b) ≤ 4 := by
    rw [Real.sqrt_le_left (by norm_num)]; linarith
  have hr2 : Real.sqrt (a + b) ^ 2 = a + b := Real.sq_sqrt hab.le
  generalize hr : Real.sqrt (a + b) = r at *
  have hp : 0 ≤ 17.854 + 1.460 * r - 0.307 * (a + b) := by nlinarith
  have hp' : 17.854 + 1.460 * r - 0.307 * (a + b) ≤ 24 := by nlinarith
  have hq : 0 ≤ 16.613 + 1.811 * r + 0.094 * (a + b) := by nlinarith
  have hq' : 16.613 + 1.811 * r + 0.094 * (a + b) ≤ 26 := by nlinarith
  generalize 17.854 + 1.460 * r - 0.307 * (a + b) = p at *
  generalize 16.613 + 1.811 * r + 0.094 * (a + b) = q at *
  have e1 : (36.46 * a + 58.44 * b) / (a + b) * (a + b) = 36.46 * a + 58.44 * b :=
    div_mul_cancel₀ _ hab.ne'
  have e2 : (a * p + b * q) / (a + b) * (a + b) = a * p + b * q := div_mul_cancel₀ _ hab.ne'
  rw [e1, e2]
  have hd : 0 < 1e3 + (a * p + b * q) * 0.99704 := by positivity
  rw [div_fin _ _ hd.ne']
  refine ⟨_, rfl, ?_⟩
  rw [lt_div_iff₀ hd]
  have h1 : a * p ≤ a * 24 := by nlinarith
  have h2 : b * q ≤ b * 26 := by nlinarith
  nlinarith

/-- **C62**: but for a titrant without any acid or salt it is not defined. -/
theorem C62_water : HCl_NaCl_25C_DSC07 (fin 0) (fin 0) = nan := by
  have h0 : (fin 0 : Flt) / fin 0 = nan := by
    show (if (0 : ℝ) = 0 then infMul 0 else _) = nan
    rw [if_pos rfl]; unfold infMul; simp
  unfold HCl_NaCl_25C_DSC07
  simp [h0]

example : ∃ d, HCl_NaCl_25C_DSC07 (fin 0.1) (fin 0.6) = fin d ∧ 0.99704 < d :=
  C62_mixture (by norm_num) (by norm_num) (by norm_num) (by norm_num)

end Calk
