import Verif.Props.Density
import Mathlib.Analysis.SpecialFunctions.Pow.Real
import Mathlib.Tactic.FieldSimp

/-! # Densities: the published equations (C61, C62) -/

namespace Calk
open Flt

/-! ## C61: the equation of Millero and Poisson (1981) -/

/-- The published table, in kg/m³: power of the temperature (°C), half-power of the salinity,
coefficient. -/
noncomputable def Spec.seawaterTable : List (ℕ × ℕ × ℝ) :=
  [ (0, 0, 999.842594), (1, 0, 0.06793952), (2, 0, -0.00909529), (3, 0, 0.0001001685),
    (4, 0, -0.000001120083), (5, 0, 0.000000006536336),
    (0, 2, 0.824493), (1, 2, -0.0040899), (2, 2, 0.000076438), (3, 2, -0.00000082467),
    (4, 2, 0.0000000053875),
    (0, 3, -0.00572466), (1, 3, 0.00010227), (2, 3, -0.0000016546),
    (0, 4, 0.00048314) ]

/-- density (kg/l) by the table -/
noncomputable def Spec.seawaterDensity (t s : ℝ) : ℝ :=
  (Spec.seawaterTable.map fun e => e.2.2 * t ^ e.1 * s ^ ((e.2.1 : ℝ) / 2)).sum / 1000

/-- **C61**: the density of seawater is given by the published equation. -/
theorem C61_equation {t s : ℝ} (hs : 0 ≤ s) :
    seawater_1atm_MP81 (fin t) (fin s) = fin (Spec.seawaterDensity t s) := by
  rw [seawater_eq hs]
  have h0 : s ^ (((0 : ℕ) : ℝ) / 2) = 1 := by norm_num
  have h2 : s ^ (((2 : ℕ) : ℝ) / 2) = Real.sqrt s ^ 2 := by rw [Real.sq_sqrt hs]; norm_num
  have h3 : s ^ (((3 : ℕ) : ℝ) / 2) = Real.sqrt s ^ 3 := by
    rw [Real.sqrt_eq_rpow, ← Real.rpow_natCast, ← Real.rpow_mul hs]; norm_num
  have h4 : s ^ (((4 : ℕ) : ℝ) / 2) = Real.sqrt s ^ 4 := by
    rw [Real.sqrt_eq_rpow, ← Real.rpow_natCast, ← Real.rpow_mul hs]; norm_num
  congr 1
  unfold Spec.seawaterDensity Spec.seawaterTable mp81
  simp only [List.map_cons, List.map_nil, List.sum_cons, List.sum_nil, h0, h2, h3, h4]
  ring

/-- **C61**: below zero salinity there is no density. -/
theorem C61_negative {t s : ℝ} (hs : s < 0) : seawater_1atm_MP81 (fin t) (fin s) = nan := by
  have h15 : fpow15 (fin s) = nan := by
    show (if s < 0 then _ else _) = _
    rw [if_pos hs]
  unfold seawater_1atm_MP81
  rw [h15]
  simp [fpow_fin]

/-- with the published check value for 5 °C and fresh water, 999.96675 kg/m³ -/
example : ∃ d, seawater_1atm_MP81 (fin 5) (fin 0) = fin d ∧ |d - 0.99996675| ≤ 0.000000005 := by
  refine ⟨_, C61_equation le_rfl, ?_⟩
  unfold Spec.seawaterDensity Spec.seawaterTable
  simp only [List.map_cons, List.map_nil, List.sum_cons, List.sum_nil]
  norm_num [abs_le]

/-! ## C62: titrants -/

/-- apparent molar volumes (ml/mol) of HCl and NaCl at total molality `I` -/
noncomputable def Spec.volumeHCl (I : ℝ) : ℝ := 17.854 + 1.460 * Real.sqrt I - 0.307 * I
noncomputable def Spec.volumeNaCl (I : ℝ) : ℝ := 16.613 + 1.811 * Real.sqrt I + 0.094 * I

/-- mass (g) over volume (ml) of a solution of `a` mol HCl and `b` mol NaCl in 1 kg of water -/
noncomputable def Spec.titrantDensity (a b : ℝ) : ℝ :=
  (1000 + 36.46 * a + 58.44 * b) /
    (1000 / 0.99704 + a * Spec.volumeHCl (a + b) + b * Spec.volumeNaCl (a + b))

theorem volume_pos {a b : ℝ} (ha : 0 ≤ a) (hb : 0 ≤ b) (h : a + b ≤ 10) :
    0 ≤ a * Spec.volumeHCl (a + b) + b * Spec.volumeNaCl (a + b) := by
  have hr : 0 ≤ Real.sqrt (a + b) := Real.sqrt_nonneg _
  unfold Spec.volumeHCl Spec.volumeNaCl
  have h1 : 0 ≤ 17.854 + 1.460 * Real.sqrt (a + b) - 0.307 * (a + b) := by nlinarith
  have h2 : 0 ≤ 16.613 + 1.811 * Real.sqrt (a + b) + 0.094 * (a + b) := by positivity
  positivity

/-- **C62**: the density of an HCl-NaCl titrant is its mass over its volume, the volume being that of
the water and of acid and salt at the total molality. -/
theorem C62_equation {a b : ℝ} (ha : 0 ≤ a) (hb : 0 ≤ b) (hab : 0 < a + b) (h : a + b ≤ 10) :
    HCl_NaCl_25C_DSC07 (fin a) (fin b) = fin (Spec.titrantDensity a b) := by
  have hv := volume_pos ha hb h
  have e1 : (36.46 * a + 58.44 * b) / (a + b) * (a + b) = 36.46 * a + 58.44 * b :=
    div_mul_cancel₀ _ hab.ne'
  have e2 : (a * Spec.volumeHCl (a + b) + b * Spec.volumeNaCl (a + b)) / (a + b) * (a + b)
      = a * Spec.volumeHCl (a + b) + b * Spec.volumeNaCl (a + b) := div_mul_cancel₀ _ hab.ne'
  have hd : 0 < 1e3 + (a * Spec.volumeHCl (a + b) + b * Spec.volumeNaCl (a + b)) * 0.99704 := by
    positivity
  unfold HCl_NaCl_25C_DSC07
  simp only [add_fin, sub_fin, mul_fin, sqrt_fin _ hab.le, div_fin _ _ hab.ne']
  rw [e1]
  have e3 : (a * (17.854 + 1.460 * Real.sqrt (a + b) - 0.307 * (a + b))
      + b * (16.613 + 1.811 * Real.sqrt (a + b) + 0.094 * (a + b))) / (a + b) * (a + b)
      = a * Spec.volumeHCl (a + b) + b * Spec.volumeNaCl (a + b) := e2
  rw [e3, div_fin _ _ hd.ne']
  congr 1
  unfold Spec.titrantDensity
  have hd' : 0 < 1000 / 0.99704 + a * Spec.volumeHCl (a + b) + b * Spec.volumeNaCl (a + b) := by
    have : (0 : ℝ) < 1000 / 0.99704 := by norm_num
    linarith
  rw [div_eq_div_iff hd.ne' hd'.ne']
  ring

/-- what `x` mol more do to the volume of acid and salt -/
theorem volume_step {I J : ℝ} (hI : 0 ≤ I) (hIJ : I ≤ J) (hJ : J ≤ 2) {y : ℝ} (hy0 : 0 ≤ y) (hy : y ≤ I) :
    J * Real.sqrt J - I * Real.sqrt I ≤ 2.25 * (J - I) ∧
    y * (Real.sqrt J - Real.sqrt I) ≤ 0.75 * (J - I) ∧ 0 ≤ y * (Real.sqrt J - Real.sqrt I) := by
  set u := Real.sqrt I with hu
  set v := Real.sqrt J with hv
  have hu0 : 0 ≤ u := Real.sqrt_nonneg _
  have huv : u ≤ v := Real.sqrt_le_sqrt hIJ
  have eI : I = u ^ 2 := (Real.sq_sqrt hI).symm
  have eJ : J = v ^ 2 := (Real.sq_sqrt (hI.trans hIJ)).symm
  have hv1 : v ≤ 1.5 := by
    rw [hv, Real.sqrt_le_left (by norm_num)]; linarith
  rw [eI, eJ]
  rw [eI] at hy
  have hd : 0 ≤ v - u := by linarith
  refine ⟨?_, ?_, mul_nonneg hy0 hd⟩
  · have h1 : v ^ 2 + u * v + u ^ 2 ≤ 1.5 * v * (v + u) := by nlinarith
    have h2 : (v - u) * (v ^ 2 + u * v + u ^ 2) ≤ (v - u) * (1.5 * v * (v + u)) :=
      mul_le_mul_of_nonneg_left h1 hd
    have h3 : (v - u) * (1.5 * v * (v + u)) ≤ (v - u) * (2.25 * (v + u)) := by
      apply mul_le_mul_of_nonneg_left _ hd
      nlinarith
    nlinarith
  · have h1 : y * (v - u) ≤ u ^ 2 * (v - u) := mul_le_mul_of_nonneg_right hy hd
    have h2 : u ^ 2 * (v - u) ≤ 0.75 * (v + u) * (v - u) := by
      apply mul_le_mul_of_nonneg_right _ hd
      nlinarith
    nlinarith

theorem denser_of {N D N' D' x k L : ℝ} (hx : 0 < x) (hD : 1000 ≤ D) (hN : N < 1200) (hN0 : 0 < N)
    (eN : N' = N + k * x) (hk : 36 ≤ k) (eD : D' - D ≤ L * x) (hL : L ≤ 30) (hD' : 0 < D') :
    N / D < N' / D' := by
  have hDp : 0 < D := by linarith
  rw [div_lt_div_iff₀ hDp hD', eN]
  have h1 : N * D' ≤ N * (D + 30 * x) := by
    apply mul_le_mul_of_nonneg_left _ hN0.le
    nlinarith
  have h2 : k * x * D ≥ 36 * x * 1000 := by
    have : 36 * x ≤ k * x := mul_le_mul_of_nonneg_right hk hx.le
    exact mul_le_mul this hD (by norm_num) (by positivity)
  have h3 : N * (30 * x) < 36 * x * 1000 := by
    have := mul_lt_mul_of_pos_right hN (show 0 < 30 * x by positivity)
    linarith
  nlinarith

/-- **C62**: up to 2 mol/kg in total, more acid or more salt makes the titrant denser. -/
theorem C62_denser {a b a' b' : ℝ} (ha : 0 ≤ a) (hb : 0 ≤ b) (haa : a ≤ a') (hbb : b ≤ b')
    (hne : a + b < a' + b') (hab : 0 < a + b) (h : a' + b' ≤ 2) :
    (HCl_NaCl_25C_DSC07 (fin a) (fin b)).lt (HCl_NaCl_25C_DSC07 (fin a') (fin b')) = true := by
  have stepA : ∀ {a a' b : ℝ}, 0 ≤ a → 0 ≤ b → a < a' → a' + b ≤ 2 →
      Spec.titrantDensity a b < Spec.titrantDensity a' b := by
    intro a a' b ha hb haa h
    have hv := volume_pos ha hb (by linarith)
    have hv' := volume_pos (ha.trans haa.le) hb (by linarith : a' + b ≤ 10)
    have hw : (1000 : ℝ) ≤ 1000 / 0.99704 := by norm_num
    obtain ⟨s1, s2, s3⟩ := volume_step (I := a + b) (J := a' + b) (by linarith) (by linarith) h hb
      (by linarith)
    refine denser_of (x := a' - a) (k := 36.46) (L := 24) (by linarith) (by linarith) (by linarith)
      (by linarith) (by ring) (by norm_num) ?_ (by norm_num) (by linarith)
    have e : a' * Spec.volumeHCl (a' + b) + b * Spec.volumeNaCl (a' + b)
        - (a * Spec.volumeHCl (a + b) + b * Spec.volumeNaCl (a + b))
        = 17.854 * (a' - a) + 1.460 * ((a' + b) * Real.sqrt (a' + b) - (a + b) * Real.sqrt (a + b))
          + 0.351 * (b * (Real.sqrt (a' + b) - Real.sqrt (a + b)))
          - 0.307 * (a' * (a' + b) - a * (a + b)) + 0.094 * (b * (a' - a)) := by
      unfold Spec.volumeHCl Spec.volumeNaCl; ring
    have m1 : 0 ≤ a' * (a' + b) - a * (a + b) := by nlinarith
    have m2 : b * (a' - a) ≤ 2 * (a' - a) := by nlinarith
    linarith
  have stepB : ∀ {a b b' : ℝ}, 0 ≤ a → 0 ≤ b → b < b' → a + b' ≤ 2 →
      Spec.titrantDensity a b < Spec.titrantDensity a b' := by
    intro a b b' ha hb hbb h
    have hv := volume_pos ha hb (by linarith)
    have hv' := volume_pos ha (hb.trans hbb.le) (by linarith : a + b' ≤ 10)
    have hw : (1000 : ℝ) ≤ 1000 / 0.99704 := by norm_num
    obtain ⟨s1, s2, s3⟩ := volume_step (I := a + b) (J := a + b') (by linarith) (by linarith) h ha
      (by linarith)
    refine denser_of (x := b' - b) (k := 58.44) (L := 24) (by linarith) (by linarith) (by linarith)
      (by linarith) (by ring) (by norm_num) ?_ (by norm_num) (by linarith)
    have e : a * Spec.volumeHCl (a + b') + b' * Spec.volumeNaCl (a + b')
        - (a * Spec.volumeHCl (a + b) + b * Spec.volumeNaCl (a + b))
        = 16.613 * (b' - b) + 1.811 * ((a + b') * Real.sqrt (a + b') - (a + b) * Real.sqrt (a + b))
          - 0.351 * (a * (Real.sqrt (a + b') - Real.sqrt (a + b)))
          - 0.307 * (a * (b' - b)) + 0.094 * (b' * (a + b') - b * (a + b)) := by
      unfold Spec.volumeHCl Spec.volumeNaCl; ring
    have m1 : 0 ≤ a * (b' - b) := mul_nonneg ha (by linarith)
    have m2 : b' * (a + b') - b * (a + b) ≤ 4 * (b' - b) := by nlinarith
    linarith
  rw [C62_equation ha hb hab (by linarith),
    C62_equation (ha.trans haa) (hb.trans hbb) (by linarith) (by linarith)]
  have : Spec.titrantDensity a b < Spec.titrantDensity a' b' := by
    rcases haa.lt_or_eq with haa | rfl
    · refine (stepA ha hb haa (by linarith)).trans_le ?_
      rcases hbb.lt_or_eq with hbb | rfl
      · exact (stepB (ha.trans haa.le) hb hbb h).le
      · exact le_rfl
    · exact stepB ha hb (by linarith) h
  simp [this]

example : (HCl_NaCl_25C_DSC07 (fin 0.1) (fin 0.6)).lt (HCl_NaCl_25C_DSC07 (fin 0.2) (fin 0.6)) = true :=
  C62_denser (by norm_num) (by norm_num) (by norm_num) le_rfl (by norm_num) (by norm_num) (by norm_num)

/-- **C62**: the density of sulfuric acid is the published quadratic in its molinity, written around
the middle of its range: 1.0851 kg/l at 1.525 mol/kg, rising there by 0.0531 per mol/kg. -/
theorem C62_quadratic (m : ℝ) : H2SO4_25C_EAIM (fin m) = fin (1.08513346968125
    + 0.0531107145 * (m - 1.525) - 0.00285491 * (m - 1.525) ^ 2) := by
  unfold H2SO4_25C_EAIM
  simp only [fpow_fin, mul_fin, add_fin, sub_fin]
  congr 1
  ring

end Calk
