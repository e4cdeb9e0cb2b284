import Verif.Lemmas.RoundedAlk
import Verif.Lemmas.SolveEmf
import Mathlib.Analysis.Complex.ExponentialBounds
import Mathlib.Algebra.Order.Ring.Pow

/-! Helper lemmas: rounding in the EMF-mode residuals. -/

namespace Calk
open Flt Spec

section real
variable {u : ℝ}

theorem exp_le_round (hu1 : u < 1) : Real.exp u ≤ 1 / (1 - u) := by
  have h := Real.add_one_le_exp (-u)
  have hp : 0 < 1 - u := by linarith
  rw [le_div_iff₀ hp]
  calc Real.exp u * (1 - u) ≤ Real.exp u * Real.exp (-u) :=
        mul_le_mul_of_nonneg_left (by linarith) (Real.exp_pos _).le
    _ = 1 := by rw [← Real.exp_add]; simp

/-- an absolute error in an exponent is a relative error of the power -/
theorem rel_exp (hu0 : 0 ≤ u) (hu1 : u < 1) {s t : ℝ} {k : ℕ} (h : |s - t| ≤ u * k) :
    Rel (1 / (1 - u)) k (Real.exp s) (Real.exp t) := by
  have hq : Real.exp (u * k) ≤ (1 / (1 - u)) ^ k := by
    rw [mul_comm, Real.exp_nat_mul]
    exact pow_le_pow_left₀ (Real.exp_pos _).le (exp_le_round hu1) k
  obtain ⟨h1, h2⟩ := abs_le.mp h
  refine ⟨Real.exp_pos _, ?_, ?_⟩
  · calc Real.exp t ≤ Real.exp (u * k + s) := Real.exp_le_exp.mpr (by linarith)
      _ = Real.exp (u * k) * Real.exp s := Real.exp_add _ _
      _ ≤ _ := mul_le_mul_of_nonneg_right hq (Real.exp_pos _).le
  · calc Real.exp s ≤ Real.exp (u * k + t) := Real.exp_le_exp.mpr (by linarith)
      _ = Real.exp (u * k) * Real.exp t := Real.exp_add _ _
      _ ≤ _ := mul_le_mul_of_nonneg_right hq (Real.exp_pos _).le

/-- a relative error is an absolute error of the logarithm -/
theorem log_rel {Q : ℝ} (hQ : 1 ≤ Q) {k : ℕ} {x y : ℝ} (h : Rel Q k y x) :
    |Real.log y - Real.log x| ≤ k * (Q - 1) := by
  have hy := h.pos' hQ
  have hx := h.pos
  have hQ0 : 0 < Q := by linarith
  have hl : Real.log (Q ^ k) ≤ k * (Q - 1) := by
    rw [Real.log_pow]
    exact mul_le_mul_of_nonneg_left (Real.log_le_sub_one_of_pos hQ0) (Nat.cast_nonneg k)
  have h1 := Real.log_le_log hx h.lo
  have h2 := Real.log_le_log hy h.hi
  rw [Real.log_mul (by positivity) hy.ne'] at h1
  rw [Real.log_mul (by positivity) hx.ne'] at h2
  rw [abs_le]
  constructor <;> linarith

end real

/-- The arithmetic is accurate, and so are exponentials and logarithms: to within `e` roundings. -/
structure AccurateExp (F : Arith) (u : ℝ) (e : ℕ) : Prop extends Accurate F u e where
  exp : ∀ x : ℝ, ∃ y : ℝ, F.exp (fin x) = fin y ∧ Rel (1 / (1 - u)) e y (Real.exp x)
  log10 : ∀ x : ℝ, 0 < x → ∃ y : ℝ, F.log10 (fin x) = fin y ∧
    Err (1 / (1 - u)) e |Real.logb 10 x| y (Real.logb 10 x)

theorem Accurate.mono {F : Arith} {u : ℝ} {e l : ℕ} (hF : Accurate F u e) (h : e ≤ l) :
    Accurate F u l where
  u0 := hF.u0
  u1 := hF.u1
  rnd := hF.rnd
  pow10 x := by obtain ⟨y, h1, h2⟩ := hF.pow10 x; exact ⟨y, h1, h2.mono hF.one_le h⟩
  pow x hx n := by obtain ⟨y, h1, h2⟩ := hF.pow x hx n; exact ⟨y, h1, h2.mono hF.one_le h⟩
  sum := hF.sum

theorem AccurateExp.mono {F : Arith} {u : ℝ} {e l : ℕ} (hF : AccurateExp F u e) (h : e ≤ l) :
    AccurateExp F u l where
  toAccurate := hF.toAccurate.mono h
  exp x := by obtain ⟨y, h1, h2⟩ := hF.exp x; exact ⟨y, h1, h2.mono hF.one_le h⟩
  log10 x hx := by
    obtain ⟨y, h1, h2⟩ := hF.log10 x hx
    exact ⟨y, h1, h2.mono hF.one_le h le_rfl⟩

section
variable {F : Arith} {u : ℝ} {e : ℕ}

theorem Accurate.frel_rnd (hF : Accurate F u e) {x : ℝ} (hx : 0 < x) :
    FRel (1 / (1 - u)) 1 (F.rnd (fin x)) x := by
  obtain ⟨z, hz, hzu⟩ := hF.rnd x
  exact ⟨z, hz, (Rel.refl hx).round hF.one_le hF.inv hzu⟩

theorem Accurate.frel_add_nonneg (hF : Accurate F u e) {k : ℕ} {x a : ℝ} {v : Flt} (hx : 0 ≤ x)
    (h : FRel (1 / (1 - u)) k v a) : FRel (1 / (1 - u)) (k + 1) (F.add (fin x) v) (x + a) := by
  obtain ⟨b, rfl, hb⟩ := h
  obtain ⟨z, hz, hzu⟩ := hF.rnd (x + b)
  have hq : (1:ℝ) ≤ (1 / (1 - u)) ^ k := one_le_pow₀ hF.one_le
  refine ⟨z, by simp only [Arith.add, add_fin, hz], Rel.round hF.one_le hF.inv ?_ hzu⟩
  refine ⟨add_pos_of_nonneg_of_pos hx hb.pos, ?_, ?_⟩
  · have := hb.lo; nlinarith
  · have := hb.hi; nlinarith

variable (hF : AccurateExp F u e)
include hF

/-- the acidity read from an electrode -/
theorem emf_to_hF_near {E v t b : ℝ} (ht : 0 ≤ t) {k₁ : ℕ}
    (hb : |(v - E) / (8.3144621 * (t + 273.15) / 96.4853365)| ≤ b)
    (hk : ((1 / (1 - u)) ^ 8 - 1) * b ≤ u * k₁) :
    FRel (1 / (1 - u)) (e + k₁) (emf_to_hF F (fin v) (fin E) (fin t))
      (Real.exp ((v - E) / (8.3144621 * (t + 273.15) / 96.4853365))) := by
  have hK : FRel (1 / (1 - u)) 2 (F.add (fin t) (F.rnd (fin absolute_zero))) (t + 273.15) :=
    hF.frel_add_nonneg ht (hF.frel_rnd (by norm_num [absolute_zero]))
  have hR : FRel (1 / (1 - u)) 1 (F.rnd (fin ideal_gas)) 8.3144621 :=
    hF.frel_rnd (by norm_num [ideal_gas])
  have hf : FRel (1 / (1 - u)) 1 (F.rnd (fin faraday)) 96.4853365 :=
    hF.frel_rnd (by norm_num [faraday])
  have hd' : FErr (1 / (1 - u)) 1 |v - E| (F.sub (fin v) (fin E)) (v - E) := by
    obtain ⟨z, hz, hzu⟩ := hF.rnd (v - E)
    exact ⟨z, by simp only [Arith.sub, sub_fin, hz],
      (Err.refl (v - E)).round hF.one_le hF.u0 hF.inv hzu⟩
  have g := hF.ferr_div (hF.ferr_mul hd' (hF.frel_err hf)) (hF.frel_mul hR hK)
  obtain ⟨s, hs, hse⟩ := g
  have e1 : (v - E) / (8.3144621 * (t + 273.15) / 96.4853365)
      = (v - E) * 96.4853365 / (8.3144621 * (t + 273.15)) := by
    rw [div_div_eq_mul_div]
  have hpos : (0:ℝ) < 8.3144621 * (t + 273.15) := by positivity
  have e2 : |v - E| * 96.4853365 / (8.3144621 * (t + 273.15))
      = |(v - E) / (8.3144621 * (t + 273.15) / 96.4853365)| := by
    rw [e1, abs_div, abs_mul, abs_of_pos hpos, abs_of_pos (by norm_num : (0:ℝ) < 96.4853365)]
  have herr : |s - (v - E) / (8.3144621 * (t + 273.15) / 96.4853365)| ≤ u * k₁ := by
    have h1 := hse.err
    rw [e2] at h1
    rw [e1] at h1 hb ⊢
    refine h1.trans (le_trans ?_ hk)
    have h2 : (1:ℝ) ≤ (1 / (1 - u)) ^ 8 := one_le_pow₀ hF.one_le
    exact mul_le_mul_of_nonneg_left hb (by linarith)
  obtain ⟨y, hy, hyr⟩ := hF.exp s
  refine ⟨y, ?_, hyr.trans hF.one_le (rel_exp hF.u0 hF.u1 herr)⟩
  rw [← hy, ← hs]
  rfl

/-- the acidity that is used after going through pH -/
theorem emf_to_pHF_near {E v t b : ℝ} (ht : 0 ≤ t) {k₁ k₂ : ℕ}
    (hb : |(v - E) / (8.3144621 * (t + 273.15) / 96.4853365)| ≤ b)
    (hk : ((1 / (1 - u)) ^ 8 - 1) * b ≤ u * k₁)
    (hk' : ((1 / (1 - u)) ^ e - 1) * (b + (e + k₁ : ℕ) * (1 / (1 - u) - 1)) ≤ u * k₂) :
    FRel (1 / (1 - u)) (e + k₂ + (e + k₁)) (F.pow10 (-emf_to_pHF F (fin v) (fin E) (fin t)))
      (Real.exp ((v - E) / (8.3144621 * (t + 273.15) / 96.4853365))) := by
  obtain ⟨y, hy, hyr⟩ := emf_to_hF_near hF ht hb hk
  have hy0 := hyr.pos' hF.one_le
  obtain ⟨z, hz, hzr⟩ := hF.log10 y hy0
  obtain ⟨w, hw, hwr⟩ := hF.pow10 z
  have hl10 : (0:ℝ) < Real.log 10 := Real.log_pos (by norm_num)
  have hly := log_rel hF.one_le hyr
  rw [Real.log_exp] at hly
  have hb' : |Real.log y| ≤ b + (e + k₁ : ℕ) * (1 / (1 - u) - 1) := by
    have := abs_sub_abs_le_abs_sub (Real.log y) ((v - E) / (8.3144621 * (t + 273.15) / 96.4853365))
    linarith
  have hpow : ∀ x : ℝ, (10:ℝ) ^ x = Real.exp (x * Real.log 10) := fun x => by
    rw [Real.rpow_def_of_pos (by norm_num), mul_comm]
  have hyl : Real.logb 10 y * Real.log 10 = Real.log y := by
    rw [Real.logb]; field_simp
  have herr : |z * Real.log 10 - Real.log y| ≤ u * k₂ := by
    have h1 := mul_le_mul_of_nonneg_right hzr.err hl10.le
    rw [← abs_of_pos hl10, ← abs_mul, mul_assoc, ← abs_mul, sub_mul, hyl] at h1
    refine h1.trans (le_trans ?_ hk')
    have h2 : (1:ℝ) ≤ (1 / (1 - u)) ^ e := one_le_pow₀ hF.one_le
    exact mul_le_mul_of_nonneg_left hb' (by linarith)
  rw [hpow] at hwr
  have hr := rel_exp hF.u0 hF.u1 herr
  rw [Real.exp_log hy0] at hr
  refine ⟨w, ?_, (hwr.trans hF.one_le hr).trans hF.one_le hyr⟩
  rw [← hw]
  simp only [emf_to_pHF, hy, hz, neg_fin, neg_neg]

/-- what is fitted at a point `(mass, EMF, temperature)`: alkalinity of the solution at the acidity
read, less what is left after dilution and addition of acid -/
noncomputable def Spec.solMisfit (s : Sol) (c n M A E : ℝ) (p : ℝ × ℝ × ℝ) : ℝ :=
  s.alk 3 (Real.exp ((p.2.1 - E) / (8.3144621 * (p.2.2 + 273.15) / 96.4853365)))
    - (A * M - p.1 * c * n) / (p.1 + M)

/-- size of the terms that make up a misfit: everything counted positively -/
noncomputable def Spec.solMisfitSize (s : Sol) (c n M A E : ℝ) (p : ℝ × ℝ × ℝ) : ℝ :=
  s.size (Real.exp ((p.2.1 - E) / (8.3144621 * (p.2.2 + 273.15) / 96.4853365)))
    + (|A| * M + |p.1 * c * n|) / (p.1 + M)

theorem residF_near {k : ℕ} {c n M A m a s : ℝ} {v : Flt} (hk : 3 ≤ k) (hM : 0 < M)
    (hm : 0 ≤ m) (hv : FErr (1 / (1 - u)) k s v a) :
    FErr (1 / (1 - u)) (k + 2) (s + (|A| * M + |m * c * n|) / (m + M))
      (F.add (F.sub v (F.mul (fin A) (F.div (fin M) (F.add (fin m) (fin M)))))
        (F.div (F.mul (F.mul (fin m) (fin c)) (fin n)) (F.add (fin m) (fin M))))
      (a - (A * M - m * c * n) / (m + M)) := by
  have hmM : 0 < m + M := by linarith
  have gs : FRel (1 / (1 - u)) 1 (F.add (fin m) (fin M)) (m + M) := by
    obtain ⟨z, hz, hzu⟩ := hF.rnd (m + M)
    exact ⟨z, by simp only [Arith.add, add_fin, hz], (Rel.refl hmM).round hF.one_le hF.inv hzu⟩
  have g1 := hF.ferr_mul (ferr_fin (Q := 1 / (1 - u)) A) (hF.frel_err (hF.frel_div (frel_fin hM) gs))
  have g2 := hF.ferr_div (hF.ferr_mul (hF.ferr_mul (ferr_nonneg hm) (ferr_fin c)) (ferr_fin n)) gs
  have g3 := hF.ferr_add (hF.ferr_sub hv g1) g2
  have g4 := hF.ferr_mono g3 (l := k + 2) (by omega) le_rfl
  have e1 : a - (A * M - m * c * n) / (m + M) = a - A * (M / (m + M)) + m * c * n / (m + M) := by
    field_simp; ring
  have e2 : s + (|A| * M + |m * c * n|) / (m + M)
      = s + |A| * (M / (m + M)) + m * |c| * |n| / (m + M) := by
    rw [abs_mul, abs_mul, abs_of_nonneg hm]; field_simp; ring
  rw [e1, e2]
  exact g4

omit hF in
theorem alkalinity_fromF_near (hF : Accurate F u e) {totals ks : Dict NpVal} {pv : List Flt} {hs : List ℝ}
    (hp : List.Forall₂ (fun p h => FRel (1 / (1 - u)) e (F.pow10 (-p)) h) pv hs) {i N : ℕ}
    (hN : i + hs.length ≤ N) (hv : ValidRows totals ks N) (hk : HasKsN totals ks 3)
    (hside : ∀ i < N, ∀ k ∈ ["k_alpha", "k_beta"], ∀ K : ℝ, (rowAt ks i).get? k = some (fin K) →
      (-(F.log10 (fin K))).le (fin zlp) = (-(Flt.log10 (fin K))).le (fin zlp)) :
    ∃ vs, alkalinity_fromF F totals ks 3 i pv = .ok vs ∧
      List.Forall₂ (fun v (hi : ℝ × ℕ) => FErr (1 / (1 - u)) (termDepth e + 16)
        ((Sol.of (rowAt totals hi.2) (rowAt ks hi.2)).size hi.1) v
        ((Sol.of (rowAt totals hi.2) (rowAt ks hi.2)).alk 3 hi.1)) vs (hs.zipIdx i) := by
  induction hp generalizing i with
  | nil => exact ⟨[], rfl, by simp⟩
  | @cons p h ps hs hp1 hp2 ih =>
    simp only [List.length_cons] at hN
    obtain ⟨vs, h1, h2⟩ := ih (i := i + 1) (by omega)
    have hi : i < N := by omega
    obtain ⟨v, h3, h4⟩ := alkalinityF_near hF hp1 (hv i hi).1 (hv i hi).2 (scale := 3) (by simp)
      (hasKs_rowAt.mpr hk) (hside i hi) rfl
    refine ⟨v :: vs, ?_, ?_⟩
    · simp only [alkalinity_fromF, h3, h1, bind_ok]; rfl
    · simp only [List.zipIdx_cons]
      exact .cons h4 h2

/-- Rounding in the alkalinity of the points of an EMF solve. -/
theorem alkalinity_emfF_near {totals ks : Dict NpVal} {pts : List (ℝ × ℝ × ℝ)} {E b : ℝ} {k₁ k₂ : ℕ}
    (hne : pts ≠ []) (hT : ∀ p ∈ pts, 0 ≤ p.2.2)
    (hv : ValidRows totals ks pts.length) (hk : HasKsN totals ks 3)
    (hft : dictFits pts.length totals = true) (hfk : dictFits pts.length ks = true)
    (hside : ∀ i < pts.length, ∀ k ∈ ["k_alpha", "k_beta"], ∀ K : ℝ, (rowAt ks i).get? k = some (fin K) →
      (-(F.log10 (fin K))).le (fin zlp) = (-(Flt.log10 (fin K))).le (fin zlp))
    (hb : ∀ p ∈ pts, |(p.2.1 - E) / (8.3144621 * (p.2.2 + 273.15) / 96.4853365)| ≤ b)
    (hk₁ : ((1 / (1 - u)) ^ 8 - 1) * b ≤ u * k₁)
    (hk₂ : ((1 / (1 - u)) ^ e - 1) * (b + (e + k₁ : ℕ) * (1 / (1 - u) - 1)) ≤ u * k₂) :
    ∃ vs, alkalinity_arrF F (emf_to_pH_arrF F (pts.map fun p => fin p.2.1) (fin E)
        (pts.map fun p => fin p.2.2)) totals ks 3 = .ok vs ∧
      List.Forall₂ (fun v (hi : ℝ × ℕ) => FErr (1 / (1 - u)) (termDepth (e + k₂ + (e + k₁)) + 16)
        ((Sol.of (rowAt totals hi.2) (rowAt ks hi.2)).size hi.1) v
        ((Sol.of (rowAt totals hi.2) (rowAt ks hi.2)).alk 3 hi.1)) vs
        (pts.map fun p => Real.exp ((p.2.1 - E) / (8.3144621 * (p.2.2 + 273.15) / 96.4853365))).zipIdx := by
  have hF' : Accurate F u (e + k₂ + (e + k₁)) := hF.toAccurate.mono (by omega)
  have h0 : 0 < pts.length := List.length_pos_iff.mpr hne
  have hp : List.Forall₂ (fun p h => FRel (1 / (1 - u)) (e + k₂ + (e + k₁)) (F.pow10 (-p)) h)
      (emf_to_pH_arrF F (pts.map fun p => fin p.2.1) (fin E) (pts.map fun p => fin p.2.2))
      (pts.map fun p => Real.exp ((p.2.1 - E) / (8.3144621 * (p.2.2 + 273.15) / 96.4853365))) := by
    unfold emf_to_pH_arrF
    rw [List.zipWith_map_left, List.zipWith_map_right, List.zipWith_self]
    rw [List.forall₂_map_left_iff, List.forall₂_map_right_iff]
    exact List.forall₂_same.mpr fun p hp => emf_to_pHF_near hF (hT p hp) (hb p hp) hk₁ hk₂
  obtain ⟨vs, h1, h2⟩ := alkalinity_fromF_near hF' hp (i := 0) (N := pts.length) (by simp) hv hk hside
  obtain ⟨v7, h7, -⟩ := alkalinityF_spec hF' (hv 0 h0).1 (hv 0 h0).2 (scale := 3) (by simp)
      (hasKs_rowAt.mpr hk) (hside 0 h0) 7
  have hlen : (emf_to_pH_arrF F (pts.map fun p => fin p.2.1) (fin E) (pts.map fun p => fin p.2.2)).length
      = pts.length := by simp [emf_to_pH_arrF]
  have harr : alkalinity_arrF F (emf_to_pH_arrF F (pts.map fun p => fin p.2.1) (fin E)
      (pts.map fun p => fin p.2.2)) totals ks 3 = .ok vs := by
    simp only [alkalinity_arrF, h7, bind_ok, hlen, hft, hfk, h1]
    rfl
  exact ⟨vs, harr, h2⟩

/-- Rounding in the residuals of an EMF solve. -/
theorem lsqfun_emfF_near {totals ks : Dict NpVal} {pts : List (ℝ × ℝ × ℝ)} {c n M A E b : ℝ} {k₁ k₂ : ℕ}
    (hne : pts ≠ []) (hM : 0 < M) (hm : ∀ p ∈ pts, 0 ≤ p.1) (hT : ∀ p ∈ pts, 0 ≤ p.2.2)
    (hv : ValidRows totals ks pts.length) (hk : HasKsN totals ks 3)
    (hft : dictFits pts.length totals = true) (hfk : dictFits pts.length ks = true)
    (hside : ∀ i < pts.length, ∀ k ∈ ["k_alpha", "k_beta"], ∀ K : ℝ, (rowAt ks i).get? k = some (fin K) →
      (-(F.log10 (fin K))).le (fin zlp) = (-(Flt.log10 (fin K))).le (fin zlp))
    (hb : ∀ p ∈ pts, |(p.2.1 - E) / (8.3144621 * (p.2.2 + 273.15) / 96.4853365)| ≤ b)
    (hk₁ : ((1 / (1 - u)) ^ 8 - 1) * b ≤ u * k₁)
    (hk₂ : ((1 / (1 - u)) ^ e - 1) * (b + (e + k₁ : ℕ) * (1 / (1 - u) - 1)) ≤ u * k₂) :
    ∃ vs, lsqfun_solve_emfF F (fin c) (pts.map fun p => fin p.1) (pts.map fun p => fin p.2.1)
        (pts.map fun p => fin p.2.2) (fin M) totals ks (fin n) (fin A, fin E) = .ok vs ∧
      List.Forall₂ (fun v (pi : (ℝ × ℝ × ℝ) × ℕ) =>
        FErr (1 / (1 - u)) (termDepth (e + k₂ + (e + k₁)) + 18)
          (solMisfitSize (Sol.of (rowAt totals pi.2) (rowAt ks pi.2)) c n M A E pi.1) v
          (solMisfit (Sol.of (rowAt totals pi.2) (rowAt ks pi.2)) c n M A E pi.1)) vs pts.zipIdx := by
  obtain ⟨vs, harr, h2⟩ := alkalinity_emfF_near hF hne hT hv hk hft hfk hside hb hk₁ hk₂
  refine ⟨_, by simp only [lsqfun_solve_emfF, harr, bind_ok]; rfl, ?_⟩
  have hvl : vs.length = pts.length := by
    have := h2.length_eq; simpa using this
  rw [List.forall₂_iff_get] at h2 ⊢
  refine ⟨by simp [hvl], ?_⟩
  intro i hi hi'
  have hip : i < pts.length := by simpa using hi'
  have := h2.2 i (by omega) (by simpa using hip)
  simp only [List.get_eq_getElem, List.getElem_zipIdx, List.getElem_map, Nat.zero_add,
    List.getElem_zipWith] at this ⊢
  exact residF_near hF (by unfold termDepth; omega) hM (hm _ (List.getElem_mem hip)) this

end
end Calk
