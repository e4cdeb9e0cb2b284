import Verif.Model.Loss
import Verif.Lemmas.Np
import Mathlib.Tactic.Linarith
import Mathlib.Tactic.Positivity
import Mathlib.Tactic.FieldSimp
import Mathlib.Tactic.Ring
import Mathlib.Tactic.NormNum
import Mathlib.Tactic.LinearCombination

/-! # DIC loss (C66-C68) -/

namespace Calk
open Flt

/-! ## Spec: the loss model over the reals -/

namespace Spec

/-- DIC (µmol/kg) through equal titrant steps `s`: at each step the sample is diluted by the titrant
and loses CO2 in proportion to the excess of its fCO2 over the air's.  `steps` lists, for each step,
the titrant mass before it and the excess fCO2 there. -/
noncomputable def dicLoss (k M s : ℝ) : ℝ → List (ℝ × ℝ) → List ℝ
  | dic, [] => [dic]
  | dic, (m, d) :: steps =>
    dic :: dicLoss k M s (dic * ((M + m) / (M + m + s)) - k * d * s) steps

/-- sum of squares -/
noncomputable def ssq (xs : List ℝ) : ℝ := (xs.map fun x => x ^ 2).sum

end Spec

/-- The steps described by the two arrays handed to the fitted model: every entry but the last of
`deltas`, with the mass at the same place. -/
def stepsOf (masses deltas : List ℝ) : List (ℝ × ℝ) := masses.zip deltas.dropLast

theorem dilution_fin {M m s : ℝ} (h : M + m + s ≠ 0) :
    get_dilution_factor (fin s) (fin M + fin m) = fin ((M + m) / (M + m + s)) := by
  unfold get_dilution_factor
  rw [add_fin, add_fin, div_fin _ _ (by rw [add_comm]; exact h)]
  rw [add_comm s (M + m)]

theorem loss_fill_eq (k M s : ℝ) (dic : ℝ) (masses deltas : List ℝ)
    (hlen : deltas.length ≤ masses.length + 1) (hd : deltas ≠ [])
    (hM : ∀ m ∈ masses, M + m + s ≠ 0) :
    loss_fill (fin k) (fin M) (fin s) (fin dic) (masses.map fin) (deltas.map fin) =
      .ok ((Spec.dicLoss k M s dic (stepsOf masses deltas)).map fin) := by
  induction masses generalizing dic deltas with
  | nil =>
    match deltas, hd, hlen with
    | [d], _, _ => rfl
    | _ :: _ :: _, _, h => simp at h
  | cons m masses ih =>
    match deltas, hd, hlen with
    | [d], _, _ => simp [loss_fill, stepsOf, Spec.dicLoss]
    | d :: d' :: ds, _, h =>
      have h1 := ih (dic * ((M + m) / (M + m + s)) - k * d * s) (d' :: ds) (by simpa using h)
        (by simp) (fun m' hm' => hM m' (List.mem_cons_of_mem _ hm'))
      simp only [List.map_cons, loss_fill, loss_step]
      rw [dilution_fin (hM m List.mem_cons_self)]
      simp only [mul_fin, sub_fin]
      simp only [List.map_cons] at h1
      rw [h1]
      simp [bind_ok, pure_ok, stepsOf, Spec.dicLoss]

/-- The fitted model computes the step model (finite data, enough masses). -/
theorem fitted_eq (k M s dic : ℝ) (masses deltas : List ℝ)
    (hlen : deltas.length ≤ masses.length + 1) (hd : deltas ≠ [])
    (hM : ∀ m ∈ masses, M + m + s ≠ 0) :
    dic_loss_model_fitted (fin k) (masses.map fin) (deltas.map fin) (fin dic) (fin M) (fin s) =
      .ok ((Spec.dicLoss k M s (dic * 1e6) (stepsOf masses deltas)).map fin) := by
  unfold dic_loss_model_fitted
  rw [mul_fin]
  exact loss_fill_eq k M s (dic * 1e6) masses deltas hlen hd hM

/-! ## C66: dilution only -/

/-- masses `m0, m0 + s, m0 + 2s, ...` -/
noncomputable def evenMasses (m0 s : ℝ) (n : ℕ) : List ℝ := (List.range n).map fun i : ℕ => m0 + i * s

theorem evenMasses_succ (m0 s : ℝ) (n : ℕ) :
    evenMasses m0 s (n + 1) = m0 :: evenMasses (m0 + s) s n := by
  unfold evenMasses
  rw [List.range_succ_eq_map]
  simp only [List.map_cons, List.map_map, Nat.cast_zero, zero_mul, add_zero, List.cons.injEq,
    true_and]
  refine List.map_congr_left fun i _ => ?_
  simp only [Function.comp_apply, Nat.cast_succ]; ring

theorem dicLoss_none (k M s : ℝ) (hs : 0 ≤ s) (ds : List ℝ) (hk : k = 0 ∨ ∀ d ∈ ds, d = 0) :
    ∀ (dic m0 : ℝ), 0 < M + m0 →
    Spec.dicLoss k M s dic ((evenMasses m0 s ds.length).zip ds) =
      (List.range (ds.length + 1)).map fun i : ℕ => dic * ((M + m0) / (M + m0 + i * s)) := by
  induction ds with
  | nil =>
    intro dic m0 h
    simp [Spec.dicLoss, evenMasses, h.ne']
  | cons d ds ih =>
    intro dic m0 h
    have hkd : k * d * s = 0 := by
      rcases hk with h | h
      · simp [h]
      · simp [h d List.mem_cons_self]
    have ih' := ih (hk.imp id fun h d hd => h d (List.mem_cons_of_mem _ hd))
      (dic * ((M + m0) / (M + m0 + s))) (m0 + s) (by linarith)
    rw [List.length_cons, evenMasses_succ, List.zip_cons_cons, Spec.dicLoss, hkd, sub_zero, ih',
      List.range_succ_eq_map (n := ds.length + 1)]
    simp only [List.map_cons, List.map_map, List.cons.injEq, Nat.cast_zero, zero_mul, add_zero]
    refine ⟨by rw [div_self h.ne', mul_one], ?_⟩
    refine List.map_congr_left fun i _ => ?_
    have hi : (0:ℝ) ≤ i := Nat.cast_nonneg i
    have h1 : 0 < M + m0 + s := by linarith
    have h2 : 0 < M + m0 + s + i * s := by nlinarith
    have h3 : M + (m0 + s) + i * s ≠ 0 := by nlinarith
    have h4 : M + m0 + (↑i + 1) * s ≠ 0 := by nlinarith
    simp only [Function.comp_apply, Nat.cast_succ]
    rw [show M + (m0 + s) + (i:ℝ) * s = M + m0 + ((i:ℝ) + 1) * s by ring, ← add_assoc M m0 s]
    field_simp

/-- **C66**: if nothing is lost — the rate is zero, or the sample is always in equilibrium with the
air — the modelled DIC at each of the equal steps is the start value times the overall dilution. -/
theorem C66_no_loss (k M m0 s dic : ℝ) (hM : 0 < M + m0) (hs : 0 ≤ s) (ds : List ℝ) (last : ℝ)
    (hk : k = 0 ∨ ∀ d ∈ ds, d = 0) :
    dic_loss_model_fitted (fin k) ((evenMasses m0 s (ds.length + 1)).map fin)
        ((ds ++ [last]).map fin) (fin dic) (fin M) (fin s) =
      .ok ((List.range (ds.length + 1)).map fun i : ℕ =>
        fin (dic * 1e6 * ((M + m0) / (M + m0 + i * s)))) := by
  have hmem : ∀ m ∈ evenMasses m0 s (ds.length + 1), M + m + s ≠ 0 := by
    intro m hm
    obtain ⟨i, _, rfl⟩ := List.mem_map.mp hm
    have hi : (0:ℝ) ≤ i := Nat.cast_nonneg i
    nlinarith
  have hlen : (evenMasses m0 s (ds.length + 1)).length = ds.length + 1 := by simp [evenMasses]
  rw [fitted_eq k M s dic _ _ (by rw [hlen]; simp) (by simp) hmem]
  congr 1
  have hz : stepsOf (evenMasses m0 s (ds.length + 1)) (ds ++ [last])
      = (evenMasses m0 s ds.length).zip ds := by
    unfold stepsOf
    rw [List.dropLast_concat]
    have : evenMasses m0 s (ds.length + 1) = evenMasses m0 s ds.length ++ [m0 + ds.length * s] := by
      simp [evenMasses, List.range_succ]
    rw [this]
    have hl : (evenMasses m0 s ds.length).length = ds.length := by simp [evenMasses]
    have h := List.zip_append (l₁ := evenMasses m0 s ds.length) (r₁ := [m0 + ds.length * s])
      (l₂ := ds) (r₂ := []) hl
    rw [List.append_nil] at h
    rw [h]; simp
  rw [hz, dicLoss_none k M s hs ds hk _ _ hM]
  simp

/-- ten steps without loss halve the DIC of 100 g sample titrated with 100 g -/
example : dic_loss_model_fitted (fin 0) ((evenMasses 0 0.01 (10 + 1)).map fin)
    ((List.replicate 10 (700 : ℝ) ++ [650]).map fin) (fin 0.002) (fin 0.1) (fin 0.01) =
      .ok ((List.range (10 + 1)).map fun i : ℕ =>
        fin (0.002 * 1e6 * ((0.1 + 0) / (0.1 + 0 + i * 0.01)))) :=
  C66_no_loss 0 0.1 0 0.01 0.002 (by norm_num) (by norm_num) (List.replicate 10 700) 650 (.inl rfl)

/-! ## C67: affine and monotone in the rate; the best fit is unique -/

namespace Spec
/-- DIC lost per unit rate -/
noncomputable def lossCoef (M s : ℝ) : ℝ → List (ℝ × ℝ) → List ℝ
  | c, [] => [c]
  | c, (m, d) :: steps => c :: lossCoef M s (c * ((M + m) / (M + m + s)) + d * s) steps
end Spec

theorem dicLoss_length (k M s dic : ℝ) (st : List (ℝ × ℝ)) :
    (Spec.dicLoss k M s dic st).length = st.length + 1 := by
  induction st generalizing dic with
  | nil => rfl
  | cons x st ih => obtain ⟨m, d⟩ := x; simp [Spec.dicLoss, ih]

theorem lossCoef_length (M s c : ℝ) (st : List (ℝ × ℝ)) :
    (Spec.lossCoef M s c st).length = st.length + 1 := by
  induction st generalizing c with
  | nil => rfl
  | cons x st ih => obtain ⟨m, d⟩ := x; simp [Spec.lossCoef, ih]

theorem dicLoss_affine (k M s a c : ℝ) (st : List (ℝ × ℝ)) :
    Spec.dicLoss k M s (a - k * c) st =
      List.zipWith (fun a c => a - k * c) (Spec.dicLoss 0 M s a st) (Spec.lossCoef M s c st) := by
  induction st generalizing a c with
  | nil => rfl
  | cons x st ih =>
    obtain ⟨m, d⟩ := x
    simp only [Spec.dicLoss, Spec.lossCoef, List.zipWith_cons_cons, List.cons.injEq, true_and]
    rw [← ih]
    congr 1
    ring

/-- **C67**: every modelled DIC value is an affine function of the rate; the intercepts are the
values without loss. -/
theorem C67_affine (M s dic : ℝ) (masses deltas : List ℝ)
    (hlen : deltas.length ≤ masses.length + 1) (hd : deltas ≠ [])
    (hM : ∀ m ∈ masses, M + m + s ≠ 0) :
    ∃ a c : List ℝ, a.length = deltas.length ∧ c.length = deltas.length ∧
      dic_loss_model_fitted (fin 0) (masses.map fin) (deltas.map fin) (fin dic) (fin M) (fin s) =
        .ok (a.map fin) ∧
      ∀ k, dic_loss_model_fitted (fin k) (masses.map fin) (deltas.map fin) (fin dic) (fin M) (fin s)
        = .ok ((List.zipWith (fun a c => a - k * c) a c).map fin) := by
  have hl : (stepsOf masses deltas).length + 1 = deltas.length := by
    have := List.length_pos_of_ne_nil hd
    simp [stepsOf]; omega
  refine ⟨Spec.dicLoss 0 M s (dic * 1e6) (stepsOf masses deltas),
    Spec.lossCoef M s 0 (stepsOf masses deltas), ?_, ?_, fitted_eq 0 M s dic _ _ hlen hd hM, ?_⟩
  · rw [dicLoss_length, hl]
  · rw [lossCoef_length, hl]
  · intro k
    rw [fitted_eq k M s dic _ _ hlen hd hM, ← dicLoss_affine, mul_zero, sub_zero]

theorem dicLoss_mono {M s k k' : ℝ} (hk : k ≤ k') (hs : 0 ≤ s) :
    ∀ (st : List (ℝ × ℝ)), (∀ x ∈ st, 0 < M + x.1 ∧ 0 ≤ x.2) → ∀ dic dic', dic' ≤ dic →
      List.Forall₂ (fun y' y => y' ≤ y) (Spec.dicLoss k' M s dic' st) (Spec.dicLoss k M s dic st) := by
  intro st
  induction st with
  | nil => intro _ dic dic' h; exact .cons h .nil
  | cons x st ih =>
    obtain ⟨m, d⟩ := x
    intro hst dic dic' h
    refine .cons h (ih (fun y hy => hst y (List.mem_cons_of_mem _ hy)) _ _ ?_)
    obtain ⟨h1, h2⟩ := hst (m, d) List.mem_cons_self
    simp only at h1 h2
    have hq : 0 ≤ (M + m) / (M + m + s) := by positivity
    have h3 : dic' * ((M + m) / (M + m + s)) ≤ dic * ((M + m) / (M + m + s)) :=
      mul_le_mul_of_nonneg_right h hq
    have h4 : k * d * s ≤ k' * d * s :=
      mul_le_mul_of_nonneg_right (mul_le_mul_of_nonneg_right hk h2) hs
    linarith

/-- **C67**: where the sample's fCO2 is never below the air's, a larger rate never gives more DIC at
any step. -/
theorem C67_monotone {M s dic k k' : ℝ} (masses deltas : List ℝ)
    (hlen : deltas.length ≤ masses.length + 1) (hd : deltas ≠ [])
    (hM : ∀ m ∈ masses, 0 < M + m) (hs : 0 ≤ s) (hdel : ∀ d ∈ deltas, 0 ≤ d) (hk : k ≤ k') :
    ∃ ys ys' : List ℝ,
      dic_loss_model_fitted (fin k) (masses.map fin) (deltas.map fin) (fin dic) (fin M) (fin s) =
        .ok (ys.map fin) ∧
      dic_loss_model_fitted (fin k') (masses.map fin) (deltas.map fin) (fin dic) (fin M) (fin s) =
        .ok (ys'.map fin) ∧
      List.Forall₂ (fun y' y => y' ≤ y) ys' ys := by
  have hM' : ∀ m ∈ masses, M + m + s ≠ 0 := fun m hm => by have := hM m hm; linarith
  refine ⟨_, _, fitted_eq k M s dic _ _ hlen hd hM', fitted_eq k' M s dic _ _ hlen hd hM',
    dicLoss_mono hk hs _ ?_ _ _ le_rfl⟩
  intro x hx
  have := List.of_mem_zip (a := x.1) (b := x.2) hx
  exact ⟨hM _ this.1, hdel _ (List.mem_of_mem_dropLast this.2)⟩

/-- residuals of the fit at rate `k` -/
def lossResiduals (r : Flt → Py (List Flt)) (k : ℝ) (xs : List ℝ) : Prop :=
  r (fin k) = .ok (xs.map fin)

/-- **C67**, the numbers that are fitted: `k` is a best fit if no rate gives a smaller sum of squared
residuals. -/
def BestRate (r : Flt → Py (List Flt)) (k : ℝ) : Prop :=
  ∃ xs, lossResiduals r k xs ∧
    ∀ k' xs', lossResiduals r k' xs' → Spec.ssq xs ≤ Spec.ssq xs'

theorem ssq_affine (c : List ℝ) : ∀ b : List ℝ, b.length = c.length → ∀ k : ℝ,
    Spec.ssq (List.zipWith (fun b c => b - k * c) b c) =
      Spec.ssq b - 2 * k * (List.zipWith (· * ·) b c).sum + k ^ 2 * Spec.ssq c := by
  induction c with
  | nil => intro b h k; simp [Spec.ssq, List.length_eq_zero_iff.mp h]
  | cons x c ih =>
    intro b h k
    match b, h with
    | y :: b, h =>
      have := ih b (by simpa using h) k
      simp only [Spec.ssq] at this ⊢
      simp only [List.zipWith_cons_cons, List.map_cons, List.sum_cons]
      rw [this]; ring

theorem ssq_nonneg (c : List ℝ) : 0 ≤ Spec.ssq c := by
  unfold Spec.ssq
  exact List.sum_nonneg (by simp only [List.mem_map]; rintro _ ⟨x, _, rfl⟩; positivity)

theorem ssq_pos {c : List ℝ} (h : ∃ x ∈ c, x ≠ 0) : 0 < Spec.ssq c := by
  induction c with
  | nil => obtain ⟨x, hx, _⟩ := h; cases hx
  | cons y c ih =>
    have h0 := ssq_nonneg c
    have hy : 0 ≤ y ^ 2 := sq_nonneg y
    have hc : Spec.ssq (y :: c) = y ^ 2 + Spec.ssq c := by simp [Spec.ssq]
    rw [hc]
    obtain ⟨x, hx, hne⟩ := h
    rcases List.mem_cons.mp hx with rfl | hx
    · have := pow_pos (abs_pos.mpr hne) 2
      rw [sq_abs] at this; linarith
    · have := ih ⟨x, hx, hne⟩; linarith

theorem lossCoef_ne {M s : ℝ} (hs : s ≠ 0) (st : List (ℝ × ℝ)) (h : ∃ x ∈ st, x.2 ≠ 0) :
    ∀ c, ∃ x ∈ Spec.lossCoef M s c st, x ≠ 0 := by
  induction st with
  | nil => obtain ⟨x, hx, _⟩ := h; cases hx
  | cons x st ih =>
    obtain ⟨m, d⟩ := x
    intro c
    by_cases hc : c = 0
    · by_cases hd : d = 0
      · obtain ⟨x, hx, hne⟩ := h
        rcases List.mem_cons.mp hx with rfl | hx
        · exact absurd hd hne
        · obtain ⟨y, hy, hne⟩ := ih ⟨x, hx, hne⟩ (c * ((M + m) / (M + m + s)) + d * s)
          exact ⟨y, List.mem_cons_of_mem _ hy, hne⟩
      · refine ⟨d * s, List.mem_cons_of_mem _ ?_, mul_ne_zero hd hs⟩
        have : c * ((M + m) / (M + m + s)) + d * s = d * s := by rw [hc]; ring
        rw [this]
        cases st with
        | nil => simp [Spec.lossCoef]
        | cons y st => obtain ⟨m', d'⟩ := y; simp [Spec.lossCoef]
    · exact ⟨c, List.mem_cons_self, hc⟩

theorem lossCoef_zero {M s : ℝ} (st : List (ℝ × ℝ)) (h : ∀ x ∈ st, x.2 = 0) :
    ∀ x ∈ Spec.lossCoef M s 0 st, x = 0 := by
  induction st with
  | nil => simp [Spec.lossCoef]
  | cons x st ih =>
    obtain ⟨m, d⟩ := x
    have hd : d = 0 := h (m, d) List.mem_cons_self
    simp only [Spec.lossCoef, List.mem_cons, forall_eq_or_imp, true_and]
    rw [hd, zero_mul, zero_mul, add_zero]
    exact ih fun y hy => h y (List.mem_cons_of_mem _ hy)

theorem zipWith_sub_fin (a b : List ℝ) :
    List.zipWith (fun x y => x - y) (a.map fin) (b.map fin) = (List.zipWith (· - ·) a b).map fin := by
  induction a generalizing b with
  | nil => rfl
  | cons x a ih => cases b with
    | nil => rfl
    | cons y b => simp [ih]

theorem zipWith_affine_sub (a c y : List ℝ) (k : ℝ) :
    List.zipWith (· - ·) (List.zipWith (fun a c => a - k * c) a c) y =
      List.zipWith (fun b c => b - k * c) (List.zipWith (· - ·) a y) c := by
  induction a generalizing c y with
  | nil => simp
  | cons x a ih => cases c with
    | nil => simp
    | cons z c => cases y with
      | nil => simp
      | cons w y => simp [ih]; ring

theorem map_fin_inj {a b : List ℝ} (h : a.map fin = b.map fin) : a = b :=
  (List.map_injective_iff.mpr fun x y h => (fin_inj x y).mp h) h

/-- residuals of the loss fit, as a function of the rate -/
theorem residuals_eq (M s dic : ℝ) (masses deltas y : List ℝ)
    (hlen : deltas.length ≤ masses.length + 1) (hd : deltas ≠ []) (hy : y.length = deltas.length)
    (hM : ∀ m ∈ masses, M + m + s ≠ 0) (k : ℝ) :
    lsqfun_dic_loss_model (fin k) (masses.map fin) (deltas.map fin) (fin dic) (fin M) (fin s)
      (y.map fin) = .ok ((List.zipWith (fun b c => b - k * c)
        (List.zipWith (· - ·) (Spec.dicLoss 0 M s (dic * 1e6) (stepsOf masses deltas)) y)
        (Spec.lossCoef M s 0 (stepsOf masses deltas))).map fin) := by
  have hl : (stepsOf masses deltas).length + 1 = deltas.length := by
    have := List.length_pos_of_ne_nil hd
    simp [stepsOf]; omega
  unfold lsqfun_dic_loss_model
  rw [fitted_eq k M s dic _ _ hlen hd hM, bind_ok, sub_arrays, if_pos (by
    rw [List.length_map, List.length_map, dicLoss_length, hl, hy]), zipWith_sub_fin,
    ← zipWith_affine_sub, ← dicLoss_affine, mul_zero, sub_zero]

/-- **C67**: the best-fit rate exists and is unique if at some fitted point but the last the sample's
fCO2 differs from the air's. -/
theorem C67_unique (M s dic : ℝ) (masses deltas y : List ℝ)
    (hlen : deltas.length = masses.length) (hy : y.length = deltas.length) (hs : s ≠ 0)
    (hM : ∀ m ∈ masses, M + m + s ≠ 0) (hne : ∃ d ∈ deltas.dropLast, d ≠ 0) :
    ∃! k, BestRate (fun k => lsqfun_dic_loss_model k (masses.map fin) (deltas.map fin) (fin dic)
      (fin M) (fin s) (y.map fin)) k := by
  have hd : deltas ≠ [] := by rintro rfl; simp at hne
  have hl : (stepsOf masses deltas).length + 1 = deltas.length := by
    have := List.length_pos_of_ne_nil hd
    simp [stepsOf]; omega
  have hres := residuals_eq M s dic masses deltas y (by omega) hd hy hM
  have hc : ∃ x ∈ Spec.lossCoef M s 0 (stepsOf masses deltas), x ≠ 0 := by
    refine lossCoef_ne hs _ ?_ 0
    obtain ⟨d, hd, hne⟩ := hne
    obtain ⟨i, hi, rfl⟩ := List.mem_iff_getElem.mp hd
    have hi' : i < masses.length := by
      rw [List.length_dropLast] at hi; omega
    refine ⟨(masses[i], deltas.dropLast[i]), ?_, hne⟩
    exact List.mem_iff_getElem.mpr ⟨i, by simp [stepsOf] at hi ⊢; omega, by simp [stepsOf]⟩
  have hblen : (List.zipWith (· - ·) (Spec.dicLoss 0 M s (dic * 1e6) (stepsOf masses deltas)) y).length
      = (Spec.lossCoef M s 0 (stepsOf masses deltas)).length := by
    rw [List.length_zipWith, dicLoss_length, lossCoef_length, hl, hy, min_self]
  generalize List.zipWith (· - ·) (Spec.dicLoss 0 M s (dic * 1e6) (stepsOf masses deltas)) y = b
    at hres hblen
  generalize Spec.lossCoef M s 0 (stepsOf masses deltas) = c at hres hblen hc
  have hpos := ssq_pos hc
  have hss := fun k => ssq_affine c b hblen k
  set B := (List.zipWith (· * ·) b c).sum with hB
  have hmin : ∀ k, BestRate (fun k => lsqfun_dic_loss_model k (masses.map fin) (deltas.map fin)
      (fin dic) (fin M) (fin s) (y.map fin)) k ↔ ∀ k' : ℝ,
        Spec.ssq (List.zipWith (fun b c => b - k * c) b c) ≤
          Spec.ssq (List.zipWith (fun b c => b - k' * c) b c) := by
    intro k
    constructor
    · rintro ⟨xs, hxs, h⟩ k'
      have := map_fin_inj (Except.ok.inj ((hres k).symm.trans hxs))
      rw [this]
      exact h k' _ (hres k')
    · intro h
      refine ⟨_, hres k, fun k' xs' hxs' => ?_⟩
      have := map_fin_inj (Except.ok.inj ((hres k').symm.trans hxs'))
      rw [← this]
      exact h k'
  refine ⟨B / Spec.ssq c, (hmin _).mpr fun k' => ?_, fun k hk => ?_⟩
  · rw [hss, hss]
    have : 0 ≤ Spec.ssq c * (k' - B / Spec.ssq c) ^ 2 := by positivity
    have h2 : Spec.ssq c * (B / Spec.ssq c) = B := by field_simp
    generalize B / Spec.ssq c = q at *
    rw [← h2]
    linarith [show Spec.ssq b - 2 * k' * (Spec.ssq c * q) + k' ^ 2 * Spec.ssq c
      - (Spec.ssq b - 2 * q * (Spec.ssq c * q) + q ^ 2 * Spec.ssq c)
      = Spec.ssq c * (k' - q) ^ 2 by ring]
  · have h := (hmin k).mp hk (B / Spec.ssq c)
    rw [hss, hss] at h
    have h2 : Spec.ssq c * (B / Spec.ssq c) = B := by field_simp
    have h3 : Spec.ssq c * (k - B / Spec.ssq c) ^ 2 ≤ 0 := by
      generalize B / Spec.ssq c = q at *
      rw [← h2] at h
      linarith [show Spec.ssq b - 2 * k * (Spec.ssq c * q) + k ^ 2 * Spec.ssq c
        - (Spec.ssq b - 2 * q * (Spec.ssq c * q) + q ^ 2 * Spec.ssq c)
        = Spec.ssq c * (k - q) ^ 2 by ring]
    have h4 : (k - B / Spec.ssq c) ^ 2 ≤ 0 := by
      by_contra hcon
      push Not at hcon
      have := mul_pos hpos hcon
      linarith
    have h5 : k - B / Spec.ssq c = 0 := by
      exact pow_eq_zero_iff (two_ne_zero) |>.mp (le_antisymm h4 (sq_nonneg _))
    linarith

/-- **C67**: if the sample is in equilibrium with the air at every fitted point but the last, every
rate is a best fit. -/
theorem C67_equilibrium (M s dic : ℝ) (masses deltas y : List ℝ)
    (hlen : deltas.length = masses.length) (hy : y.length = deltas.length) (hd : deltas ≠ [])
    (hM : ∀ m ∈ masses, M + m + s ≠ 0) (hz : ∀ d ∈ deltas.dropLast, d = 0) (k : ℝ) :
    BestRate (fun k => lsqfun_dic_loss_model k (masses.map fin) (deltas.map fin) (fin dic)
      (fin M) (fin s) (y.map fin)) k := by
  have hres := residuals_eq M s dic masses deltas y (by omega) hd hy hM
  have hc : ∀ x ∈ Spec.lossCoef M s 0 (stepsOf masses deltas), x = 0 :=
    lossCoef_zero _ fun x hx => hz _ (List.of_mem_zip (a := x.1) (b := x.2) hx).2
  generalize List.zipWith (· - ·) (Spec.dicLoss 0 M s (dic * 1e6) (stepsOf masses deltas)) y = b
    at hres
  generalize Spec.lossCoef M s 0 (stepsOf masses deltas) = c at hres hc
  have hsame : ∀ k k' : ℝ, List.zipWith (fun b c => b - k * c) b c =
      List.zipWith (fun b c => b - k' * c) b c := by
    intro k k'
    clear hres
    induction b generalizing c with
    | nil => simp
    | cons x b ih =>
      match c, hc with
      | [], _ => simp
      | z :: c, hc =>
        rw [List.zipWith_cons_cons, List.zipWith_cons_cons, ih c fun x hx =>
          hc x (List.mem_cons_of_mem _ hx), hc z List.mem_cons_self]
        simp
  refine ⟨_, hres k, fun k' xs' hxs' => ?_⟩
  have := map_fin_inj (Except.ok.inj ((hres k').symm.trans hxs'))
  rw [← this, hsame k k']

/-- three fitted points, excess fCO2 250, 300, 350 µatm -/
example : ∃! k, BestRate (fun k => lsqfun_dic_loss_model k ([0, 0.001, 0.002].map fin)
    ([250, 300, 350].map fin) (fin 0.002) (fin 0.1) (fin 0.001) ([2000, 1990, 1970].map fin)) k :=
  C67_unique 0.1 0.001 0.002 _ _ _ rfl rfl (by norm_num)
    (by intro m hm; simp only [List.mem_cons, List.not_mem_nil, or_false] at hm
        rcases hm with rfl | rfl | rfl <;> norm_num)
    ⟨250, by simp, by norm_num⟩

/-! ## C68: fCO2 -/

/-- fugacity of CO2: `[CO2(aq)] / k0` where CO2(aq) is its share of DIC at `h = 10^-pH` -/
noncomputable def Spec.fCO2 (dic h k0 k1 k2 : ℝ) : ℝ := dic * h ^ 2 / (h ^ 2 + k1 * h + k1 * k2) / k0

theorem fCO2_eq {dic pH k0 k1 k2 : ℝ} (h0 : 0 < k0) (h1 : 0 < k1) (h2 : 0 < k2) :
    get_fCO2_from_dic_pH (fin dic) (fin pH) (fin k0) (fin k1) (fin k2) =
      fin (Spec.fCO2 dic ((10:ℝ) ^ (-pH)) k0 k1 k2) := by
  have hh : 0 < (10:ℝ) ^ (-pH) := Real.rpow_pos_of_pos (by norm_num) _
  unfold get_fCO2_from_dic_pH Spec.fCO2
  simp only [neg_fin, pow10_fin, sq_fin, mul_fin]
  generalize (10:ℝ) ^ (-pH) = h at hh
  rw [div_fin _ _ hh.ne', div_fin _ _ (by positivity), add_fin, add_fin,
    div_fin _ _ (by positivity), div_fin _ _ h0.ne']
  congr 2
  field_simp

/-- **C68**: fCO2 is a non-negative number, at most `DIC / k0`, and proportional to DIC. -/
theorem C68_bounds {dic pH k0 k1 k2 : ℝ} (hd : 0 ≤ dic) (h0 : 0 < k0) (h1 : 0 < k1) (h2 : 0 < k2) :
    ∃ f, get_fCO2_from_dic_pH (fin dic) (fin pH) (fin k0) (fin k1) (fin k2) = fin f ∧
      0 ≤ f ∧ f ≤ dic / k0 ∧
      ∀ r : ℝ, get_fCO2_from_dic_pH (fin (r * dic)) (fin pH) (fin k0) (fin k1) (fin k2) =
        fin (r * f) := by
  have hh : 0 < (10:ℝ) ^ (-pH) := Real.rpow_pos_of_pos (by norm_num) _
  refine ⟨_, fCO2_eq h0 h1 h2, ?_, ?_, fun r => ?_⟩
  · unfold Spec.fCO2; positivity
  · unfold Spec.fCO2
    refine div_le_div_of_nonneg_right ?_ h0.le
    rw [div_le_iff₀ (by positivity)]
    have : 0 ≤ dic * (k1 * (10:ℝ) ^ (-pH) + k1 * k2) := by positivity
    nlinarith
  · rw [fCO2_eq h0 h1 h2]
    unfold Spec.fCO2
    congr 1; ring

/-- **C68**: for positive DIC the fCO2 falls strictly as pH rises. -/
theorem C68_decreasing {dic pH pH' k0 k1 k2 : ℝ} (hd : 0 < dic) (h0 : 0 < k0) (h1 : 0 < k1)
    (h2 : 0 < k2) (hp : pH < pH') :
    (get_fCO2_from_dic_pH (fin dic) (fin pH') (fin k0) (fin k1) (fin k2)).lt
      (get_fCO2_from_dic_pH (fin dic) (fin pH) (fin k0) (fin k1) (fin k2)) = true := by
  rw [fCO2_eq h0 h1 h2, fCO2_eq h0 h1 h2, lt_fin, decide_eq_true_iff]
  have hh : 0 < (10:ℝ) ^ (-pH') := Real.rpow_pos_of_pos (by norm_num) _
  have hlt : (10:ℝ) ^ (-pH') < (10:ℝ) ^ (-pH) :=
    Real.rpow_lt_rpow_of_exponent_lt (by norm_num) (by linarith)
  generalize (10:ℝ) ^ (-pH') = h' at *
  generalize (10:ℝ) ^ (-pH) = h at *
  have hh2 : 0 < h := hh.trans hlt
  unfold Spec.fCO2
  refine div_lt_div_of_pos_right ?_ h0
  rw [div_lt_div_iff₀ (by positivity) (by positivity)]
  have e : dic * h ^ 2 * (h' ^ 2 + k1 * h' + k1 * k2) - dic * h' ^ 2 * (h ^ 2 + k1 * h + k1 * k2) =
      dic * k1 * (h - h') * (h * h' + k2 * (h + h')) := by ring
  have : 0 < dic * k1 * (h - h') * (h * h' + k2 * (h + h')) := by
    have := sub_pos.mpr hlt
    positivity
  linarith

/-- **C68**, tied to the spec: fCO2 is the CO2(aq) share of DIC over the solubility. -/
theorem C68_formula {dic pH k0 k1 k2 : ℝ} (h0 : 0 < k0) (h1 : 0 < k1) (h2 : 0 < k2) :
    get_fCO2_from_dic_pH (fin dic) (fin pH) (fin k0) (fin k1) (fin k2) =
      fin (Spec.fCO2 dic ((10:ℝ) ^ (-pH)) k0 k1 k2) := fCO2_eq h0 h1 h2

example : ∃ f, get_fCO2_from_dic_pH (fin 2000) (fin 8) (fin 0.03) (fin 1.4e-6) (fin 1.1e-9) = fin f ∧
    0 ≤ f ∧ f ≤ 2000 / 0.03 :=
  have ⟨f, h, h0, h1, _⟩ := C68_bounds (dic := 2000) (pH := 8) (k0 := 0.03) (k1 := 1.4e-6)
    (k2 := 1.1e-9) (by norm_num) (by norm_num) (by norm_num) (by norm_num)
  ⟨f, h, h0, h1⟩

end Calk
