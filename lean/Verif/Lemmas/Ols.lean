import Verif.Lemmas.Gran
import Verif.Spec

/-! # `linregress` returns the least-squares line -/

namespace Calk
open Flt

/-- sum of the squared distances of the points from the line with slope `a` and intercept `b` -/
noncomputable def Spec.lineMisfit (l : List (ℝ × ℝ)) (a b : ℝ) : ℝ :=
  (l.map fun p => (p.2 - a * p.1 - b) ^ 2).sum

/-- the line fits the points no worse than any other -/
def Spec.BestLine (l : List (ℝ × ℝ)) (a b : ℝ) : Prop :=
  ∀ a' b', Spec.lineMisfit l a b ≤ Spec.lineMisfit l a' b'

open Spec

theorem lineMisfit_expand (l : List (ℝ × ℝ)) (a b : ℝ) :
    lineMisfit l a b = (l.map fun p => p.2 ^ 2).sum + a ^ 2 * (l.map fun p => p.1 ^ 2).sum
      + l.length * b ^ 2 - 2 * a * (l.map fun p => p.1 * p.2).sum - 2 * b * (l.map fun p => p.2).sum
      + 2 * a * b * (l.map fun p => p.1).sum := by
  unfold lineMisfit
  induction l with
  | nil => simp
  | cons p l ih =>
    simp only [List.map_cons, List.sum_cons, ih, List.length_cons, Nat.cast_succ]; ring

theorem centred_sq (l : List (ℝ × ℝ)) (u : ℝ) :
    (l.map fun p => (p.1 - u) ^ 2).sum = (l.map fun p => p.1 ^ 2).sum
      - 2 * u * (l.map fun p => p.1).sum + l.length * u ^ 2 := by
  induction l with
  | nil => simp
  | cons p l ih =>
    simp only [List.map_cons, List.sum_cons, ih, List.length_cons, Nat.cast_succ]; ring

theorem centred_prod (l : List (ℝ × ℝ)) (u v : ℝ) :
    (l.map fun p => (p.1 - u) * (p.2 - v)).sum = (l.map fun p => p.1 * p.2).sum
      - v * (l.map fun p => p.1).sum - u * (l.map fun p => p.2).sum + l.length * (u * v) := by
  induction l with
  | nil => simp
  | cons p l ih =>
    simp only [List.map_cons, List.sum_cons, ih, List.length_cons, Nat.cast_succ]; ring

/-- slope and intercept of `linregress` on finite data with two different abscissae -/
theorem linregress_real {l : List (ℝ × ℝ)} (h : ∃ p ∈ l, ∃ q ∈ l, p.1 ≠ q.1) :
    ∃ (lr : LinRegress) (a b : ℝ), linregress (l.map fun p => fin p.1) (l.map fun p => fin p.2) = .ok lr ∧
      lr.slope = fin a ∧ lr.intercept = fin b ∧
      a * (l.map fun p => p.1 ^ 2).sum + b * (l.map fun p => p.1).sum = (l.map fun p => p.1 * p.2).sum ∧
      a * (l.map fun p => p.1).sum + b * l.length = (l.map fun p => p.2).sum := by
  obtain ⟨p, hp, q, hq, hpq⟩ := h
  have hne : l ≠ [] := by rintro rfl; simp at hp
  have hl : (0 : ℝ) < l.length := by
    have := List.length_pos_iff.mpr hne
    positivity
  have hne1 : l.map (fun p => p.1) ≠ [] := by simpa using hne
  obtain ⟨hi, hhi, hle, hmax⟩ := npMax_fin hne1
  obtain ⟨lo, hlo, hge, hmin⟩ := npMin_fin hne1
  have hp1 : p.1 ∈ l.map fun p => p.1 := List.mem_map.mpr ⟨p, hp, rfl⟩
  have hq1 : q.1 ∈ l.map fun p => p.1 := List.mem_map.mpr ⟨q, hq, rfl⟩
  have hlohi : lo < hi := by
    rcases lt_or_gt_of_ne hpq with h | h
    · exact lt_of_le_of_lt (hge _ hp1) (lt_of_lt_of_le h (hle _ hq1))
    · exact lt_of_le_of_lt (hge _ hq1) (lt_of_lt_of_le h (hle _ hp1))
  have hfeq : feq (fin hi) (fin lo) = false := by simp [feq, not_le.mpr hlohi]
  rw [List.map_map] at hmax hmin
  replace hmax : npMax (l.map fun p => fin p.1) = .ok (fin hi) := hmax
  replace hmin : npMin (l.map fun p => fin p.1) = .ok (fin lo) := hmin
  set mx := (l.map fun p => p.1).sum / l.length with hmx
  set my := (l.map fun p => p.2).sum / l.length with hmy
  have hx : npMean (l.map fun p => fin p.1) = fin mx := by
    have := npMean_map_fin (l.map fun p => p.1) (by simpa using hne)
    rw [List.map_map] at this
    simpa [rmean, Function.comp_def] using this
  have hy : npMean (l.map fun p => fin p.2) = fin my := by
    have := npMean_map_fin (l.map fun p => p.2) (by simpa using hne)
    rw [List.map_map] at this
    simpa [rmean, Function.comp_def] using this
  have hxx : npMean ((l.map fun p => fin p.1).map fun a => Flt.sq (a - fin mx))
      = fin ((l.map fun p => (p.1 - mx) ^ 2).sum / l.length) := by
    have := npMean_map_fin (l.map fun p => (p.1 - mx) ^ 2) (by simpa using hne)
    rw [List.map_map] at this
    simpa [rmean, Function.comp_def] using this
  have hxy : npMean (List.zipWith (fun a b => (a - fin mx) * (b - fin my)) (l.map fun p => fin p.1)
      (l.map fun p => fin p.2)) = fin ((l.map fun p => (p.1 - mx) * (p.2 - my)).sum / l.length) := by
    have := npMean_map_fin (l.map fun p => (p.1 - mx) * (p.2 - my)) (by simpa using hne)
    rw [List.map_map] at this
    rw [zipWith_map_same]
    simpa [rmean, Function.comp_def] using this
  have hV : 0 < (l.map fun p => (p.1 - mx) ^ 2).sum := by
    have hnn : ∀ z ∈ l.map (fun p => (p.1 - mx) ^ 2), 0 ≤ z := by
      intro z hz; obtain ⟨w, -, rfl⟩ := List.mem_map.mp hz; positivity
    have : p.1 ≠ mx ∨ q.1 ≠ mx := by
      by_contra hcon; push Not at hcon; exact hpq (hcon.1.trans hcon.2.symm)
    rcases this with h | h
    · refine sum_pos_of_nonneg hnn (List.mem_map.mpr ⟨p, hp, rfl⟩) ?_
      have := sub_ne_zero.mpr h; positivity
    · refine sum_pos_of_nonneg hnn (List.mem_map.mpr ⟨q, hq, rfl⟩) ?_
      have := sub_ne_zero.mpr h; positivity
  have hV' : (l.map fun p => (p.1 - mx) ^ 2).sum / (l.length : ℝ) ≠ 0 := by
    have := hV.ne'
    have := hl.ne'
    exact div_ne_zero ‹_› ‹_›
  obtain ⟨lr, hlr, hs, hi'⟩ : ∃ lr, linregress (l.map fun p => fin p.1) (l.map fun p => fin p.2) = .ok lr ∧
      lr.slope = fin ((l.map fun p => (p.1 - mx) * (p.2 - my)).sum / l.length)
        / fin ((l.map fun p => (p.1 - mx) ^ 2).sum / l.length) ∧
      lr.intercept = fin my - lr.slope * fin mx := by
    unfold linregress
    simp only [List.length_map, ne_eq, not_true_eq_false, if_false, hmax, hmin, bind_ok, hfeq,
      Bool.false_and, Bool.false_eq_true, hx, hy, hxx, hxy, pure_ok]
    exact ⟨_, rfl, rfl, rfl⟩
  have hs' : lr.slope = fin ((l.map fun p => (p.1 - mx) * (p.2 - my)).sum
      / (l.map fun p => (p.1 - mx) ^ 2).sum) := by
    rw [hs, div_fin _ _ hV', fin_inj]
    field_simp
  refine ⟨lr, (l.map fun p => (p.1 - mx) * (p.2 - my)).sum / (l.map fun p => (p.1 - mx) ^ 2).sum,
    my - (l.map fun p => (p.1 - mx) * (p.2 - my)).sum / (l.map fun p => (p.1 - mx) ^ 2).sum * mx,
    hlr, hs', by rw [hi', hs', mul_fin, sub_fin], ?_, ?_⟩
  · have e1 := centred_sq l mx
    have e2 := centred_prod l mx my
    set V := (l.map fun p => (p.1 - mx) ^ 2).sum
    set W := (l.map fun p => (p.1 - mx) * (p.2 - my)).sum
    have e3 : (l.map fun p => p.1).sum = mx * l.length := by rw [hmx]; field_simp
    have e4 : (l.map fun p => p.2).sum = my * l.length := by rw [hmy]; field_simp
    rw [e3, e4] at e2
    rw [e3] at e1
    rw [e3]
    have e5 : (l.map fun p => p.1 ^ 2).sum = V + l.length * mx ^ 2 := by linarith
    have e6 : (l.map fun p => p.1 * p.2).sum = W + l.length * (mx * my) := by linarith
    rw [e5, e6]
    field_simp
    ring
  · have e3 : (l.map fun p => p.1).sum = mx * l.length := by rw [hmx]; field_simp
    have e4 : (l.map fun p => p.2).sum = my * l.length := by rw [hmy]; field_simp
    rw [e3, e4]
    ring

/-- by how much another line fits worse -/
theorem lineMisfit_sub {l : List (ℝ × ℝ)} {a b : ℝ}
    (h1 : a * (l.map fun p => p.1 ^ 2).sum + b * (l.map fun p => p.1).sum = (l.map fun p => p.1 * p.2).sum)
    (h2 : a * (l.map fun p => p.1).sum + b * l.length = (l.map fun p => p.2).sum) (a' b' : ℝ) :
    lineMisfit l a' b' = lineMisfit l a b + (l.map fun p => ((a' - a) * p.1 + (b' - b)) ^ 2).sum := by
  have h3 : (l.map fun p => ((a' - a) * p.1 + (b' - b)) ^ 2).sum
      = (a' - a) ^ 2 * (l.map fun p => p.1 ^ 2).sum + 2 * (a' - a) * (b' - b) * (l.map fun p => p.1).sum
        + l.length * (b' - b) ^ 2 := by
    clear h1 h2
    induction l with
    | nil => simp
    | cons p l ih =>
      simp only [List.map_cons, List.sum_cons, ih, List.length_cons, Nat.cast_succ]; ring
  rw [h3, lineMisfit_expand, lineMisfit_expand]
  linear_combination (-2 * (a - a')) * h1 + (-2 * (b - b')) * h2

/-- a line that fits no worse than any other is the one of `linregress` -/
theorem linregress_best {l : List (ℝ × ℝ)} (h : ∃ p ∈ l, ∃ q ∈ l, p.1 ≠ q.1) :
    ∃ (lr : LinRegress) (a b : ℝ), linregress (l.map fun p => fin p.1) (l.map fun p => fin p.2) = .ok lr ∧
      lr.slope = fin a ∧ lr.intercept = fin b ∧ BestLine l a b ∧
      ∀ a' b', BestLine l a' b' → a' = a ∧ b' = b := by
  obtain ⟨lr, a, b, h0, hs, hi, h1, h2⟩ := linregress_real h
  have hnn : ∀ a' b' : ℝ, ∀ z ∈ l.map (fun p => ((a' - a) * p.1 + (b' - b)) ^ 2), 0 ≤ z := by
    intro a' b' z hz; obtain ⟨w, -, rfl⟩ := List.mem_map.mp hz; positivity
  refine ⟨lr, a, b, h0, hs, hi, ?_, ?_⟩
  · intro a' b'
    rw [lineMisfit_sub h1 h2 a' b']
    have := List.sum_nonneg (hnn a' b')
    linarith
  · intro a' b' hb
    have hle := hb a b
    rw [lineMisfit_sub h1 h2 a' b'] at hle
    have hz : ∀ p ∈ l, (a' - a) * p.1 + (b' - b) = 0 := by
      intro p hp
      by_contra hc
      have := sum_pos_of_nonneg (hnn a' b') (List.mem_map.mpr ⟨p, hp, rfl⟩) (by positivity)
      linarith
    obtain ⟨p, hp, q, hq, hpq⟩ := h
    have e1 := hz p hp
    have e2 := hz q hq
    have e3 : (a' - a) * (p.1 - q.1) = 0 := by linarith
    have e4 : a' - a = 0 := (mul_eq_zero.mp e3).resolve_right (sub_ne_zero.mpr hpq)
    rw [e4] at e1
    constructor <;> linarith

end Calk
