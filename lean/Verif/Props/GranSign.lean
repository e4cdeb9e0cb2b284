import Verif.Props.GranBias

/-!
# Property C147: which way Gran mode is off
-/

namespace Calk
open Flt Spec

/-! ## Lemmas -/

/-- `n Σ x y - Σ x Σ y` -/
noncomputable def covar (l : List (ℝ × ℝ)) : ℝ :=
  l.length * (l.map fun p => p.1 * p.2).sum - (l.map fun p => p.1).sum * (l.map fun p => p.2).sum

theorem covar_cons (z : ℝ × ℝ) (l : List (ℝ × ℝ)) :
    covar (z :: l) = covar l + (l.map fun p => (z.1 - p.1) * (z.2 - p.2)).sum := by
  have h : (l.map fun p => (z.1 - p.1) * (z.2 - p.2)).sum = l.length * (z.1 * z.2)
      + (l.map fun p => p.1 * p.2).sum - z.1 * (l.map fun p => p.2).sum - z.2 * (l.map fun p => p.1).sum := by
    induction l with
    | nil => simp
    | cons p l ih =>
      simp only [List.map_cons, List.sum_cons, ih, List.length_cons, Nat.cast_add, Nat.cast_one]
      ring
  rw [h]
  simp only [covar, List.map_cons, List.sum_cons, List.length_cons, Nat.cast_add, Nat.cast_one]
  ring

theorem covar_nonneg {l : List (ℝ × ℝ)} (h : ∀ p ∈ l, ∀ q ∈ l, 0 ≤ (p.1 - q.1) * (p.2 - q.2)) : 0 ≤ covar l := by
  induction l with
  | nil => simp [covar]
  | cons z l ih =>
    rw [covar_cons]
    refine add_nonneg (ih fun p hp q hq => h p (List.mem_cons_of_mem _ hp) q (List.mem_cons_of_mem _ hq)) ?_
    refine List.sum_nonneg ?_
    intro y hy
    obtain ⟨p, hp, rfl⟩ := List.mem_map.mp hy
    exact h z (List.mem_cons_self ..) p (List.mem_cons_of_mem _ hp)

theorem covar_pos {l : List (ℝ × ℝ)} (h : ∀ p ∈ l, ∀ q ∈ l, 0 ≤ (p.1 - q.1) * (p.2 - q.2)) {p q : ℝ × ℝ}
    (hp : p ∈ l) (hq : q ∈ l) (hpq : 0 < (p.1 - q.1) * (p.2 - q.2)) : 0 < covar l := by
  induction l with
  | nil => simp at hp
  | cons z l ih =>
    rw [covar_cons]
    have h' : ∀ p ∈ l, ∀ q ∈ l, 0 ≤ (p.1 - q.1) * (p.2 - q.2) :=
      fun p hp q hq => h p (List.mem_cons_of_mem _ hp) q (List.mem_cons_of_mem _ hq)
    have h0 := covar_nonneg h'
    have hn : ∀ y ∈ l.map fun p => (z.1 - p.1) * (z.2 - p.2), 0 ≤ y := by
      intro y hy
      obtain ⟨p, hp, rfl⟩ := List.mem_map.mp hy
      exact h z (List.mem_cons_self ..) p (List.mem_cons_of_mem _ hp)
    have hsum := List.sum_nonneg hn
    rcases List.mem_cons.mp hp with rfl | hp' <;> rcases List.mem_cons.mp hq with rfl | hq'
    · simp at hpq
    · have := sum_pos_of_nonneg hn (List.mem_map.mpr ⟨q, hq', rfl⟩) hpq
      linarith
    · have := sum_pos_of_nonneg hn (List.mem_map.mpr ⟨p, hp', rfl⟩) (by linarith)
      linarith
    · have := ih h' hp' hq'
      linarith

theorem flat_zero {k e : ℝ} (hk : 0 ≤ k) (h : ∀ t : ℝ, 0 ≤ k * t ^ 2 + 2 * t * e) : e = 0 := by
  have h1 := h (-e / (k + 1))
  have hk1 : 0 < k + 1 := by linarith
  rw [show k * (-e / (k + 1)) ^ 2 + 2 * (-e / (k + 1)) * e = -(e ^ 2 * (k + 2)) / (k + 1) ^ 2 by
    field_simp; ring, le_div_iff₀ (by positivity), zero_mul] at h1
  have h2 : 0 ≤ e ^ 2 * (k + 2) := by positivity
  have h3 : e ^ 2 = 0 := by
    rcases mul_eq_zero.mp (le_antisymm (by linarith) h2) with h | h
    · exact h
    · linarith
  exact pow_eq_zero_iff (two_ne_zero) |>.mp h3

/-- the normal equations of the best line, about `x₀`, with the misfits of another line -/
theorem best_line_normal {l : List (ℝ × ℝ)} {a b : ℝ} (h : BestLine l a b) :
    l.length * b + a * (l.map fun p => p.1).sum = (l.map fun p => p.2).sum ∧
    b * (l.map fun p => p.1).sum + a * (l.map fun p => p.1 * p.1).sum = (l.map fun p => p.1 * p.2).sum := by
  have key : ∀ s t : ℝ, lineMisfit l (a + s) (b + t) - lineMisfit l a b
      = l.length * t ^ 2 + s ^ 2 * (l.map fun p => p.1 * p.1).sum + 2 * s * t * (l.map fun p => p.1).sum
        + 2 * t * (l.length * b + a * (l.map fun p => p.1).sum - (l.map fun p => p.2).sum)
        + 2 * s * (b * (l.map fun p => p.1).sum + a * (l.map fun p => p.1 * p.1).sum
          - (l.map fun p => p.1 * p.2).sum) := by
    intro s t
    unfold lineMisfit
    clear h
    induction l with
    | nil => simp
    | cons z l ih =>
      simp only [List.map_cons, List.sum_cons, List.length_cons, Nat.cast_add, Nat.cast_one]
      linear_combination ih
  have hQ : 0 ≤ (l.map fun p => p.1 * p.1).sum := by
    refine List.sum_nonneg ?_
    intro y hy
    obtain ⟨p, -, rfl⟩ := List.mem_map.mp hy
    exact mul_self_nonneg _
  constructor
  · refine sub_eq_zero.mp (flat_zero (k := l.length) (by positivity) fun t => ?_)
    have := h (a + 0) (b + t)
    have := key 0 t
    linarith
  · refine sub_eq_zero.mp (flat_zero hQ fun s => ?_)
    have := h (a + s) (b + 0)
    have := key s 0
    linarith

/-- points that lie above the line `a₀ x + b₀` beyond `x₀`, by less and less: the best line through them is above it
at `x₀` -/
theorem best_line_above {l : List (ℝ × ℝ)} {a b a₀ b₀ x₀ : ℝ} (h : BestLine l a b) {p q : ℝ × ℝ} (hp : p ∈ l)
    (hq : q ∈ l) (hpq : p.1 ≠ q.1) (hx : ∀ p ∈ l, x₀ ≤ p.1) (h0 : ∀ p ∈ l, 0 < p.2 - (a₀ * p.1 + b₀))
    (hd : ∀ p ∈ l, ∀ q ∈ l, (p.1 - q.1) * ((p.2 - (a₀ * p.1 + b₀)) - (q.2 - (a₀ * q.1 + b₀))) ≤ 0) :
    a ≤ a₀ ∧ a₀ * x₀ + b₀ < a * x₀ + b := by
  obtain ⟨n1, n2⟩ := best_line_normal h
  have hlen : 0 < (l.length : ℝ) := by exact_mod_cast List.length_pos_of_mem hp
  have hQ : 0 < covar (l.map fun p => (p.1, p.1)) := by
    refine covar_pos ?_ (List.mem_map.mpr ⟨p, hp, rfl⟩) (List.mem_map.mpr ⟨q, hq, rfl⟩)
      (mul_self_pos.mpr (sub_ne_zero.mpr hpq))
    intro y hy z hz
    obtain ⟨y, -, rfl⟩ := List.mem_map.mp hy
    obtain ⟨z, -, rfl⟩ := List.mem_map.mp hz
    exact mul_self_nonneg _
  have hL : 0 ≤ covar (l.map fun p => (p.1, -(p.2 - (a₀ * p.1 + b₀)))) := by
    refine covar_nonneg ?_
    intro y hy z hz
    obtain ⟨y, hy', rfl⟩ := List.mem_map.mp hy
    obtain ⟨z, hz', rfl⟩ := List.mem_map.mp hz
    have := hd y hy' z hz'
    dsimp only
    linarith
  have hs : 0 < (l.map fun p => p.2 - (a₀ * p.1 + b₀)).sum := by
    refine sum_pos_of_nonneg ?_ (List.mem_map.mpr ⟨p, hp, rfl⟩) (h0 p hp)
    intro y hy
    obtain ⟨y, hy', rfl⟩ := List.mem_map.mp hy
    exact (h0 y hy').le
  have ht : 0 ≤ (l.map fun p => p.1 - x₀).sum := by
    refine List.sum_nonneg ?_
    intro y hy
    obtain ⟨y, hy', rfl⟩ := List.mem_map.mp hy
    linarith [hx y hy']
  have e1 : (l.map fun p => p.2 - (a₀ * p.1 + b₀)).sum
      = (l.map fun p => p.2).sum - a₀ * (l.map fun p => p.1).sum - l.length * b₀ := by
    clear * -
    induction l with
    | nil => simp
    | cons z l ih =>
      simp only [List.map_cons, List.sum_cons, ih, List.length_cons, Nat.cast_add, Nat.cast_one]
      ring
  have e2 : (l.map fun p => p.1 - x₀).sum = (l.map fun p => p.1).sum - l.length * x₀ := by
    clear * -
    induction l with
    | nil => simp
    | cons z l ih =>
      simp only [List.map_cons, List.sum_cons, ih, List.length_cons, Nat.cast_add, Nat.cast_one]
      ring
  have e3 : (l.map fun p => p.1 * -(p.2 - (a₀ * p.1 + b₀))).sum
      = -((l.map fun p => p.1 * p.2).sum - a₀ * (l.map fun p => p.1 * p.1).sum - b₀ * (l.map fun p => p.1).sum) := by
    clear * -
    induction l with
    | nil => simp
    | cons z l ih =>
      simp only [List.map_cons, List.sum_cons, ih]
      ring
  have e4 : (l.map fun p => -(p.2 - (a₀ * p.1 + b₀))).sum = -(l.map fun p => p.2 - (a₀ * p.1 + b₀)).sum := by
    clear * -
    induction l with
    | nil => simp
    | cons z l ih =>
      simp only [List.map_cons, List.sum_cons, ih]
      ring
  simp only [covar, List.length_map, List.map_map, Function.comp_def] at hQ hL
  rw [e3, e4, e1] at hL
  rw [e1] at hs
  rw [e2] at ht
  set X := (l.map fun p => p.1).sum
  set Y := (l.map fun p => p.2).sum
  set Q := (l.map fun p => p.1 * p.1).sum
  set P := (l.map fun p => p.1 * p.2).sum
  set N := (l.length : ℝ)
  have hα : a ≤ a₀ := by
    by_contra hc
    have : 0 < (a - a₀) * (N * Q - X * X) := mul_pos (by linarith) hQ
    rw [← n1, ← n2] at hL
    linarith
  refine ⟨hα, ?_⟩
  have : 0 < N * ((a * x₀ + b) - (a₀ * x₀ + b₀)) := by
    rw [← n1] at hs
    have := mul_nonneg (sub_nonneg.mpr hα) ht
    linarith
  have := (mul_pos_iff_of_pos_left hlen).mp this
  linarith

/-- the best line through rising points rises -/
theorem best_line_rises {l : List (ℝ × ℝ)} {a b : ℝ} (h : BestLine l a b) {p q : ℝ × ℝ} (hp : p ∈ l)
    (hq : q ∈ l) (hpq : 0 < (p.1 - q.1) * (p.2 - q.2)) (hd : ∀ p ∈ l, ∀ q ∈ l, 0 ≤ (p.1 - q.1) * (p.2 - q.2)) :
    0 < a := by
  obtain ⟨n1, n2⟩ := best_line_normal h
  have hy := covar_pos hd hp hq hpq
  have hne : p.1 ≠ q.1 := by
    intro he
    rw [he, sub_self, zero_mul] at hpq
    exact lt_irrefl _ hpq
  have hQ : 0 < covar (l.map fun p => (p.1, p.1)) := by
    refine covar_pos ?_ (List.mem_map.mpr ⟨p, hp, rfl⟩) (List.mem_map.mpr ⟨q, hq, rfl⟩)
      (mul_self_pos.mpr (sub_ne_zero.mpr hne))
    intro y hy z hz
    obtain ⟨y, -, rfl⟩ := List.mem_map.mp hy
    obtain ⟨z, -, rfl⟩ := List.mem_map.mp hz
    exact mul_self_nonneg _
  simp only [covar, List.length_map, List.map_map, Function.comp_def] at hQ hy
  rw [← n1, ← n2] at hy
  by_contra hc
  have := mul_nonneg (neg_nonneg.mpr (not_lt.mp hc)) hQ.le
  linarith

/-! ## Properties -/

/-- **Specification**: the titration follows the charge balance of a sample of alkalinity `A` in the window; the
window lies beyond the equivalence point; more acid means more acidity, at least in proportion to the mass; and what
the contents can still take up at the acid end of the window is no less than what the acid's sulfate can hold there -/
structure Spec.TakesUp (x K : String → ℝ) (A c n g lo hi M m' : ℝ) (pts : List (ℝ × ℝ)) : Prop where
  nonneg : ∀ k ∈ contents, 0 ≤ x k
  positive : ∀ k ∈ allConstants, 0 < K k
  acid : 0 ≤ c * g
  masses : ∀ p ∈ pts, lo ≤ p.2 → p.2 ≤ hi → 0 ≤ p.1 ∧ p.1 ≤ m'
  balance : ∀ p ∈ pts, lo ≤ p.2 → p.2 ≤ hi →
    (mixture x K p.1 M c g).alk 3 ((10 : ℝ) ^ (-p.2)) * (p.1 + M) = A * M - p.1 * c * n
  beyond : ∀ p ∈ pts, lo ≤ p.2 → p.2 ≤ hi → A * M ≤ p.1 * c * n
  grows : ∀ p ∈ pts, lo ≤ p.2 → p.2 ≤ hi → ∀ q ∈ pts, lo ≤ q.2 → q.2 ≤ hi → p.1 ≤ q.1 →
    (q.1 + M) * (10 : ℝ) ^ (-p.2) ≤ (p.1 + M) * (10 : ℝ) ^ (-q.2)
  net : m' * (c * g) * held (K "k_bisulfate") ((10 : ℝ) ^ (-lo))
    ≤ M * (1e-6 * (contents.map fun k => x k * uptake K ((10 : ℝ) ^ (-lo)) k).sum)

theorem contents_sum_anti {x u v : String → ℝ} (hx : ∀ k ∈ contents, 0 ≤ x k) (hu : ∀ k, u k ≤ v k) :
    (contents.map fun k => x k * u k).sum ≤ (contents.map fun k => x k * v k).sum :=
  List.sum_le_sum fun k hk => mul_le_mul_of_nonneg_left (hu k) (hx k hk)

theorem held_mono {K a b : ℝ} (hK : 0 < K) (ha : 0 < a) (hab : a ≤ b) : held K a ≤ held K b := by
  unfold held
  rw [div_le_div_iff₀ (by positivity) (by linarith)]
  nlinarith

theorem Spec.TakesUp.line {x K : String → ℝ} {A c n g lo hi M m' : ℝ} {pts : List (ℝ × ℝ)} (hM : 0 < M) (hcn : 0 < c * n)
    (h : TakesUp x K A c n g lo hi M m' pts) {a b : ℝ} (hbest : BestLine (granPlot M lo hi pts) a b)
    (h2 : ∃ p ∈ granPlot M lo hi pts, ∃ q ∈ granPlot M lo hi pts, p.1 ≠ q.1) :
    0 < a ∧ 0 < a * (A * M / (c * n)) + b := by
  obtain ⟨p, hp, q, hq, hne⟩ := h2
  have hpts : ∀ y ∈ granPlot M lo hi pts, ∃ z ∈ pts, lo ≤ z.2 ∧ z.2 ≤ hi ∧
      y = (z.1, (z.1 + M) * (10 : ℝ) ^ (-z.2)) := by
    intro y hy
    obtain ⟨z, hz, rfl⟩ := List.mem_map.mp hy
    obtain ⟨hz, hw⟩ := List.mem_filter.mp hz
    simp only [Bool.and_eq_true, decide_eq_true_eq] at hw
    exact ⟨z, hz, hw.1, hw.2, rfl⟩
  have hpos : ∀ t : ℝ, 0 < (10 : ℝ) ^ t := fun t => Real.rpow_pos_of_pos (by norm_num) _
  have hKw := h.positive "k_water" (by decide)
  have hKs := h.positive "k_bisulfate" (by decide)
  -- the moles left out, and how they and the acidity change
  have hout : ∀ z ∈ pts, lo ≤ z.2 → z.2 ≤ hi → (z.1 + M) * (10 : ℝ) ^ (-z.2) - (c * n * z.1 + -(A * M))
      = (z.1 + M) * (K "k_water" / (10 : ℝ) ^ (-z.2))
        + M * (1e-6 * (contents.map fun k => x k * uptake K ((10 : ℝ) ^ (-z.2)) k).sum)
        - z.1 * (c * g) * held (K "k_bisulfate") ((10 : ℝ) ^ (-z.2)) := by
    intro z hz h1 h2
    have hb := h.balance z hz h1 h2
    rw [mixture_protons hM.ne' (by linarith [(h.masses z hz h1 h2).1])] at hb
    linear_combination -hb
  have hmono : ∀ y ∈ pts, lo ≤ y.2 → y.2 ≤ hi → ∀ z ∈ pts, lo ≤ z.2 → z.2 ≤ hi → y.1 ≤ z.1 →
      (10 : ℝ) ^ (-y.2) ≤ (10 : ℝ) ^ (-z.2) := by
    intro y hy y1 y2 z hz z1 z2 hyz
    have hg := h.grows y hy y1 y2 z hz z1 z2 hyz
    have hy0 := (h.masses y hy y1 y2).1
    have : (y.1 + M) * (10 : ℝ) ^ (-y.2) ≤ (z.1 + M) * (10 : ℝ) ^ (-y.2) :=
      mul_le_mul_of_nonneg_right (by linarith) (hpos _).le
    exact le_of_mul_le_mul_left (this.trans hg) (by linarith)
  have hfall : ∀ y ∈ pts, lo ≤ y.2 → y.2 ≤ hi → ∀ z ∈ pts, lo ≤ z.2 → z.2 ≤ hi → y.1 ≤ z.1 →
      (z.1 + M) * (10 : ℝ) ^ (-z.2) - (c * n * z.1 + -(A * M))
        ≤ (y.1 + M) * (10 : ℝ) ^ (-y.2) - (c * n * y.1 + -(A * M)) := by
    intro y hy y1 y2 z hz z1 z2 hyz
    rw [hout y hy y1 y2, hout z hz z1 z2]
    have hg := h.grows y hy y1 y2 z hz z1 z2 hyz
    have hm := hmono y hy y1 y2 z hz z1 z2 hyz
    have hy0 := (h.masses y hy y1 y2).1
    have e1 : (z.1 + M) * (K "k_water" / (10 : ℝ) ^ (-z.2)) ≤ (y.1 + M) * (K "k_water" / (10 : ℝ) ^ (-y.2)) := by
      rw [mul_div_assoc', mul_div_assoc', div_le_div_iff₀ (hpos _) (hpos _)]
      nlinarith
    have e2 := contents_sum_anti h.nonneg (uptake_anti h.positive (hpos (-y.2)) hm)
    have e3 := held_mono hKs (hpos (-y.2)) hm
    have e4 : 0 ≤ held (K "k_bisulfate") ((10 : ℝ) ^ (-y.2)) := by
      unfold held
      have := hpos (-y.2)
      positivity
    have hz0 : 0 ≤ z.1 := hy0.trans hyz
    have hac := h.acid
    have e5 : y.1 * (c * g) * held (K "k_bisulfate") ((10 : ℝ) ^ (-y.2))
        ≤ z.1 * (c * g) * held (K "k_bisulfate") ((10 : ℝ) ^ (-z.2)) := by
      have := mul_nonneg hz0 hac
      gcongr
    have e6 : M * (1e-6 * (contents.map fun k => x k * uptake K ((10 : ℝ) ^ (-z.2)) k).sum)
        ≤ M * (1e-6 * (contents.map fun k => x k * uptake K ((10 : ℝ) ^ (-y.2)) k).sum) := by gcongr
    linarith
  have habove : ∀ z ∈ pts, lo ≤ z.2 → z.2 ≤ hi →
      0 < (z.1 + M) * (10 : ℝ) ^ (-z.2) - (c * n * z.1 + -(A * M)) := by
    intro z hz z1 z2
    rw [hout z hz z1 z2]
    obtain ⟨hz0, hzm⟩ := h.masses z hz z1 z2
    have hlo : (10 : ℝ) ^ (-z.2) ≤ (10 : ℝ) ^ (-lo) := Real.rpow_le_rpow_of_exponent_le (by norm_num) (by linarith)
    have e2 := contents_sum_anti h.nonneg (uptake_anti h.positive (hpos (-z.2)) hlo)
    have e3 := held_mono hKs (hpos (-z.2)) hlo
    have e4 : 0 ≤ held (K "k_bisulfate") ((10 : ℝ) ^ (-z.2)) := by
      unfold held
      have := hpos (-z.2)
      positivity
    have hac := h.acid
    have e5 : z.1 * (c * g) * held (K "k_bisulfate") ((10 : ℝ) ^ (-z.2))
        ≤ m' * (c * g) * held (K "k_bisulfate") ((10 : ℝ) ^ (-lo)) := by
      have := mul_nonneg (hz0.trans hzm) hac
      gcongr
    have e6 : M * (1e-6 * (contents.map fun k => x k * uptake K ((10 : ℝ) ^ (-lo)) k).sum)
        ≤ M * (1e-6 * (contents.map fun k => x k * uptake K ((10 : ℝ) ^ (-z.2)) k).sum) := by gcongr
    have e7 : 0 < (z.1 + M) * (K "k_water" / (10 : ℝ) ^ (-z.2)) := by
      have := hpos (-z.2)
      positivity
    have := h.net
    linarith
  have hrise : ∀ y ∈ pts, lo ≤ y.2 → y.2 ≤ hi → ∀ z ∈ pts, lo ≤ z.2 → z.2 ≤ hi → y.1 ≤ z.1 →
      (z.1 - y.1) * (10 : ℝ) ^ (-y.2) ≤ (z.1 + M) * (10 : ℝ) ^ (-z.2) - (y.1 + M) * (10 : ℝ) ^ (-y.2) := by
    intro y hy y1 y2 z hz z1 z2 hyz
    have hm := hmono y hy y1 y2 z hz z1 z2 hyz
    have hz0 := (h.masses z hz z1 z2).1
    have := mul_le_mul_of_nonneg_left hm (show 0 ≤ z.1 + M by linarith)
    linarith
  constructor
  · have hd : ∀ p ∈ granPlot M lo hi pts, ∀ q ∈ granPlot M lo hi pts,
        (p.1 - q.1) ^ 2 * (10 : ℝ) ^ (-hi) ≤ (p.1 - q.1) * (p.2 - q.2) := by
      intro y hy z hz
      obtain ⟨y, hy', y1, y2, rfl⟩ := hpts y hy
      obtain ⟨z, hz', z1, z2, rfl⟩ := hpts z hz
      have hh : ∀ t, t ≤ hi → (10 : ℝ) ^ (-hi) ≤ (10 : ℝ) ^ (-t) := fun t ht =>
        Real.rpow_le_rpow_of_exponent_le (by norm_num) (by linarith)
      dsimp only
      rcases le_total y.1 z.1 with hyz | hyz
      · have e := hrise y hy' y1 y2 z hz' z1 z2 hyz
        have e' := (mul_le_mul_of_nonneg_left (hh _ y2) (sub_nonneg.mpr hyz)).trans e
        have := mul_le_mul_of_nonneg_left e' (sub_nonneg.mpr hyz)
        linarith
      · have e := hrise z hz' z1 z2 y hy' y1 y2 hyz
        have e' := (mul_le_mul_of_nonneg_left (hh _ z2) (sub_nonneg.mpr hyz)).trans e
        have := mul_le_mul_of_nonneg_left e' (sub_nonneg.mpr hyz)
        linarith
    have hh := hpos (-hi)
    refine best_line_rises hbest hp hq (lt_of_lt_of_le ?_ (hd p hp q hq)) fun p hp q hq => le_trans ?_ (hd p hp q hq)
    · have := sub_ne_zero.mpr hne
      positivity
    · positivity
  · have e := (best_line_above (a₀ := c * n) (b₀ := -(A * M)) (x₀ := A * M / (c * n)) hbest hp hq hne ?_ ?_ ?_).2
    · rwa [mul_div_cancel₀ _ hcn.ne', add_neg_cancel] at e
    · intro y hy
      obtain ⟨z, hz, z1, z2, rfl⟩ := hpts y hy
      rw [div_le_iff₀ hcn]
      have := h.beyond z hz z1 z2
      dsimp only
      linarith
    · intro y hy
      obtain ⟨z, hz, z1, z2, rfl⟩ := hpts y hy
      exact habove z hz z1 z2
    · intro y hy z hz
      obtain ⟨y, hy', y1, y2, rfl⟩ := hpts y hy
      obtain ⟨z, hz', z1, z2, rfl⟩ := hpts z hz
      dsimp only
      rcases le_total y.1 z.1 with hyz | hyz
      · exact mul_nonpos_of_nonpos_of_nonneg (by linarith) (by linarith [hfall y hy' y1 y2 z hz' z1 z2 hyz])
      · exact mul_nonpos_of_nonneg_of_nonpos (by linarith) (by linarith [hfall z hz' z1 z2 y hy' y1 y2 hyz])

/-- **C147**: `ph_gran` mode gives too low an alkalinity, if what it leaves out takes up protons. -/
theorem C147_low (w : World) (f : String) (S : Flt) (kw : Dict Val) (x K : String → ℝ)
    (A c n g lo hi M m' : ℝ) (pts : List (ℝ × ℝ)) (h : GranRun w f S kw n lo hi M pts) (hcn : 0 < c * n)
    (ht : TakesUp x K A c n g lo hi M m' pts)
    (h2 : ∃ p ∈ granPlot M lo hi pts, ∃ q ∈ granPlot M lo hi pts, p.1 ≠ q.1)
    (sr : SolveRes) (hs : files_solve w f (fin c) S kw = .ok sr) :
    ∃ A', sr.alkalinity = fin (1e6 * A') ∧ A' < A := by
  obtain ⟨a, b, hbest, -⟩ := C116_one_line M lo hi pts h2
  have hM := h.mass
  obtain ⟨ha, hv⟩ := ht.line hM hcn hbest h2
  obtain ⟨hr, -⟩ := C116_line w f S kw c n lo hi M pts h h2 a b hbest ha.ne' sr hs
  refine ⟨-b / a * c * n / M, by rw [hr]; congr 1; ring, ?_⟩
  have h1 : -b / a < A * M / (c * n) := by rw [div_lt_iff₀ ha]; linarith
  rw [div_lt_iff₀ hM]
  have := mul_lt_mul_of_pos_right h1 hcn
  rw [div_mul_cancel₀ _ hcn.ne'] at this
  linarith

/-- **C147**: and so a calibration in that mode, on such a titration of a reference, finds too strong an acid. -/
theorem C147_strong (w : World) (f : String) (S : Flt) (kw : Dict Val) (x K : String → ℝ)
    (A c n g lo hi M m' : ℝ) (pts : List (ℝ × ℝ)) (h : GranRun w f S kw n lo hi M pts) (hcn : 0 < c * n)
    (ht : TakesUp x K A c n g lo hi M m' pts)
    (h2 : ∃ p ∈ granPlot M lo hi pts, ∃ q ∈ granPlot M lo hi pts, p.1 ≠ q.1) (hA : 0 < A)
    (hreg : Regular w f S kw) (hgl : kw.get? "gran_logic" = none) (res : LsqResult Flt) (c' : ℝ)
    (hcal : files_calibrate w f (fin (1e6 * A)) S kw = .ok res) (hz : res.fun_ = [fin 0]) (hx' : res.x = fin c')
    (hc' : 0 < c') : c < c' := by
  obtain ⟨a, b, hbest, -⟩ := C116_one_line M lo hi pts h2
  have hM := h.mass
  obtain ⟨ha, hv⟩ := ht.line hM hcn hbest h2
  obtain ⟨sr, hsr, hsa, -⟩ := C44_file w f _ S kw res hreg hgl hcal hz
  rw [hx'] at hsr
  rw [(C116_line w f S kw c' n lo hi M pts h h2 a b hbest ha.ne' sr hsr).1] at hsa
  have hsa := Flt.fin.inj hsa
  have h1 : -b / a < A * M / (c * n) := by rw [div_lt_iff₀ ha]; linarith
  have h3 := mul_lt_mul_of_pos_right h1 hcn
  rw [div_mul_cancel₀ _ hcn.ne'] at h3
  have h4 : -b / a * n * c' = A * M := by
    rw [div_eq_iff hM.ne'] at hsa
    linear_combination 1e-6 * hsa
  have h5 : 0 < -b / a * n := by
    by_contra hc
    have := mul_nonpos_of_nonpos_of_nonneg (not_lt.mp hc) hc'.le
    have := mul_pos hA hM
    linarith
  exact lt_of_mul_lt_mul_left (by linarith) h5.le

/-! ### A case: 100 µmol/kg of borate -/

noncomputable def gsX (k : String) : ℝ := if k = "total_borate" then 100 else 0
noncomputable def gsK (k : String) : ℝ := if k = "k_water" then 1e-14 else 1e-6

/-- moles left out at the two points -/
noncomputable def gsL1 : ℝ := 0.101 * (1e-14 / (3e-5 / 0.101)) + 0.1 * (1e-6 * (100 * lost 1e-6 (3e-5 / 0.101)))
noncomputable def gsL2 : ℝ := 0.102 * (1e-14 / (8e-5 / 0.102)) + 0.1 * (1e-6 * (100 * lost 1e-6 (8e-5 / 0.102)))
/-- the acid and the sample for which the points are exact -/
noncomputable def gsC : ℝ := ((8e-5 - gsL2) - (3e-5 - gsL1)) / 0.001
noncomputable def gsA : ℝ := (0.001 * gsC - 3e-5 + gsL1) / 0.1

theorem gs_sum (h : ℝ) : (contents.map fun k => gsX k * uptake gsK h k).sum = 100 * lost 1e-6 h := by
  simp only [contents, List.map_cons, List.map_nil, List.sum_cons, List.sum_nil, gsX, uptake, gsK, String.reduceEq,
    if_true, if_false]
  ring

theorem gs_takesUp : TakesUp gsX gsK gsA gsC 1 0 3 4 0.1 0.002 [(0.001, fgP), (0.002, fgQ)] := by
  have hP : (10 : ℝ) ^ (-fgP) = 3e-5 / 0.101 := by
    rw [fgP, neg_neg, Real.rpow_logb (by norm_num) (by norm_num) (by norm_num)]
  have hQ : (10 : ℝ) ^ (-fgQ) = 8e-5 / 0.102 := by
    rw [fgQ, neg_neg, Real.rpow_logb (by norm_num) (by norm_num) (by norm_num)]
  have k1 : gsK "k_water" = 1e-14 := by simp [gsK]
  constructor
  · intro k _
    unfold gsX
    split_ifs <;> norm_num
  · intro k _
    unfold gsK
    split_ifs <;> norm_num
  · simp
  · simp only [List.mem_cons, List.not_mem_nil, or_false]
    rintro p (rfl | rfl) - - <;> norm_num
  · simp only [List.mem_cons, List.not_mem_nil, or_false]
    rintro p (rfl | rfl) - -
    · dsimp only
      rw [mixture_protons (by norm_num) (by norm_num), hP, k1, gs_sum]
      have : gsA * 0.1 = 0.001 * gsC - 3e-5 + gsL1 := div_mul_cancel₀ _ (by norm_num)
      rw [this, gsL1]
      ring
    · dsimp only
      rw [mixture_protons (by norm_num) (by norm_num), hQ, k1, gs_sum]
      have h1 : gsA * 0.1 = 0.001 * gsC - 3e-5 + gsL1 := div_mul_cancel₀ _ (by norm_num)
      have h2 : gsC * 0.001 = (8e-5 - gsL2) - (3e-5 - gsL1) := div_mul_cancel₀ _ (by norm_num)
      rw [h1, show 0.001 * gsC - 3e-5 + gsL1 - 0.002 * gsC * 1 = -(gsC * 0.001) - 3e-5 + gsL1 by ring, h2, gsL2]
      ring
  · have e1 : gsL1 ≤ 3e-5 := by unfold gsL1 lost; norm_num
    have e2 : 0 ≤ gsC := by unfold gsC gsL1 gsL2 lost; norm_num
    have h1 : gsA * 0.1 = 0.001 * gsC - 3e-5 + gsL1 := div_mul_cancel₀ _ (by norm_num)
    simp only [List.mem_cons, List.not_mem_nil, or_false]
    rintro p (rfl | rfl) - - <;> dsimp only <;> rw [h1] <;> linarith
  · simp only [List.mem_cons, List.not_mem_nil, or_false]
    rintro p (rfl | rfl) - - q (rfl | rfl) - - hpq <;> dsimp only at hpq ⊢
    · exact le_rfl
    · rw [hP, hQ]; norm_num
    · norm_num at hpq
    · exact le_rfl
  · rw [gs_sum]
    have : 0 ≤ lost 1e-6 ((10 : ℝ) ^ (-3 : ℝ)) := by
      unfold lost
      have := Real.rpow_pos_of_pos (show (0 : ℝ) < 10 by norm_num) (-3)
      positivity
    rw [mul_zero, mul_zero, zero_mul]
    positivity

/-- solved: less than the true alkalinity -/
example : ∃ sr A', files_solve (calWorld fgP fgQ) "a.dat" (fin gsC) (fin 35) fgArgs = .ok sr ∧
    sr.alkalinity = fin (1e6 * A') ∧ A' < gsA := by
  obtain ⟨sr, hs⟩ := C116_succeeds (calWorld fgP fgQ) "a.dat" (fin 35) (fin gsC) fgArgs 1 3 4 0.1 _
    fg_run fg_two rfl rfl rfl
  obtain ⟨A', h1, h2⟩ := C147_low _ _ _ _ _ _ _ _ _ _ _ _ _ _ _ fg_run
    (by unfold gsC gsL1 gsL2 lost; norm_num) gs_takesUp fg_two sr hs
  exact ⟨sr, A', hs, h1, h2⟩

noncomputable def gsArgs : Dict Val :=
  [ ("solve_mode", .str "pH_Gran"), ("analyte_mass", .num (fin 0.1)), ("titrant_amount_unit", .str "kg"),
    ("titrant_molinity_init", .num (fin (250 * gsA))) ] ++
  (("dic" :: (optionalContents ++ saltContents)).map fun k => (k, Val.num (fin (pContents k)))) ++
  allConstants.map fun k => (k, Val.num (fin (pConstants k)))

/-- calibrated, by an optimiser that starts at the right value: an acid stronger than the true one -/
example : ∃ (res : LsqResult Flt) (c' : ℝ), files_calibrate (calWorld fgP fgQ) "a.dat" (fin (1e6 * gsA)) (fin 35) gsArgs
    = .ok res ∧ res.x = fin c' ∧ gsC < c' := by
  obtain ⟨cv, totals, ks, h, h1, h2, h3, h4⟩ := p_loads fgP fgQ
  have hl : ∀ w : World, load w "a.dat" (fin 35) gsArgs = load w "a.dat" (fin 35) pArgs := fun _ => rfl
  have hl' : load (calWorld fgP fgQ) "a.dat" (fin 35) gsArgs = .ok (cv, totals, ks) := by rw [hl]; exact h
  have hrun : GranRun (calWorld fgP fgQ) "a.dat" (fin 35) gsArgs 1 3 4 0.1 [(0.001, fgP), (0.002, fgQ)] :=
    ⟨⟨cv, totals, ks, hl', by rw [h1]; rfl, h2, by rw [h3]; rfl⟩, ⟨"pH_Gran", rfl, by decide⟩, .inr ⟨rfl, rfl⟩,
      .inr ⟨rfl, rfl⟩, .inr ⟨rfl, rfl⟩, by norm_num, by norm_num⟩
  have hty : Typed gsArgs "ph_gran" (fin (250 * gsA)) (ttArgs []) := by
    refine ⟨?_, rfl, rfl, ?_⟩
    · have : solve_mode gsArgs = .ok (lowerS "pH_Gran") := rfl
      rw [this]; decide
    · exact ⟨_, rfl⟩
  obtain ⟨sr, hs⟩ := C116_succeeds (calWorld fgP fgQ) "a.dat" (fin 35) (fin (250 * gsA)) gsArgs 1 3 4 0.1 _
    hrun fg_two rfl rfl rfl
  have ha := (C116_line _ _ _ _ _ _ _ _ _ _ hrun fg_two _ _ (ideal_best fg_ideal) (by norm_num) sr hs).1
  rw [show 1e6 * (-(-(2e-4 * 0.1)) / (0.05 * 1)) * (250 * gsA) * 1 / 0.1 = 1e6 * gsA by ring] at ha
  have hc := C32_same_solver (calWorld fgP fgQ) "a.dat" "ph_gran" (fin (1e6 * gsA)) (fin 35) (fin (250 * gsA))
    gsArgs cv totals ks hl' hty rfl (by decide) (by rw [h3, h4]; rfl)
  have hs' : solveRes (calWorld fgP fgQ) "a.dat" (fin 35) (fin (1e6 * gsA)) gsArgs (fin (250 * gsA)) ()
      = (.ok [fin 0], ()) := by
    simp only [solveRes, hs, bind_ok, pure_ok, ha, sub_fin, sub_self, PyS.lift]
  have hcal : files_calibrate (calWorld fgP fgQ) "a.dat" (fin (1e6 * gsA)) (fin 35) gsArgs
      = .ok ⟨fin (250 * gsA), [fin 0]⟩ := by
    rw [hc]
    show (lsqOnce.run (solveRes (calWorld fgP fgQ) "a.dat" (fin 35) (fin (1e6 * gsA)) gsArgs) (fin (250 * gsA)) ()).1 = _
    simp only [Lsq.run, Lsq.loop, lsqOnce, PyS.bind_apply, hs']
    simp [allFinite]
  have hA : 0 < gsA := by unfold gsA gsC gsL1 gsL2 lost; norm_num
  refine ⟨_, _, hcal, rfl, C147_strong _ _ _ _ _ _ _ _ _ _ _ _ _ _ _ hrun
    (by unfold gsC gsL1 gsL2 lost; norm_num) gs_takesUp fg_two hA
    ⟨lsqOnce_reports, cv, totals, ks, "ph_gran", fin (250 * gsA), _, hl', hty, by decide, by rw [h3, h4]; rfl, .inl rfl⟩
    rfl _ _ hcal rfl rfl (by linarith)⟩

end Calk
