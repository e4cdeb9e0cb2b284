import Verif.Lemmas.SolvePH
import Verif.Lemmas.FltMul

/-! Helper lemmas: linear regression and the Gran functions. -/

namespace Calk
open Flt

/-- scaling y scales slope and intercept (any floats) -/
theorem linregress_scale {k : ℝ} (hk : 0 < k) (x y : List Flt) :
    match linregress x y, linregress x (y.map fun b => fin k * b) with
    | .ok lr, .ok lr' => lr'.slope = fin k * lr.slope ∧ lr'.intercept = fin k * lr.intercept
    | .error e, .error e' => e = e'
    | _, _ => False := by
  unfold linregress
  by_cases hl : x.length = y.length
  · simp only [List.length_map, hl, ne_eq, not_true_eq_false, if_false]
    cases h1 : npMax x with
    | error e => simp [bind_error]
    | ok hi =>
    cases h2 : npMin x with
    | error e => simp [bind_ok, bind_error]
    | ok lo =>
    simp only [bind_ok]
    by_cases hc : (feq hi lo && decide (1 < y.length)) = true
    · simp [hc]
    · simp only [hc, Bool.false_eq_true, if_false, pure_ok]
      have e1 : npMean (List.zipWith (fun a b => (a - npMean x) * (b - npMean (y.map fun b => fin k * b)))
          x (y.map fun b => fin k * b))
          = fin k * npMean (List.zipWith (fun a b => (a - npMean x) * (b - npMean y)) x y) := by
        rw [← scale_npMean hk]
        congr 1
        rw [List.zipWith_map_right, List.map_zipWith]
        congr 1
        funext a b
        rw [scale_npMean hk, ← scale_sub hk, Flt.mul_comm, scale_mul hk, Flt.mul_comm (b - _)]
      rw [e1]
      constructor
      · rw [scale_div hk]
      · rw [scale_div hk, scale_npMean hk, scale_mul hk, ← scale_sub hk]
  · simp [hl, List.length_map]

/-- max of a non-empty list of reals -/
theorem foldl_fmax (x : ℝ) (xs : List ℝ) :
    ∃ m ∈ x :: xs, (∀ y ∈ x :: xs, y ≤ m) ∧ (xs.map fin).foldl fmax2 (fin x) = fin m := by
  induction xs generalizing x with
  | nil => exact ⟨x, by simp, by simp, rfl⟩
  | cons a xs ih =>
    have h : fmax2 (fin x) (fin a) = fin (max x a) := by
      unfold fmax2
      by_cases hxa : x ≤ a
      · simp [hxa]
      · simp [hxa, max_eq_left (le_of_not_ge hxa)]
    obtain ⟨m, hm, hle, he⟩ := ih (max x a)
    refine ⟨m, ?_, ?_, ?_⟩
    · rcases List.mem_cons.mp hm with h' | h'
      · rcases max_choice x a with hx | hx <;> rw [h', hx] <;> simp
      · simp [h']
    · intro y hy
      have h0 := hle (max x a) (by simp)
      simp only [List.mem_cons] at hy
      rcases hy with rfl | rfl | hy
      · exact le_trans (le_max_left _ _) h0
      · exact le_trans (le_max_right _ _) h0
      · exact hle y (by simp [hy])
    · simp only [List.map_cons, List.foldl_cons, h, he]

theorem foldl_fmin (x : ℝ) (xs : List ℝ) :
    ∃ m ∈ x :: xs, (∀ y ∈ x :: xs, m ≤ y) ∧ (xs.map fin).foldl fmin2 (fin x) = fin m := by
  induction xs generalizing x with
  | nil => exact ⟨x, by simp, by simp, rfl⟩
  | cons a xs ih =>
    have h : fmin2 (fin x) (fin a) = fin (min x a) := by
      unfold fmin2
      by_cases hxa : x ≤ a
      · simp [hxa]
      · simp [hxa, min_eq_right (le_of_not_ge hxa)]
    obtain ⟨m, hm, hle, he⟩ := ih (min x a)
    refine ⟨m, ?_, ?_, ?_⟩
    · rcases List.mem_cons.mp hm with h' | h'
      · rcases min_choice x a with hx | hx <;> rw [h', hx] <;> simp
      · simp [h']
    · intro y hy
      have h0 := hle (min x a) (by simp)
      simp only [List.mem_cons] at hy
      rcases hy with rfl | rfl | hy
      · exact le_trans h0 (min_le_left _ _)
      · exact le_trans h0 (min_le_right _ _)
      · exact hle y (by simp [hy])
    · simp only [List.map_cons, List.foldl_cons, h, he]

theorem npMax_fin {xs : List ℝ} (h : xs ≠ []) :
    ∃ m ∈ xs, (∀ y ∈ xs, y ≤ m) ∧ npMax (xs.map fin) = .ok (fin m) := by
  cases xs with
  | nil => exact absurd rfl h
  | cons x xs =>
    obtain ⟨m, h1, h2, h3⟩ := foldl_fmax x xs
    exact ⟨m, h1, h2, by simp [npMax, h3]⟩

theorem npMin_fin {xs : List ℝ} (h : xs ≠ []) :
    ∃ m ∈ xs, (∀ y ∈ xs, m ≤ y) ∧ npMin (xs.map fin) = .ok (fin m) := by
  cases xs with
  | nil => exact absurd rfl h
  | cons x xs =>
    obtain ⟨m, h1, h2, h3⟩ := foldl_fmin x xs
    exact ⟨m, h1, h2, by simp [npMin, h3]⟩

theorem sum_pos_of_nonneg {xs : List ℝ} (h : ∀ x ∈ xs, 0 ≤ x) {y : ℝ} (hy : y ∈ xs) (hp : 0 < y) :
    0 < xs.sum := lt_of_lt_of_le hp (List.single_le_sum h y hy)

/-- linear regression on points that lie on a line returns that line -/
theorem linregress_exact {xs : List ℝ} (a b : ℝ) (h : ∃ x ∈ xs, ∃ y ∈ xs, x ≠ y) :
    ∃ lr, linregress (xs.map fin) (xs.map fun x => fin (a * x + b)) = .ok lr ∧
      lr.slope = fin a ∧ lr.intercept = fin b := by
  obtain ⟨x, hx, y, hy, hxy⟩ := h
  have hne : xs ≠ [] := by rintro rfl; simp at hx
  have hl : (0 : ℝ) < xs.length := by
    have := List.length_pos_iff.mpr hne
    positivity
  obtain ⟨hi, hhi, hle, hmax⟩ := npMax_fin hne
  obtain ⟨lo, hlo, hge, hmin⟩ := npMin_fin hne
  have hlohi : lo < hi := by
    rcases lt_or_gt_of_ne hxy with h | h
    · exact lt_of_le_of_lt (hge x hx) (lt_of_lt_of_le h (hle y hy))
    · exact lt_of_le_of_lt (hge y hy) (lt_of_lt_of_le h (hle x hx))
  have hfeq : feq (fin hi) (fin lo) = false := by simp [feq, not_le.mpr hlohi]
  have hxm : npMean (xs.map fin) = fin (rmean xs) := npMean_map_fin xs hne
  have hsum : (xs.map fun x => a * x + b).sum = a * xs.sum + xs.length * b := by
    clear hmax hmin hle hge hhi hlo hx hy hne hl hxm
    induction xs with
    | nil => simp
    | cons z zs ih => simp only [List.map_cons, List.sum_cons, ih, List.length_cons, Nat.cast_succ]; ring
  have hym : npMean (xs.map fun x => fin (a * x + b)) = fin (a * rmean xs + b) := by
    have : (xs.map fun x => fin (a * x + b)) = (xs.map fun x => a * x + b).map fin := by simp
    rw [this, npMean_map_fin _ (by simpa using hne)]
    simp only [rmean, hsum, List.length_map, fin_inj]
    field_simp
  have hss : npMean ((xs.map fin).map fun u => Flt.sq (u - fin (rmean xs)))
      = fin (rmean (xs.map fun u => (u - rmean xs) ^ 2)) := by
    have : ((xs.map fin).map fun u => Flt.sq (u - fin (rmean xs)))
        = (xs.map fun u => (u - rmean xs) ^ 2).map fin := by simp [Function.comp_def]
    rw [this, npMean_map_fin _ (by simpa using hne)]
  set V := rmean (xs.map fun u => (u - rmean xs) ^ 2) with hV
  have hVpos : 0 < V := by
    rw [hV]; unfold rmean
    apply div_pos
    · have : x ≠ xs.sum / xs.length ∨ y ≠ xs.sum / xs.length := by
        by_contra hcon; push Not at hcon; exact hxy (hcon.1.trans hcon.2.symm)
      have hnn : ∀ z ∈ xs.map (fun u => (u - xs.sum / xs.length) ^ 2), 0 ≤ z := by
        intro z hz; obtain ⟨w, -, rfl⟩ := List.mem_map.mp hz; positivity
      rcases this with h | h
      · refine sum_pos_of_nonneg hnn (List.mem_map.mpr ⟨x, hx, rfl⟩) ?_
        have := sub_ne_zero.mpr h; positivity
      · refine sum_pos_of_nonneg hnn (List.mem_map.mpr ⟨y, hy, rfl⟩) ?_
        have := sub_ne_zero.mpr h; positivity
    · simpa using hl
  have hsxy : npMean (List.zipWith (fun u v => (u - fin (rmean xs)) * (v - fin (a * rmean xs + b)))
      (xs.map fin) (xs.map fun x => fin (a * x + b))) = fin (a * V) := by
    rw [zipWith_map_same]
    have : (xs.map fun x => (fin x - fin (rmean xs)) * (fin (a * x + b) - fin (a * rmean xs + b)))
        = (xs.map fun u => a * (u - rmean xs) ^ 2).map fin := by
      simp only [List.map_map, Function.comp_def, sub_fin, mul_fin]
      apply List.map_congr_left
      intro u _; congr 1; ring
    rw [this, npMean_map_fin _ (by simpa using hne), hV]
    simp only [rmean, List.length_map, fin_inj]
    rw [List.sum_map_mul_left]
    ring
  have hVne : V ≠ 0 := hVpos.ne'
  unfold linregress
  simp only [List.length_map, ne_eq, not_true_eq_false, if_false, hmax, hmin, bind_ok, hfeq,
    Bool.false_and, Bool.false_eq_true, pure_ok, hxm, hym, hsxy, hss]
  refine ⟨_, rfl, ?_, ?_⟩
  · simp only [Flt.div_fin _ _ hVne, fin_inj]; field_simp
  · simp only [Flt.div_fin _ _ hVne, mul_fin, sub_fin, fin_inj]; field_simp; ring


/-! ### point selection -/

theorem gran_used_default {gs : List ℝ} (hne : gs ≠ []) (hpos : ∀ g ∈ gs, 0 < g) :
    ∃ k mx, mx ∈ gs ∧ (∀ g ∈ gs, g ≤ mx) ∧ (∃ hk : k < gs.length, 0.1 * mx < gs[k]) ∧
      (∀ i, (hi : i < gs.length) → i < k → gs[i] ≤ 0.1 * mx) ∧
      gran_used (gs.map fin) "v23.7+"
        = .ok (List.replicate k false ++ List.replicate (gs.length - k) true) := by
  obtain ⟨mx, hmem, hle, hmax⟩ := npMax_fin hne
  have hl : ((gs.map fin).map fun g => (fin 0.1 * fin mx).lt g)
      = gs.map fun g => decide (0.1 * mx < g) := by simp [Function.comp_def]
  have hex : ∃ k, (gs.map fun g => decide (0.1 * mx < g)).findIdx? id = some k := by
    cases h : (gs.map fun g => decide (0.1 * mx < g)).findIdx? id with
    | some k => exact ⟨k, rfl⟩
    | none =>
      rw [List.findIdx?_eq_none_iff] at h
      have := h (decide (0.1 * mx < mx)) (List.mem_map.mpr ⟨mx, hmem, rfl⟩)
      have hp := hpos mx hmem
      simp at this
      linarith
  obtain ⟨k, hk⟩ := hex
  have hk' := hk
  rw [List.findIdx?_eq_some_iff_getElem] at hk'
  obtain ⟨h1, h2, h3⟩ := hk'
  refine ⟨k, mx, hmem, hle, ⟨by simpa using h1, by simpa using h2⟩, ?_, ?_⟩
  · intro i hi hik
    have := h3 i hik
    simpa using this
  · simp only [gran_used, if_true, hmax, bind_ok, hl, hk, List.length_map]

theorem gran_used_legacy {gs : List ℝ} (hne : gs ≠ []) :
    ∃ mx, mx ∈ gs ∧ (∀ g ∈ gs, g ≤ mx) ∧
      gran_used (gs.map fin) "legacy"
        = .ok (gs.map fun g => decide (0.1 * mx < g) && decide (g < 0.9 * mx)) := by
  obtain ⟨mx, hmem, hle, hmax⟩ := npMax_fin hne
  refine ⟨mx, hmem, hle, ?_⟩
  simp [gran_used, hmax, Function.comp_def]

/-! ### titrations as lists of points (mass, EMF, temperature) -/

theorem zip3With_map {α : Type} (f : Flt → Flt → Flt → Flt) (a b c : α → Flt) (xs : List α) :
    zip3With f (xs.map a) (xs.map b) (xs.map c) = xs.map fun x => f (a x) (b x) (c x) := by
  unfold zip3With
  rw [List.zip, zipWith_map_same, zipWith_map_same]

theorem sameShape3_map {α : Type} (a b c : α → Flt) (xs : List α) :
    sameShape3 (xs.map a) (xs.map b) (xs.map c) = .ok () := by simp [sameShape3]

theorem gran_function_fin {m e t M : ℝ} (ht : -273.15 < t) :
    gran_function (fin m) (fin e) (fin t) (fin M) = fin (Spec.gran M (m, e, t)) := by
  have : ideal_gas * (t + absolute_zero) ≠ 0 := by
    unfold ideal_gas absolute_zero; nlinarith
  simp only [gran_function, add_fin, mul_fin, div_fin _ _ this, exp_fin]
  simp only [Spec.gran, faraday, ideal_gas, absolute_zero]

theorem gran_gfunc (pts : List (ℝ × ℝ × ℝ)) (M : ℝ) (ht : ∀ p ∈ pts, -273.15 < p.2.2) :
    zip3With (fun m e t => gran_function m e t (fin M)) (pts.map fun p => fin p.1)
      (pts.map fun p => fin p.2.1) (pts.map fun p => fin p.2.2) = (pts.map (Spec.gran M)).map fin := by
  rw [zip3With_map, List.map_map]
  apply List.map_congr_left
  intro p hp
  exact gran_function_fin (ht p hp)

theorem gran_pos {M : ℝ} {p : ℝ × ℝ × ℝ} (h : 0 < p.1 + M) : 0 < Spec.gran M p := by
  unfold Spec.gran; positivity


/-! ### exact data -/

theorem gran_nernst {M E0 t h m : ℝ} (ht : -273.15 < t) (hh : 0 < h) :
    Spec.gran M (m, Spec.nernst E0 t h, t)
      = Real.exp (E0 * 96.4853365 / (8.3144621 * (t + 273.15))) * ((m + M) * h) := by
  have h1 : (0 : ℝ) < t + 273.15 := by linarith
  simp only [Spec.gran, Spec.nernst]
  have : (E0 + 8.3144621 * (t + 273.15) / 96.4853365 * Real.log h) * 96.4853365
      / (8.3144621 * (t + 273.15))
      = E0 * 96.4853365 / (8.3144621 * (t + 273.15)) + Real.log h := by
    field_simp
  rw [this, Real.exp_add, Real.exp_log hh]
  ring

theorem _root_.Calk.Spec.IdealStrongAcid.gran_eq {A E0 t M c n : ℝ} {pts : List (ℝ × ℝ × ℝ)}
    (h : Spec.IdealStrongAcid A E0 t M c n pts) (ht : -273.15 < t) {p : ℝ × ℝ × ℝ} (hp : p ∈ pts) :
    Spec.gran M p = Real.exp (E0 * 96.4853365 / (8.3144621 * (t + 273.15)))
      * (p.1 * c * n - M * A) := by
  obtain ⟨m, e, t'⟩ := p
  have h1 := h.mass _ hp
  have h2 := h.past _ hp
  have h3 := h.temp _ hp
  have h4 := h.emf _ hp
  simp only at h1 h2 h3 h4
  subst h3
  have h5 : 0 < Spec.strongAcidH A M c n m := div_pos h2 h1
  rw [h4, gran_nernst ht h5, Spec.strongAcidH]
  field_simp

/-- `gran_guesses` on exact data, given which points are used -/
theorem gran_guesses_ideal {A E0 t M c n : ℝ} {pts : List (ℝ × ℝ × ℝ)} {logic : String}
    {u : List Bool} (hid : Spec.IdealStrongAcid A E0 t M c n pts) (ht : -273.15 < t) (hM : 0 < M)
    (hc : 0 < c) (hn : 0 < n)
    (hu : gran_used ((pts.map (Spec.gran M)).map fin) logic = .ok u)
    (h2 : ∃ p ∈ mask u pts, ∃ q ∈ mask u pts, p.1 ≠ q.1) :
    ∃ r, gran_guesses (pts.map fun p => fin p.1) (pts.map fun p => fin p.2.1)
        (pts.map fun p => fin p.2.2) (fin M) (fin c) (fin n) logic = .ok r ∧
      r.ga.used = u ∧
      r.ga.alkalinity = fin A ∧ r.emf0 = fin E0 ∧ r.emf0s = pts.map (fun _ => fin E0) ∧
      r.pH = pts.map fun p => fin (-Real.logb 10 (Spec.strongAcidH A M c n p.1)) := by
  set K := Real.exp (E0 * 96.4853365 / (8.3144621 * (t + 273.15))) with hK
  have hKpos : 0 < K := Real.exp_pos _
  have hts : ∀ p ∈ pts, -273.15 < p.2.2 := fun p hp => by rw [hid.temp p hp]; exact ht
  have hs0 : ideal_gas * (t + absolute_zero) / faraday ≠ 0 := (nslope_pos ht).ne'
  obtain ⟨lr, hlr, hsl, hin⟩ := linregress_exact (xs := (mask u pts).map (·.1)) (K * (c * n)) (-(K * (M * A)))
    (by
      obtain ⟨p, hp, q, hq, hpq⟩ := h2
      exact ⟨p.1, List.mem_map.mpr ⟨p, hp, rfl⟩, q.1, List.mem_map.mpr ⟨q, hq, rfl⟩, hpq⟩)
  have hx : mask u (pts.map fun p => fin p.1) = ((mask u pts).map (·.1)).map fin := by
    rw [mask_map, List.map_map]; rfl
  have hy : mask u ((pts.map (Spec.gran M)).map fin)
      = ((mask u pts).map (·.1)).map fun x => fin (K * (c * n) * x + -(K * (M * A))) := by
    rw [List.map_map, mask_map, List.map_map]
    apply List.map_congr_left
    intro p hp
    simp only [Function.comp_apply, fin_inj]
    rw [hid.gran_eq ht (mem_of_mem_mask hp)]
    ring
  have hga : gran_alkalinity (pts.map fun p => fin p.1) (pts.map fun p => fin p.2.1)
      (pts.map fun p => fin p.2.2) (fin M) (fin c) (fin n) logic
      = .ok { alkalinity := fin A, gfunc := (pts.map (Spec.gran M)).map fin, used := u,
              intercept_x := fin (M * A / (c * n)), lr := lr,
              warnFew := decide ((u.filter id).length < 3), warnR := lr.rvalue.lt (fin 0.95) } := by
    simp only [gran_alkalinity, sameShape3_map, bind_ok, gran_gfunc pts M hts, hu, hx, hy, hlr,
      hsl, hin, pure_ok]
    have hne : K * (c * n) ≠ 0 := by positivity
    simp only [neg_fin, div_fin _ _ hne, mul_fin, div_fin _ _ hM.ne']
    have e1 : - -(K * (M * A)) / (K * (c * n)) = M * A / (c * n) := by field_simp
    have e2 : M * A / (c * n) * c * n / M = A := by field_simp
    rw [e1, e2]
  have hemf0s : zip3With (fun m e t => gran_emf0 m e t (fin M) (fin c) (fin A) (fin n))
      (pts.map fun p => fin p.1) (pts.map fun p => fin p.2.1) (pts.map fun p => fin p.2.2)
      = pts.map fun _ => fin E0 := by
    rw [zip3With_map]
    apply List.map_congr_left
    intro p hp
    have h1 := hid.mass p hp
    have h2 := hid.past p hp
    have hf : (faraday : ℝ) ≠ 0 := by norm_num [faraday]
    have hpos : 0 < (p.1 * c * n - M * A) / (p.1 + M) := div_pos h2 h1
    simp only [gran_emf0, hid.temp p hp, hid.emf p hp, mul_fin, sub_fin, add_fin, div_fin _ _ h1.ne',
      div_fin _ _ hf, log_fin _ hpos, fin_inj]
    simp only [Spec.nernst, Spec.strongAcidH, ideal_gas, faraday, absolute_zero]
    ring
  have hmean : npMean (mask u (pts.map fun _ => fin E0)) = fin E0 := by
    have hne : mask u pts ≠ [] := by
      obtain ⟨p, hp, -⟩ := h2
      exact List.ne_nil_of_mem hp
    have : mask u (pts.map fun _ => fin E0) = ((mask u pts).map fun _ => E0).map fin := by
      rw [mask_map, List.map_map]; rfl
    rw [this, npMean_map_fin _ (by simpa using hne), rmean_const _ E0 (by simpa using hne)]
    intro x hx
    obtain ⟨_, -, rfl⟩ := List.mem_map.mp hx; rfl
  have hpH : emf_to_pH_arr (pts.map fun p => fin p.2.1) (fin E0) (pts.map fun p => fin p.2.2)
      = pts.map fun p => fin (-Real.logb 10 (Spec.strongAcidH A M c n p.1)) := by
    unfold emf_to_pH_arr
    rw [zipWith_map_same]
    apply List.map_congr_left
    intro p hp
    rw [hid.temp p hp, hid.emf p hp, emf_to_pH_fin ht]
    have hns : nslope t ≠ 0 := hs0
    have : Spec.nernst E0 t (Spec.strongAcidH A M c n p.1) - E0
        = nslope t * Real.log (Spec.strongAcidH A M c n p.1) := by
      simp only [Spec.nernst, nslope, ideal_gas, faraday, absolute_zero]; ring
    rw [this, Real.logb]
    congr 2
    field_simp
  simp only [gran_guesses, hga, bind_ok, hemf0s, hmean, hpH, pure_ok]
  exact ⟨_, rfl, rfl, rfl, rfl, rfl, rfl⟩

/-! ### electrode offset -/

theorem scale_lt {k : ℝ} (hk : 0 < k) (a b : Flt) : (fin k * a).lt (fin k * b) = a.lt b := by
  cases a <;> cases b <;> simp only [scale_pinf hk, scale_ninf hk, mul_nan, mul_fin] <;>
    simp [Flt.lt, hk]

theorem scale_le {k : ℝ} (hk : 0 < k) (a b : Flt) : (fin k * a).le (fin k * b) = a.le b := by
  cases a <;> cases b <;> simp only [scale_pinf hk, scale_ninf hk, mul_nan, mul_fin] <;>
    simp [Flt.le, hk]

theorem scale_isNaN {k : ℝ} (hk : 0 < k) (a : Flt) : (fin k * a).isNaN = a.isNaN := by
  cases a <;> simp only [scale_pinf hk, scale_ninf hk, mul_nan, mul_fin] <;> rfl

theorem fmax2_scale {k : ℝ} (hk : 0 < k) (a b : Flt) :
    fmax2 (fin k * a) (fin k * b) = fin k * fmax2 a b := by
  unfold fmax2
  rw [scale_isNaN hk, scale_isNaN hk, scale_le hk]
  split
  · simp
  · split <;> rfl

theorem foldl_fmax_scale {k : ℝ} (hk : 0 < k) (xs : List Flt) (x : Flt) :
    (xs.map fun y => fin k * y).foldl fmax2 (fin k * x) = fin k * xs.foldl fmax2 x := by
  induction xs generalizing x with
  | nil => rfl
  | cons y ys ih => simp only [List.map_cons, List.foldl_cons, fmax2_scale hk, ih]

theorem npMax_scale {k : ℝ} (hk : 0 < k) (xs : List Flt) :
    npMax (xs.map fun y => fin k * y) = (npMax xs).map (fun y => fin k * y) := by
  cases xs with
  | nil => rfl
  | cons x xs => simp only [List.map_cons, npMax, foldl_fmax_scale hk]; rfl

theorem mul_left_scale {k : ℝ} (hk : 0 < k) (a b : Flt) : a * (fin k * b) = fin k * (a * b) := by
  rw [Flt.mul_comm, scale_mul hk, Flt.mul_comm b]

/-- point selection does not change when the Gran function is scaled -/
theorem gran_used_scale {k : ℝ} (hk : 0 < k) (g : List Flt) (logic : String) :
    gran_used (g.map fun y => fin k * y) logic = gran_used g logic := by
  unfold gran_used
  rw [npMax_scale hk]
  cases h : npMax g with
  | error e => simp [Except.map, bind_error]
  | ok mx =>
    simp only [Except.map, bind_ok, List.map_map, Function.comp_def, mul_left_scale hk, scale_lt hk,
      List.length_map]

theorem exp_shift (x : Flt) (d : ℝ) : Flt.exp (x + fin d) = fin (Real.exp d) * Flt.exp x := by
  cases x with
  | nan => simp [Flt.exp]
  | ninf => simp [Flt.exp]; rfl
  | pinf => show pinf = _ * pinf; rw [scale_pinf (Real.exp_pos _)]
  | fin x => simp [Real.exp_add, mul_comm]

theorem pinf_div_pos {y : ℝ} (h : 0 < y) : pinf / fin y = pinf := by
  show (if y = 0 then _ else _) = _; rw [if_neg h.ne', infMul_pos h]

theorem ninf_div_pos {y : ℝ} (h : 0 < y) : ninf / fin y = ninf := by
  show (if y = 0 then _ else _) = _; rw [if_neg h.ne', infMul_neg (by linarith)]

theorem gran_function_shift {m e M : Flt} {d t : ℝ} (ht : -273.15 < t) :
    gran_function m (e + fin d) (fin t) M
      = fin (Real.exp (d * faraday / (ideal_gas * (t + absolute_zero)))) * gran_function m e (fin t) M := by
  have h0 : 0 < ideal_gas * (t + absolute_zero) := by
    unfold ideal_gas absolute_zero; nlinarith
  have hf : 0 < faraday := faraday_pos
  have : (e + fin d) * fin faraday / (fin ideal_gas * (fin t + fin absolute_zero))
      = e * fin faraday / (fin ideal_gas * (fin t + fin absolute_zero))
        + fin (d * faraday / (ideal_gas * (t + absolute_zero))) := by
    simp only [add_fin, mul_fin]
    cases e with
    | nan => simp
    | ninf =>
      show infMul (-faraday) / _ = infMul (-faraday) / _ + _
      rw [infMul_neg (by linarith), ninf_div_pos h0]; rfl
    | pinf =>
      show infMul faraday / _ = infMul faraday / _ + _
      rw [infMul_pos hf, pinf_div_pos h0]; rfl
    | fin x =>
      simp only [add_fin, mul_fin, div_fin _ _ h0.ne', fin_inj]
      ring
  unfold gran_function
  rw [this, exp_shift, mul_left_scale (Real.exp_pos _)]


theorem sub_add_cancel_shift (a b : Flt) (d : ℝ) : (a + fin d) - (b + fin d) = a - b := by
  cases a <;> cases b <;> first | rfl | skip
  simp only [add_fin, sub_fin, fin_inj]; ring

theorem add_sub_shift (a b : Flt) (d : ℝ) : (a + fin d) - b = a - b + fin d := by
  cases a <;> cases b <;> first | rfl | skip
  simp only [add_fin, sub_fin, fin_inj]; ring

/-- a constant EMF offset in an isothermal titration: Gran estimates -/
theorem gran_guesses_shift (tm emf : List Flt) (t d : ℝ) (ht : -273.15 < t) (M c n : Flt)
    (logic : String) (k : ℕ) :
    match gran_guesses tm emf (List.replicate k (fin t)) M c n logic,
      gran_guesses tm (emf.map fun e => e + fin d) (List.replicate k (fin t)) M c n logic with
    | .ok r, .ok r' => r'.ga.used = r.ga.used ∧ r'.ga.alkalinity = r.ga.alkalinity ∧
        r'.ga.gfunc = r.ga.gfunc.map (fun g =>
          fin (Real.exp (d * faraday / (ideal_gas * (t + absolute_zero)))) * g) ∧
        r'.emf0 = r.emf0 + fin d ∧ r'.emf0s = r.emf0s.map (fun e => e + fin d) ∧ r'.pH = r.pH
    | .error e, .error e' => e = e'
    | _, _ => False := by
  set K := Real.exp (d * faraday / (ideal_gas * (t + absolute_zero))) with hK
  have hKp : 0 < K := Real.exp_pos _
  by_cases hsh : tm.length = emf.length ∧ emf.length = k
  swap
  · simp [gran_guesses, gran_alkalinity, sameShape3, hsh, bind_error]
  obtain ⟨hl1, hl2⟩ := hsh
  have hg : zip3With (fun m e t => gran_function m e t M) tm (emf.map fun e => e + fin d)
      (List.replicate k (fin t))
      = (zip3With (fun m e t => gran_function m e t M) tm emf (List.replicate k (fin t))).map
        fun g => fin K * g := by
    apply List.ext_getElem
    · simp [zip3With]
    · intro i h1 h2
      simp [zip3With, gran_function_shift ht, ← hK]
  have hs : sameShape3 tm emf (List.replicate k (fin t)) = .ok () := by
    simp [sameShape3, hl1, hl2]
  have hs' : sameShape3 tm (emf.map fun e => e + fin d) (List.replicate k (fin t)) = .ok () := by
    simp [sameShape3, hl1, hl2]
  simp only [gran_guesses, gran_alkalinity, hs, hs', bind_ok, hg, gran_used_scale hKp]
  generalize zip3With (fun m e t => gran_function m e t M) tm emf (List.replicate k (fin t)) = g
  cases hu : gran_used g logic with
  | error e => simp [bind_error]
  | ok u =>
    simp only [bind_ok, mask_map]
    have hlr := linregress_scale hKp (mask u tm) (mask u g)
    cases h1 : linregress (mask u tm) (mask u g) with
    | error e =>
      cases h2 : linregress (mask u tm) ((mask u g).map fun b => fin K * b) with
      | error e' => rw [h1, h2] at hlr; simpa [bind_error] using hlr
      | ok lr => rw [h1, h2] at hlr; exact hlr.elim
    | ok lr =>
      cases h2 : linregress (mask u tm) ((mask u g).map fun b => fin K * b) with
      | error e' => rw [h1, h2] at hlr; exact hlr.elim
      | ok lr' =>
        rw [h1, h2] at hlr
        obtain ⟨hsl, hin⟩ := hlr
        have hx : -lr'.intercept / lr'.slope = -lr.intercept / lr.slope := by
          rw [hsl, hin, scale_neg hKp, div_scale hKp]
        simp only [bind_ok, pure_ok, hx]
        generalize -lr.intercept / lr.slope * c * n / M = A
        have he : zip3With (fun m e t => gran_emf0 m e t M c A n) tm (emf.map fun e => e + fin d)
            (List.replicate k (fin t))
            = (zip3With (fun m e t => gran_emf0 m e t M c A n) tm emf
              (List.replicate k (fin t))).map fun e => e + fin d := by
          apply List.ext_getElem
          · simp [zip3With]
          · intro i h1 h2
            simp [zip3With, gran_emf0, add_sub_shift]
        refine ⟨trivial, trivial, trivial, ?_, he, ?_⟩
        · rw [he, mask_map, npMean_shift]
        · rw [he, mask_map, npMean_shift]
          unfold emf_to_pH_arr
          rw [List.zipWith_map_left]
          congr 1
          funext e t
          simp only [emf_to_pH, emf_to_h, sub_add_cancel_shift]

/-! ### `solve_pH_gran`, NaN -/

theorem solve_pH_gran_eq (pts : List (ℝ × ℝ)) (M lo hi : ℝ) (c n : Flt) (hw : lo < hi) :
    solve_pH_gran c (pts.map fun p => fin p.1) (pts.map fun p => fin p.2) (fin M)
        { pH_min := fin lo, pH_max := fin hi, titrant_normality := n } =
      (do
        let q := pts.filter fun p => decide (lo ≤ p.2) && decide (p.2 ≤ hi)
        let lr ← linregress ((q.map (·.1)).map fin) (q.map fun p => fin ((p.1 + M) * (10:ℝ) ^ (-p.2)))
        return { alkalinity := fin 1e6 * (-lr.intercept / lr.slope * c * n / fin M),
                 used := pts.map fun p => decide (lo ≤ p.2) && decide (p.2 ≤ hi),
                 gfunc := pts.map fun p => fin ((p.1 + M) * (10:ℝ) ^ (-p.2)), lr }) := by
  have hu : pH_used (pts.map fun p => fin p.2) (fin lo) (fin hi)
      = pts.map fun p => decide (lo ≤ p.2) && decide (p.2 ≤ hi) := by
    simp [pH_used, Function.comp_def]
  have hg : List.zipWith (fun m p => (m + fin M) * Flt.pow10 (-p)) (pts.map fun p => fin p.1)
      (pts.map fun p => fin p.2) = pts.map fun p => fin ((p.1 + M) * (10:ℝ) ^ (-p.2)) := by
    rw [zipWith_map_same]; simp
  simp only [solve_pH_gran, pyAssert, lt_fin, hw, decide_true, if_true, bind_ok, hu, sameShape2,
    List.length_map, hg, mask_map, mask_eq_filter, List.map_map]
  rfl

theorem foldl_fmax_nan (xs : List Flt) (x : Flt) (h : x = nan ∨ nan ∈ xs) :
    xs.foldl fmax2 x = nan := by
  induction xs generalizing x with
  | nil => simpa using h
  | cons y ys ih =>
    simp only [List.foldl_cons]
    apply ih
    rcases h with rfl | h
    · left; simp [fmax2]
    · rcases List.mem_cons.mp h with rfl | h
      · left; simp [fmax2]
      · exact Or.inr h

theorem npMax_nan {xs : List Flt} (h : nan ∈ xs) : npMax xs = .ok nan := by
  cases xs with
  | nil => simp at h
  | cons x xs =>
    simp only [npMax]
    rw [foldl_fmax_nan]
    rcases List.mem_cons.mp h with h | h
    · exact Or.inl h.symm
    · exact Or.inr h

end Calk
