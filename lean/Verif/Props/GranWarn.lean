import Verif.Props.Gran

/-!
# Property C110: the warnings of the Gran fit
(`calkulate/core.py: gran_alkalinity`)
-/

namespace Calk
open Flt Spec

/-- correlation coefficient of a list of points (0 if one of the coordinates is constant) -/
noncomputable def Spec.corr (l : List (ℝ × ℝ)) : ℝ :=
  let mx := (l.map fun p => p.1).sum / l.length
  let my := (l.map fun p => p.2).sum / l.length
  (l.map fun p => (p.1 - mx) * (p.2 - my)).sum /
    √((l.map fun p => (p.1 - mx) ^ 2).sum * (l.map fun p => (p.2 - my) ^ 2).sum)

theorem linregress_rvalue {l : List (ℝ × ℝ)} {lr : LinRegress}
    (h : linregress (l.map fun p => fin p.1) (l.map fun p => fin p.2) = .ok lr) :
    lr.rvalue = fin (corr l) := by
  have hne : l ≠ [] := by
    rintro rfl
    simp [linregress, npMax, bind_error] at h
  have hl : (0 : ℝ) < l.length := by
    have := List.length_pos_iff.mpr hne
    positivity
  set mx := (l.map fun p => p.1).sum / l.length with hmx
  set my := (l.map fun p => p.2).sum / l.length with hmy
  have hx : npMean (l.map fun p => fin p.1) = fin mx := by
    have := npMean_map_fin (l.map fun p => p.1) (by simpa using hne)
    rw [List.map_map] at this
    simpa [rmean, Function.comp_def] using this
  have hy : npMean (l.map fun p => fin p.2) = fin my := by
    have := npMean_map_fin (l.map fun p => p.2) (by simpa using hne)
    rw [List.map_map] at this
    simpa [rmean, Function.comp_def] using this
  have hxx : npMean ((l.map fun p => fin p.1).map fun a => Flt.sq (a - fin mx))
      = fin ((l.map fun p => (p.1 - mx) ^ 2).sum / l.length) := by
    have := npMean_map_fin (l.map fun p => (p.1 - mx) ^ 2) (by simpa using hne)
    rw [List.map_map] at this
    simpa [rmean, Function.comp_def] using this
  have hyy : npMean ((l.map fun p => fin p.2).map fun a => Flt.sq (a - fin my))
      = fin ((l.map fun p => (p.2 - my) ^ 2).sum / l.length) := by
    have := npMean_map_fin (l.map fun p => (p.2 - my) ^ 2) (by simpa using hne)
    rw [List.map_map] at this
    simpa [rmean, Function.comp_def] using this
  have hxy : npMean (List.zipWith (fun a b => (a - fin mx) * (b - fin my)) (l.map fun p => fin p.1)
      (l.map fun p => fin p.2)) = fin ((l.map fun p => (p.1 - mx) * (p.2 - my)).sum / l.length) := by
    have := npMean_map_fin (l.map fun p => (p.1 - mx) * (p.2 - my)) (by simpa using hne)
    rw [List.map_map] at this
    rw [zipWith_map_same]
    simpa [rmean, Function.comp_def] using this
  unfold linregress at h
  simp only [List.length_map, ne_eq, not_true_eq_false, if_false, bind_ok_iff, hx, hy, hxx, hyy,
    hxy] at h
  obtain ⟨hi, -, lo, -, h⟩ := h
  by_cases hc : (feq hi lo && decide (1 < l.length)) = true
  · simp [hc, bind_error] at h
  simp only [hc, Bool.false_eq_true, if_false, bind_ok, pure_ok] at h
  have h := Except.ok.inj h
  rw [← h]
  show (if _ then _ else _) = _
  unfold corr
  simp only [← hmx, ← hmy]
  set Sx := (l.map fun p => (p.1 - mx) ^ 2).sum with hSx
  set Sy := (l.map fun p => (p.2 - my) ^ 2).sum with hSy
  set Sxy := (l.map fun p => (p.1 - mx) * (p.2 - my)).sum with hSxy
  have hSx0 : 0 ≤ Sx := List.sum_nonneg (by
    intro z hz; obtain ⟨w, -, rfl⟩ := List.mem_map.mp hz; positivity)
  have hSy0 : 0 ≤ Sy := List.sum_nonneg (by
    intro z hz; obtain ⟨w, -, rfl⟩ := List.mem_map.mp hz; positivity)
  by_cases hz : Sx = 0 ∨ Sy = 0
  · rw [if_pos]
    · rcases hz with hz | hz <;> simp [hz]
    · rcases hz with hz | hz <;> simp [feq, hz]
  · simp only [not_or] at hz
    have h1 : 0 < Sx := lt_of_le_of_ne hSx0 (Ne.symm hz.1)
    have h2 : 0 < Sy := lt_of_le_of_ne hSy0 (Ne.symm hz.2)
    rw [if_neg]
    · have h3 : 0 ≤ Sx / l.length * (Sy / l.length) := by positivity
      have h4 : √(Sx / l.length * (Sy / l.length)) = √(Sx * Sy) / l.length := by
        rw [show Sx / l.length * (Sy / l.length) = Sx * Sy / (l.length : ℝ) ^ 2 by field_simp,
          Real.sqrt_div (by positivity), Real.sqrt_sq hl.le]
      have h5 : 0 < √(Sx * Sy) := Real.sqrt_pos.mpr (by positivity)
      rw [mul_fin, sqrt_fin _ h3, h4, div_fin _ _ (by positivity), fin_inj]
      field_simp
    · have h6 : 0 < Sx / l.length := by positivity
      have h7 : 0 < Sy / l.length := by positivity
      simp [feq, not_le.mpr h6, not_le.mpr h7]

/-- the points selected by the flags `u` -/
def Spec.usedPoints {α : Type} (u : List Bool) (pts : List α) : List α :=
  ((pts.zip u).filter fun q => q.2).map fun q => q.1

theorem usedPoints_eq {α : Type} (u : List Bool) (pts : List α) :
    usedPoints u pts = mask u pts := by
  induction pts generalizing u with
  | nil => cases u <;> simp [usedPoints, mask]
  | cons p ps ih =>
    cases u with
    | nil => simp [usedPoints, mask]
    | cons b bs =>
      have := ih bs
      cases b <;> simp_all [usedPoints, mask]

/-- the used points of a Gran fit: titrant mass against the Gran function -/
noncomputable def Spec.granPoints (M : ℝ) (u : List Bool) (pts : List (ℝ × ℝ × ℝ)) : List (ℝ × ℝ) :=
  (usedPoints u pts).map fun p => (p.1, gran M p)

/-- neither coordinate is the same at all points -/
def Spec.Spread (l : List (ℝ × ℝ)) : Prop :=
  (∃ p ∈ l, ∃ q ∈ l, p.1 ≠ q.1) ∧ ∃ p ∈ l, ∃ q ∈ l, p.2 ≠ q.2

theorem gran_warnR {pts : List (ℝ × ℝ × ℝ)} {M : ℝ} {c n : Flt} {logic : String}
    (hT : ∀ p ∈ pts, -273.15 < p.2.2) {r : GranAlk}
    (hr : gran_alkalinity (pts.map fun p => fin p.1) (pts.map fun p => fin p.2.1)
      (pts.map fun p => fin p.2.2) (fin M) c n logic = .ok r) :
    r.warnR = decide (corr (granPoints M r.used pts) < 0.95) ∧
    r.warnFew = decide (r.used.count true < 3) := by
  simp only [gran_alkalinity, sameShape3_map, bind_ok, gran_gfunc pts M hT, bind_ok_iff, pure_ok,
    Except.ok.injEq] at hr
  obtain ⟨u, -, lr, hlr, rfl⟩ := hr
  have h : linregress ((granPoints M u pts).map fun p => fin p.1)
      ((granPoints M u pts).map fun p => fin p.2) = .ok lr := by
    rw [← hlr, granPoints, usedPoints_eq, List.map_map, List.map_map, List.map_map, mask_map, mask_map]
    rfl
  constructor
  · show lr.rvalue.lt (fin 0.95) = _
    rw [linregress_rvalue h]
    simp [Flt.lt]
  · show decide ((u.filter id).length < 3) = _
    rw [List.count_eq_length_filter]
    congr 3
    apply List.filter_congr
    simp

/-- C110: the two warnings of the Gran fit say exactly this: fewer than three points are used, and
the correlation between titrant mass and Gran function over the used points is below 0.95. -/
theorem C110_warnings (pts : List (ℝ × ℝ × ℝ)) (M : ℝ) (c n : Flt) (logic : String)
    (hT : ∀ p ∈ pts, -273.15 < p.2.2) (r : GranAlk)
    (hr : gran_alkalinity (pts.map fun p => fin p.1) (pts.map fun p => fin p.2.1)
      (pts.map fun p => fin p.2.2) (fin M) c n logic = .ok r) :
    (r.warnFew = true ↔ r.used.count true < 3) ∧
    (Spread (granPoints M r.used pts) →
      (r.warnR = true ↔ corr (granPoints M r.used pts) < 0.95)) := by
  obtain ⟨h1, h2⟩ := gran_warnR hT hr
  exact ⟨by rw [h2]; simp, fun _ => by rw [h1]; simp⟩

/-! ### correlation: straight lines, scaling, opposed trends -/

/-- an affine function of both coordinates and of their product, summed -/
theorem sum_bilinear (l : List (ℝ × ℝ)) (a b c d : ℝ) :
    (l.map fun q => a + b * q.1 + c * q.2 + d * (q.1 * q.2)).sum
      = l.length * a + b * (l.map fun q => q.1).sum + c * (l.map fun q => q.2).sum
        + d * (l.map fun q => q.1 * q.2).sum := by
  induction l with
  | nil => simp
  | cons z zs ih => simp only [List.map_cons, List.sum_cons, List.length_cons, Nat.cast_succ, ih]; ring

theorem spread_pos {xs : List ℝ} (h : ∃ x ∈ xs, ∃ y ∈ xs, x ≠ y) (m : ℝ) :
    0 < (xs.map fun u => (u - m) ^ 2).sum := by
  obtain ⟨x, hx, y, hy, hxy⟩ := h
  have hnn : ∀ z ∈ xs.map (fun u => (u - m) ^ 2), 0 ≤ z := by
    intro z hz; obtain ⟨w, -, rfl⟩ := List.mem_map.mp hz; positivity
  by_cases h : x = m
  · refine sum_pos_of_nonneg hnn (List.mem_map.mpr ⟨y, hy, rfl⟩) ?_
    have := sub_ne_zero.mpr (fun e : y = m => hxy (h.trans e.symm)); positivity
  · refine sum_pos_of_nonneg hnn (List.mem_map.mpr ⟨x, hx, rfl⟩) ?_
    have := sub_ne_zero.mpr h; positivity

/-- points on a rising line have correlation 1 -/
theorem corr_line {xs : List ℝ} {a : ℝ} (b : ℝ) (ha : 0 < a) (h : ∃ x ∈ xs, ∃ y ∈ xs, x ≠ y) :
    corr (xs.map fun x => (x, a * x + b)) = 1 := by
  have hl : (xs.length : ℝ) ≠ 0 := by
    obtain ⟨x, hx, -⟩ := h
    have := List.length_pos_of_mem hx
    positivity
  set m := xs.sum / xs.length with hm
  have hpos := spread_pos h m
  have hy : (xs.map fun x => a * x + b).sum / xs.length = a * m + b := by
    have : (xs.map fun x => a * x + b).sum = a * xs.sum + xs.length * b := by
      clear hpos hm hl h m
      induction xs with
      | nil => simp
      | cons z zs ih =>
        simp only [List.map_cons, List.sum_cons, ih, List.length_cons, Nat.cast_succ]; ring
    rw [this, hm]; field_simp
  set S := (xs.map fun u => (u - m) ^ 2).sum with hS
  have h1 : (xs.map fun x => (x - m) * (a * x + b - (a * m + b))).sum = a * S := by
    rw [hS, ← List.sum_map_mul_left]
    congr 1; apply List.map_congr_left; intro x _; ring
  have h2 : (xs.map fun x => (a * x + b - (a * m + b)) ^ 2).sum = a ^ 2 * S := by
    rw [hS, ← List.sum_map_mul_left]
    congr 1; apply List.map_congr_left; intro x _; ring
  unfold corr
  simp only [List.map_map, Function.comp_def, List.length_map, List.map_id', ← hm, hy, h1, h2, ← hS]
  rw [show S * (a ^ 2 * S) = (a * S) ^ 2 by ring, Real.sqrt_sq (by positivity),
    div_self (by positivity)]

/-- the correlation does not depend on the unit of the second coordinate -/
theorem corr_scale (l : List (ℝ × ℝ)) {k : ℝ} (hk : 0 < k) :
    corr (l.map fun p => (p.1, k * p.2)) = corr l := by
  unfold corr
  simp only [List.map_map, Function.comp_def, List.length_map, List.sum_map_mul_left]
  set mx := (l.map fun p => p.1).sum / l.length
  set my := (l.map fun p => p.2).sum / l.length with hmy
  have h0 : k * (l.map fun p => p.2).sum / l.length = k * my := by rw [hmy]; ring
  have h1 : (l.map fun p => (p.1 - mx) * (k * p.2 - k * my)).sum
      = k * (l.map fun p => (p.1 - mx) * (p.2 - my)).sum := by
    rw [← List.sum_map_mul_left]
    congr 1; apply List.map_congr_left; intro x _; ring
  have h2 : (l.map fun p => (k * p.2 - k * my) ^ 2).sum
      = k ^ 2 * (l.map fun p => (p.2 - my) ^ 2).sum := by
    rw [← List.sum_map_mul_left]
    congr 1; apply List.map_congr_left; intro x _; ring
  rw [h0, h1, h2]
  set A := (l.map fun p => (p.1 - mx) ^ 2).sum
  set B := (l.map fun p => (p.2 - my) ^ 2).sum
  rw [show A * (k ^ 2 * B) = k ^ 2 * (A * B) by ring, Real.sqrt_mul (by positivity),
    Real.sqrt_sq hk.le, mul_div_mul_left _ _ hk.ne']

theorem list_sum_nonpos {l : List ℝ} (h : ∀ x ∈ l, x ≤ 0) : l.sum ≤ 0 := by
  induction l with
  | nil => simp
  | cons x xs ih =>
    have h1 := h x (by simp)
    have h2 := ih fun y hy => h y (by simp [hy])
    simp only [List.sum_cons]; linarith

/-- a second coordinate that never rises with the first has no positive correlation with it -/
theorem corr_falling {l : List (ℝ × ℝ)}
    (h : ∀ p ∈ l, ∀ q ∈ l, (p.1 - q.1) * (p.2 - q.2) ≤ 0) : corr l ≤ 0 := by
  unfold corr
  by_cases hne : l = []
  · simp [hne]
  have hl : (0 : ℝ) < l.length := by
    have := List.length_pos_iff.mpr hne
    positivity
  apply div_nonpos_of_nonpos_of_nonneg _ (Real.sqrt_nonneg _)
  set X := (l.map fun p => p.1).sum with hX
  set Y := (l.map fun p => p.2).sum with hY
  set XY := (l.map fun p => p.1 * p.2).sum with hXY
  have h1 : (l.map fun p => (p.1 - X / l.length) * (p.2 - Y / l.length)).sum
      = XY - X * Y / l.length := by
    have := sum_bilinear l (X / l.length * (Y / l.length)) (-(Y / l.length)) (-(X / l.length)) 1
    rw [← hX, ← hY, ← hXY] at this
    rw [show XY - X * Y / l.length = l.length * (X / l.length * (Y / l.length))
      + -(Y / l.length) * X + -(X / l.length) * Y + 1 * XY by field_simp; ring, ← this]
    congr 1; apply List.map_congr_left; intro x _; ring
  have h2 : (l.map fun p => (l.map fun q => (p.1 - q.1) * (p.2 - q.2)).sum).sum
      = 2 * (l.length * XY - X * Y) := by
    have : ∀ p : ℝ × ℝ, (l.map fun q => (p.1 - q.1) * (p.2 - q.2)).sum
        = XY + -Y * p.1 + -X * p.2 + l.length * (p.1 * p.2) := by
      intro p
      have := sum_bilinear l (p.1 * p.2) (-p.2) (-p.1) 1
      rw [← hX, ← hY, ← hXY] at this
      rw [show XY + -Y * p.1 + -X * p.2 + l.length * (p.1 * p.2)
        = l.length * (p.1 * p.2) + -p.2 * X + -p.1 * Y + 1 * XY by ring, ← this]
      congr 1; apply List.map_congr_left; intro x _; ring
    simp only [this]
    rw [sum_bilinear l XY (-Y) (-X) l.length, ← hX, ← hY, ← hXY]
    ring
  have h3 : (l.map fun p => (l.map fun q => (p.1 - q.1) * (p.2 - q.2)).sum).sum ≤ 0 := by
    apply list_sum_nonpos
    intro z hz
    obtain ⟨p, hp, rfl⟩ := List.mem_map.mp hz
    apply list_sum_nonpos
    intro w hw
    obtain ⟨q, hq, rfl⟩ := List.mem_map.mp hw
    exact h p hp q hq
  rw [h1]
  have h4 : XY - X * Y / l.length = (l.length * XY - X * Y) / l.length := by field_simp
  rw [h4]
  exact div_nonpos_of_nonpos_of_nonneg (by linarith) hl.le

/-- C110: a fit whose Gran function never rises with the titrant mass is always reported. -/
theorem C110_falling (pts : List (ℝ × ℝ × ℝ)) (M : ℝ) (c n : Flt) (logic : String)
    (hT : ∀ p ∈ pts, -273.15 < p.2.2) (r : GranAlk)
    (hr : gran_alkalinity (pts.map fun p => fin p.1) (pts.map fun p => fin p.2.1)
      (pts.map fun p => fin p.2.2) (fin M) c n logic = .ok r)
    (hs : Spread (granPoints M r.used pts))
    (hf : ∀ p ∈ granPoints M r.used pts, ∀ q ∈ granPoints M r.used pts, p.1 < q.1 → q.2 ≤ p.2) :
    r.warnR = true := by
  rw [(C110_warnings pts M c n logic hT r hr).2 hs]
  refine lt_of_le_of_lt (corr_falling ?_) (by norm_num)
  intro p hp q hq
  rcases lt_trichotomy p.1 q.1 with h | h | h
  · have := hf p hp q hq h
    nlinarith
  · simp [h]
  · have := hf q hq p hp h
    nlinarith

/-- C110: ideal strong-acid data never trigger the correlation warning, with either logic. -/
theorem C110_ideal (A E0 t M c n : ℝ) (pts : List (ℝ × ℝ × ℝ)) (logic : String)
    (hid : IdealStrongAcid A E0 t M c n pts) (ht : -273.15 < t) (hc : 0 < c)
    (hn : 0 < n) (r : GranAlk)
    (hr : gran_alkalinity (pts.map fun p => fin p.1) (pts.map fun p => fin p.2.1)
      (pts.map fun p => fin p.2.2) (fin M) (fin c) (fin n) logic = .ok r)
    (h2 : ∃ p ∈ usedPoints r.used pts, ∃ q ∈ usedPoints r.used pts, p.1 ≠ q.1) :
    r.warnR = false ∧ (r.warnFew = true ↔ r.used.count true < 3) := by
  have hts : ∀ p ∈ pts, -273.15 < p.2.2 := fun p hp => by rw [hid.temp p hp]; exact ht
  obtain ⟨h1, h3⟩ := gran_warnR hts hr
  refine ⟨?_, by rw [h3]; simp⟩
  set K := Real.exp (E0 * 96.4853365 / (8.3144621 * (t + 273.15))) with hK
  have hKpos : 0 < K := Real.exp_pos _
  have : granPoints M r.used pts
      = ((usedPoints r.used pts).map fun p => p.1).map
          fun x => (x, K * (c * n) * x + -(K * (M * A))) := by
    rw [granPoints, List.map_map]
    apply List.map_congr_left
    intro p hp
    rw [usedPoints_eq] at hp
    simp only [Function.comp_apply, Prod.mk.injEq, true_and]
    rw [hid.gran_eq ht (mem_of_mem_mask hp)]
    ring
  rw [h1, this, corr_line _ (by positivity)]
  · norm_num
  · obtain ⟨p, hp, q, hq, hpq⟩ := h2
    exact ⟨p.1, List.mem_map.mpr ⟨p, hp, rfl⟩, q.1, List.mem_map.mpr ⟨q, hq, rfl⟩, hpq⟩

/-- C110: an electrode offset (a constant `d` added to every EMF of an isothermal titration) changes
neither warning. -/
theorem C110_offset (pts : List (ℝ × ℝ × ℝ)) (t d M : ℝ) (c n : Flt) (logic : String)
    (ht : -273.15 < t) (hT : ∀ p ∈ pts, p.2.2 = t) (r : GranGuesses)
    (hr : gran_guesses (pts.map fun p => fin p.1) (pts.map fun p => fin p.2.1)
      (pts.map fun p => fin p.2.2) (fin M) c n logic = .ok r) :
    ∃ r', gran_guesses (pts.map fun p => fin p.1) (pts.map fun p => fin (p.2.1 + d))
        (pts.map fun p => fin p.2.2) (fin M) c n logic = .ok r' ∧
      r'.ga.warnFew = r.ga.warnFew ∧ r'.ga.warnR = r.ga.warnR := by
  have hrep : (pts.map fun p => fin p.2.2) = List.replicate pts.length (fin t) := by
    rw [List.eq_replicate_iff]
    refine ⟨by simp, ?_⟩
    intro b hb
    obtain ⟨p, hp, rfl⟩ := List.mem_map.mp hb
    rw [hT p hp]
  have hr0 := hr
  rw [hrep] at hr
  obtain ⟨r', hr', hu, -, -⟩ := (C20_offset _ _ t d ht _ _ _ _ _).1 r hr
  have hr'' : gran_guesses ((pts.map fun p => (p.1, p.2.1 + d, p.2.2)).map fun p => fin p.1)
      ((pts.map fun p => (p.1, p.2.1 + d, p.2.2)).map fun p => fin p.2.1)
      ((pts.map fun p => (p.1, p.2.1 + d, p.2.2)).map fun p => fin p.2.2) (fin M) c n logic
      = .ok r' := by
    rw [← hr', ← hrep]
    simp only [List.map_map, Function.comp_def, add_fin]
  refine ⟨r', ?_, ?_⟩
  · simpa only [List.map_map, Function.comp_def] using hr''
  have ga : ∀ {tm emf T : List Flt} {M c n : Flt} {logic : String} {g : GranGuesses},
      gran_guesses tm emf T M c n logic = .ok g →
      gran_alkalinity tm emf T M c n logic = .ok g.ga := by
    intro tm emf T M c n logic g h
    simp only [gran_guesses, bind_ok_iff, pure_ok, Except.ok.injEq] at h
    obtain ⟨ga, h, rfl⟩ := h
    exact h
  have hT1 : ∀ p ∈ pts, -273.15 < p.2.2 := fun p hp => by rw [hT p hp]; exact ht
  have hT2 : ∀ p ∈ pts.map (fun p => (p.1, p.2.1 + d, p.2.2)), -273.15 < p.2.2 := by
    intro p hp
    obtain ⟨q, hq, rfl⟩ := List.mem_map.mp hp
    exact hT1 q hq
  obtain ⟨h1, h2⟩ := gran_warnR hT1 (ga hr0)
  obtain ⟨h3, h4⟩ := gran_warnR hT2 (ga hr'')
  refine ⟨by rw [h2, h4, hu], ?_⟩
  rw [h1, h3, hu]
  have hk : granPoints M r.ga.used (pts.map fun p => (p.1, p.2.1 + d, p.2.2))
      = (granPoints M r.ga.used pts).map fun p =>
          (p.1, Real.exp (d * 96.4853365 / (8.3144621 * (t + 273.15))) * p.2) := by
    simp only [granPoints, usedPoints_eq, mask_map, List.map_map]
    apply List.map_congr_left
    intro p hp
    have := hT p (mem_of_mem_mask hp)
    simp only [Function.comp_apply, Prod.mk.injEq, true_and, gran, this]
    rw [add_mul p.2.1, add_div, Real.exp_add]
    ring
  rw [hk, corr_scale _ (Real.exp_pos _)]

/-! ### examples -/

theorem gran_zero_emf (m t M : ℝ) : gran M (m, 0, t) = m + M := by simp [gran]

/-- three points with Gran function 2, 3, 4: no warning; the hypotheses of `C110_warnings` hold and
the correlation is 1 -/
example : ∃ r, gran_alkalinity ([1, 2, 3].map fin) ([0, 0, 0].map fin) ([25, 25, 25].map fin)
      (fin 1) (fin 1) (fin 1) "v23.7+" = .ok r ∧ r.used = [true, true, true] ∧
    Spread (granPoints 1 r.used [(1, 0, 25), (2, 0, 25), (3, 0, 25)]) ∧
    r.warnFew = false ∧ r.warnR = false := by
  have hu : gran_used ([2, 3, 4].map fin) "v23.7+" = .ok [true, true, true] := by
    norm_num [gran_used, npMax, fmax2, bind_ok, List.findIdx?, List.findIdx?.go, List.replicate]
  obtain ⟨lr, hlr, -, -⟩ := linregress_exact (xs := [1, 2, 3]) 1 1 ⟨1, by simp, 2, by simp, by norm_num⟩
  have hT : ∀ p ∈ [((1:ℝ), (0:ℝ), (25:ℝ)), (2, 0, 25), (3, 0, 25)], -273.15 < p.2.2 := by
    intro p hp
    simp only [List.mem_cons, List.not_mem_nil, or_false] at hp
    rcases hp with rfl | rfl | rfl <;> norm_num
  have hg : [((1:ℝ), (0:ℝ), (25:ℝ)), (2, 0, 25), (3, 0, 25)].map (gran 1) = [2, 3, 4] := by
    simp only [List.map_cons, List.map_nil, gran_zero_emf]; norm_num
  have hlr' : linregress (mask [true, true, true] ([1, 2, 3].map fin))
      (mask [true, true, true] ([2, 3, 4].map fin)) = .ok lr := by
    rw [← hlr]; norm_num [mask]
  have h : ∃ r, gran_alkalinity ([((1:ℝ), (0:ℝ), (25:ℝ)), (2, 0, 25), (3, 0, 25)].map fun p => fin p.1)
      ([((1:ℝ), (0:ℝ), (25:ℝ)), (2, 0, 25), (3, 0, 25)].map fun p => fin p.2.1)
      ([((1:ℝ), (0:ℝ), (25:ℝ)), (2, 0, 25), (3, 0, 25)].map fun p => fin p.2.2)
      (fin 1) (fin 1) (fin 1) "v23.7+" = .ok r ∧ r.used = [true, true, true] := by
    simp only [gran_alkalinity, sameShape3_map, bind_ok, gran_gfunc _ _ hT, hg, hu]
    have : mask [true, true, true] ([((1:ℝ), (0:ℝ), (25:ℝ)), (2, 0, 25), (3, 0, 25)].map fun p => fin p.1)
        = mask [true, true, true] ([1, 2, 3].map fin) := rfl
    rw [this, hlr']
    exact ⟨_, rfl, rfl⟩
  obtain ⟨r, hr, hru⟩ := h
  have hgp : granPoints 1 [true, true, true] [((1:ℝ), (0:ℝ), (25:ℝ)), (2, 0, 25), (3, 0, 25)]
      = [1, 2, 3].map fun x => (x, 1 * x + 1) := by
    simp [granPoints, usedPoints, gran_zero_emf]
  obtain ⟨h1, h2⟩ := gran_warnR hT hr
  refine ⟨r, hr, hru, ?_, ?_, ?_⟩
  · rw [hru, hgp]
    exact ⟨⟨(1, 1 * 1 + 1), by simp, (2, 1 * 2 + 1), by simp, by norm_num⟩,
      (1, 1 * 1 + 1), by simp, (2, 1 * 2 + 1), by simp, by norm_num⟩
  · rw [h2, hru]; decide
  · rw [h1, hru, hgp, corr_line _ (by norm_num) ⟨1, by simp, 2, by simp, by norm_num⟩]
    norm_num

/-- two points with Gran function 3 and 2: both warnings, and the hypotheses of `C110_falling` hold -/
example : ∃ (pts : List (ℝ × ℝ × ℝ)) (r : GranAlk), (∀ p ∈ pts, -273.15 < p.2.2) ∧
    gran_alkalinity (pts.map fun p => fin p.1) (pts.map fun p => fin p.2.1)
      (pts.map fun p => fin p.2.2) (fin 1) (fin 1) (fin 1) "v23.7+" = .ok r ∧
    Spread (granPoints 1 r.used pts) ∧
    (∀ p ∈ granPoints 1 r.used pts, ∀ q ∈ granPoints 1 r.used pts, p.1 < q.1 → q.2 ≤ p.2) ∧
    r.warnFew = true ∧ r.warnR = true := by
  set pts : List (ℝ × ℝ × ℝ) := [(1, nernst 0 25 (3 / 2), 25), (2, nernst 0 25 (2 / 3), 25)] with hpts
  have hT : ∀ p ∈ pts, -273.15 < p.2.2 := by
    intro p hp
    simp only [hpts, List.mem_cons, List.not_mem_nil, or_false] at hp
    rcases hp with rfl | rfl <;> norm_num
  have hg : pts.map (gran 1) = [3, 2] := by
    simp only [hpts, List.map_cons, List.map_nil]
    rw [gran_nernst (by norm_num) (by norm_num), gran_nernst (by norm_num) (by norm_num)]
    norm_num
  have hu : gran_used ([3, 2].map fin) "v23.7+" = .ok [true, true] := by
    norm_num [gran_used, npMax, fmax2, bind_ok, List.findIdx?, List.findIdx?.go, List.replicate]
  obtain ⟨lr, hlr, -, -⟩ := linregress_exact (xs := [1, 2]) (-1) 4 ⟨1, by simp, 2, by simp, by norm_num⟩
  have hlr' : linregress (mask [true, true] ([1, 2].map fin))
      (mask [true, true] ([3, 2].map fin)) = .ok lr := by
    rw [← hlr]; norm_num [mask]
  have h : ∃ r, gran_alkalinity (pts.map fun p => fin p.1) (pts.map fun p => fin p.2.1)
      (pts.map fun p => fin p.2.2) (fin 1) (fin 1) (fin 1) "v23.7+" = .ok r ∧ r.used = [true, true] := by
    simp only [gran_alkalinity, sameShape3_map, bind_ok, gran_gfunc _ _ hT, hg, hu]
    have : mask [true, true] (pts.map fun p => fin p.1) = mask [true, true] ([1, 2].map fin) := rfl
    rw [this, hlr']
    exact ⟨_, rfl, rfl⟩
  obtain ⟨r, hr, hru⟩ := h
  have hgp : granPoints 1 [true, true] pts = [(1, 3), (2, 2)] := by
    simp only [List.map_cons, List.map_nil, hpts, List.cons.injEq] at hg
    simp [granPoints, usedPoints, hpts, hg.1, hg.2.1]
  have hs : Spread (granPoints 1 r.used pts) := by
    rw [hru, hgp]
    exact ⟨⟨(1, 3), by simp, (2, 2), by simp, by norm_num⟩,
      (1, 3), by simp, (2, 2), by simp, by norm_num⟩
  have hf : ∀ p ∈ granPoints 1 r.used pts, ∀ q ∈ granPoints 1 r.used pts, p.1 < q.1 → q.2 ≤ p.2 := by
    rw [hru, hgp]
    intro p hp q hq
    simp only [List.mem_cons, List.not_mem_nil, or_false] at hp hq
    rcases hp with rfl | rfl <;> rcases hq with rfl | rfl <;> norm_num
  refine ⟨pts, r, hT, hr, hs, hf, ?_, C110_falling pts 1 _ _ _ hT r hr hs hf⟩
  rw [(C110_warnings pts 1 _ _ _ hT r hr).1, hru]
  decide

end Calk
