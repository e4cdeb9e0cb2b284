import Verif.Lemmas.Gran
import Verif.Lemmas.SolveEmf
import Verif.Lemmas.Files

/-!
# Titrant and sample masses scaled by the same factor
-/

namespace Calk
open Flt

theorem fmin2_scale {k : ℝ} (hk : 0 < k) (a b : Flt) :
    fmin2 (fin k * a) (fin k * b) = fin k * fmin2 a b := by
  unfold fmin2
  rw [scale_isNaN hk, scale_isNaN hk, scale_le hk]
  split
  · simp
  · split <;> rfl

theorem foldl_fmin_scale {k : ℝ} (hk : 0 < k) (xs : List Flt) (x : Flt) :
    (xs.map fun y => fin k * y).foldl fmin2 (fin k * x) = fin k * xs.foldl fmin2 x := by
  induction xs generalizing x with
  | nil => rfl
  | cons y ys ih => simp only [List.map_cons, List.foldl_cons, fmin2_scale hk, ih]

theorem npMin_scale {k : ℝ} (hk : 0 < k) (xs : List Flt) :
    npMin (xs.map fun y => fin k * y) = (npMin xs).map (fun y => fin k * y) := by
  cases xs with
  | nil => rfl
  | cons x xs => simp only [List.map_cons, npMin, foldl_fmin_scale hk]; rfl

theorem feq_scale {k : ℝ} (hk : 0 < k) (a b : Flt) : feq (fin k * a) (fin k * b) = feq a b := by
  simp only [feq, scale_le hk]

theorem feq_scale_zero {k : ℝ} (hk : 0 < k) (a : Flt) : feq (fin k * a) (fin 0) = feq a (fin 0) := by
  have := feq_scale hk a (fin 0)
  rwa [mul_fin, mul_zero] at this

theorem scale_sqrt {k : ℝ} (hk : 0 < k) (x : Flt) :
    Flt.sqrt (fin k * (fin k * x)) = fin k * Flt.sqrt x := by
  cases x with
  | nan => simp [Flt.sqrt]
  | ninf => rw [scale_ninf hk, scale_ninf hk]; simp [Flt.sqrt]
  | pinf => rw [scale_pinf hk, scale_pinf hk]; simp only [Flt.sqrt, scale_pinf hk]
  | fin x =>
    simp only [mul_fin, Flt.sqrt]
    by_cases hx : x < 0
    · have : k * (k * x) < 0 := mul_neg_of_pos_of_neg hk (mul_neg_of_pos_of_neg hk hx)
      simp [hx, this]
    · have : ¬ k * (k * x) < 0 := not_lt.mpr (by have := not_lt.mp hx; positivity)
      rw [if_neg hx, if_neg this, mul_fin, ← mul_assoc, Real.sqrt_mul (by positivity),
        Real.sqrt_mul_self hk.le]

theorem scale_scale (k : ℝ) (hk : 0 < k) (a : Flt) : fin k * (fin k * a) = fin (k * k) * a := by
  rw [← scale_mul hk, mul_fin]

theorem scale_prod {k : ℝ} (hk : 0 < k) (a b : Flt) :
    fin k * a * (fin k * b) = fin (k * k) * (a * b) := by
  rw [scale_mul hk, mul_left_scale hk, scale_scale k hk]

/-- regression with both variables scaled -/
theorem linregress_scale_both {k : ℝ} (hk : 0 < k) (x y : List Flt) :
    match linregress x y, linregress (x.map fun a => fin k * a) (y.map fun b => fin k * b) with
    | .ok lr, .ok lr' => lr'.slope = lr.slope ∧ lr'.intercept = fin k * lr.intercept ∧
        lr'.rvalue = lr.rvalue
    | .error e, .error e' => e = e'
    | _, _ => False := by
  have hkk : 0 < k * k := by positivity
  unfold linregress
  by_cases hl : x.length = y.length
  · simp only [List.length_map, hl, ne_eq, not_true_eq_false, if_false, npMax_scale hk, npMin_scale hk]
    cases h1 : npMax x with
    | error e => simp [bind_error, Except.map]
    | ok hi =>
    cases h2 : npMin x with
    | error e => simp [bind_ok, bind_error, Except.map]
    | ok lo =>
    simp only [bind_ok, Except.map, feq_scale hk]
    by_cases hc : (feq hi lo && decide (1 < y.length)) = true
    · simp [hc]
    · simp only [hc, Bool.false_eq_true, if_false, pure_ok]
      have hsq : ∀ z : List Flt, npMean ((z.map fun a => fin k * a).map fun a =>
          Flt.sq (a - npMean (z.map fun a => fin k * a)))
          = fin (k * k) * npMean (z.map fun a => Flt.sq (a - npMean z)) := by
        intro z
        rw [← scale_npMean hkk, List.map_map, List.map_map]
        congr 1
        apply List.map_congr_left
        intro a _
        simp only [Function.comp_apply, Flt.sq]
        rw [scale_npMean hk, ← scale_sub hk, scale_prod hk]
      have hxy : npMean (List.zipWith (fun a b => (a - npMean (x.map fun a => fin k * a))
            * (b - npMean (y.map fun b => fin k * b))) (x.map fun a => fin k * a)
            (y.map fun b => fin k * b))
          = fin (k * k) * npMean (List.zipWith (fun a b => (a - npMean x) * (b - npMean y)) x y) := by
        rw [← scale_npMean hkk]
        congr 1
        rw [List.zipWith_map_left, List.zipWith_map_right, List.map_zipWith]
        congr 1
        funext a b
        rw [scale_npMean hk, scale_npMean hk, ← scale_sub hk, ← scale_sub hk, scale_prod hk]
      rw [hsq, hsq, hxy]
      refine ⟨?_, ?_, ?_⟩
      · rw [div_scale hkk]
      · rw [div_scale hkk, scale_npMean hk, scale_npMean hk, mul_left_scale hk, ← scale_sub hk]
      · rw [feq_scale_zero hkk, feq_scale_zero hkk, scale_mul hkk, mul_left_scale hkk, scale_sqrt hkk,
          div_scale hkk]
  · simp [hl, List.length_map]

theorem linregress_scale_ok {k : ℝ} (hk : 0 < k) {x y : List Flt} {lr : LinRegress}
    (h : linregress x y = .ok lr) :
    ∃ lr', linregress (x.map fun a => fin k * a) (y.map fun b => fin k * b) = .ok lr' ∧
      lr'.slope = lr.slope ∧ lr'.intercept = fin k * lr.intercept ∧ lr'.rvalue = lr.rvalue := by
  have := linregress_scale_both hk x y
  rw [h] at this
  cases h2 : linregress (x.map fun a => fin k * a) (y.map fun b => fin k * b) with
  | error e => rw [h2] at this; exact this.elim
  | ok lr' => rw [h2] at this; exact ⟨lr', rfl, this⟩

theorem linregress_scale_error {k : ℝ} (hk : 0 < k) {x y : List Flt} {e : PyErr}
    (h : linregress x y = .error e) :
    linregress (x.map fun a => fin k * a) (y.map fun b => fin k * b) = .error e := by
  have := linregress_scale_both hk x y
  rw [h] at this
  cases h2 : linregress (x.map fun a => fin k * a) (y.map fun b => fin k * b) with
  | error e' => rw [h2] at this; simp only at this; rw [this]
  | ok lr' => rw [h2] at this; exact this.elim

theorem dilution_scale {k : ℝ} (hk : 0 < k) (m M : Flt) :
    get_dilution_factor (fin k * m) (fin k * M) = get_dilution_factor m M := by
  unfold get_dilution_factor
  rw [← scale_add hk, div_scale hk]

theorem acid_scale {k : ℝ} (hk : 0 < k) (m c n M : Flt) :
    fin k * m * c * n / (fin k * m + fin k * M) = m * c * n / (m + M) := by
  rw [scale_mul hk, scale_mul hk, ← scale_add hk, div_scale hk]

/-- two computations with the same outcome: both fail alike, or both return and the results are
related -/
def Parallel {α β : Type} (R : α → β → Prop) (x : Py α) (y : Py β) : Prop :=
  (∀ a, x = .ok a → ∃ b, y = .ok b ∧ R a b) ∧ ∀ e, x = .error e → y = .error e

theorem Parallel.bind {α β γ δ : Type} {R : α → β → Prop} {S : γ → δ → Prop} {x : Py α} {y : Py β}
    {f : α → Py γ} {g : β → Py δ} (h : Parallel R x y) (hfg : ∀ a b, R a b → Parallel S (f a) (g b)) :
    Parallel S (x >>= f) (y >>= g) := by
  cases x with
  | error e =>
    rw [h.2 e rfl]
    exact ⟨fun a ha => by simp [bind_error] at ha, fun e' he => by simpa [bind_error] using he⟩
  | ok a =>
    obtain ⟨b, hb, hr⟩ := h.1 a rfl
    rw [hb, bind_ok, bind_ok]
    exact hfg a b hr

theorem Parallel.bind_same {α γ δ : Type} {S : γ → δ → Prop} (x : Py α)
    {f : α → Py γ} {g : α → Py δ} (hfg : ∀ a, Parallel S (f a) (g a)) : Parallel S (x >>= f) (x >>= g) := by
  cases x with
  | error e => exact ⟨fun a ha => by simp [bind_error] at ha, fun e' he => by simpa [bind_error] using he⟩
  | ok a => rw [bind_ok, bind_ok]; exact hfg a

theorem Parallel.ret {α β : Type} {R : α → β → Prop} {a : α} {b : β} (h : R a b) :
    Parallel R (pure a) (pure b) := by
  refine ⟨fun a' ha => ?_, fun e he => by simp [pure_ok] at he⟩
  obtain rfl := Except.ok.inj ha
  exact ⟨b, rfl, h⟩

theorem Parallel.eq_map {α β γ : Type} {R : α → β → Prop} {x : Py α} {y : Py β} (h : Parallel R x y)
    {f : α → γ} {g : β → γ} (hfg : ∀ a b, R a b → g b = f a) :
    (y >>= fun b => (pure (g b) : Py γ)) = (x >>= fun a => pure (f a)) := by
  cases x with
  | error e => rw [h.2 e rfl]; rfl
  | ok a =>
    obtain ⟨b, hb, hr⟩ := h.1 a rfl
    rw [hb, bind_ok, bind_ok, hfg a b hr]

/-- Gran results of a scaled titration -/
def GranScaled (k : ℝ) (g g' : GranGuesses) : Prop :=
  g'.ga.used = g.ga.used ∧ g'.ga.alkalinity = g.ga.alkalinity ∧
  g'.ga.gfunc = (g.ga.gfunc.map fun y => fin k * y) ∧ g'.ga.warnFew = g.ga.warnFew ∧
  g'.ga.warnR = g.ga.warnR ∧ g'.emf0 = g.emf0 ∧ g'.emf0s = g.emf0s ∧ g'.pH = g.pH

theorem gran_guesses_scale {k : ℝ} (hk : 0 < k) (tm emf T : List Flt) (M c n : Flt) (logic : String) :
    Parallel (GranScaled k) (gran_guesses tm emf T M c n logic)
      (gran_guesses (tm.map fun m => fin k * m) emf T (fin k * M) c n logic) := by
  have hg : zip3With (fun m e t => gran_function m e t (fin k * M)) (tm.map fun m => fin k * m) emf T
      = (zip3With (fun m e t => gran_function m e t M) tm emf T).map fun y => fin k * y := by
    unfold zip3With
    rw [List.zipWith_map_left, List.map_zipWith]
    congr 1
    funext m et
    simp only [gran_function]
    rw [← scale_add hk, scale_mul hk]
  have hE : ∀ A, zip3With (fun m e t => gran_emf0 m e t (fin k * M) c A n)
      (tm.map fun m => fin k * m) emf T = zip3With (fun m e t => gran_emf0 m e t M c A n) tm emf T := by
    intro A
    unfold zip3With
    rw [List.zipWith_map_left]
    congr 1
    funext m et
    simp only [gran_emf0]
    rw [scale_mul hk m, scale_mul hk, scale_mul hk, ← scale_add hk, ← scale_sub hk, div_scale hk]
  unfold gran_guesses gran_alkalinity Parallel
  have hsh : sameShape3 (tm.map fun m => fin k * m) emf T = sameShape3 tm emf T := by
    simp only [sameShape3, List.length_map]
  simp only [hsh, hg, gran_used_scale hk]
  cases hs : sameShape3 tm emf T with
  | error e => simp [bind_error]
  | ok _ =>
  cases hu : gran_used (zip3With (fun m e t => gran_function m e t M) tm emf T) logic with
  | error e => simp [bind_error, bind_ok]
  | ok u =>
  simp only [bind_ok, mask_map]
  cases hl : linregress (mask u tm) (mask u (zip3With (fun m e t => gran_function m e t M) tm emf T)) with
  | error e => simp [bind_error, linregress_scale_error hk hl]
  | ok lr =>
  obtain ⟨lr', hl', h1, h2, h3⟩ := linregress_scale_ok hk hl
  have hA : -lr'.intercept / lr'.slope * c * n / (fin k * M) = -lr.intercept / lr.slope * c * n / M := by
    rw [h1, h2, scale_neg hk, scale_div hk, scale_mul hk, scale_mul hk, div_scale hk]
  refine ⟨?_, by intro e he; simp [bind_ok, pure_ok] at he⟩
  intro g h
  simp only [bind_ok, pure_ok, Except.ok.injEq] at h
  subst h
  simp only [hl', bind_ok, pure_ok]
  refine ⟨_, rfl, rfl, hA, rfl, rfl, by simp only [h3], ?_, ?_, ?_⟩ <;> simp only [hA, hE]

/-- results of an EMF solve that do not depend on the size of the titration -/
def SolveEmf.SameRatio (k : ℝ) (sr sr' : SolveEmf) : Prop :=
  sr'.alkalinity = sr.alkalinity ∧ sr'.emf0 = sr.emf0 ∧ sr'.used = sr.used ∧ sr'.pH = sr.pH ∧
  sr'.alkalinity_std = sr.alkalinity_std ∧ sr'.alkalinity_all = sr.alkalinity_all ∧
  sr'.opt_result = sr.opt_result ∧ GranScaled k sr.ggr sr'.ggr

theorem phAll_scale {k : ℝ} (hk : 0 < k) (c : Flt) (tm pH : List Flt) (M : Flt) (totals ks : Dict NpVal)
    (n : Flt) : phAll c (tm.map fun m => fin k * m) pH (fin k * M) totals ks n
      = phAll c tm pH M totals ks n := by
  unfold phAll
  rw [List.zipWith_map_right]
  congr 1
  funext a m
  unfold point_alkalinity
  rw [dilution_scale hk, acid_scale hk]

theorem lsqfun_scale {k : ℝ} (hk : 0 < k) (c : Flt) (tm emf T : List Flt) (M : Flt)
    (totals ks : Dict NpVal) (n : Flt) :
    lsqfun_solve_emf c (tm.map fun m => fin k * m) emf T (fin k * M) totals ks n
      = lsqfun_solve_emf c tm emf T M totals ks n := by
  funext x
  unfold lsqfun_solve_emf
  simp only [List.zipWith_map_right, dilution_scale hk, acid_scale hk]

theorem solve_once_scale {k : ℝ} (hk : 0 < k) (ls : LsFun (Flt × Flt)) (c : Flt)
    (tm emf T : List Flt) (M : Flt) (totals ks : Dict NpVal) (o : EmfOpts) :
    Parallel (SolveEmf.SameRatio k) (solve_emf ls c tm emf T M totals ks o false)
      (solve_emf ls c (tm.map fun m => fin k * m) emf T (fin k * M) totals ks o false) := by
  rw [solve_emf, solve_emf]
  refine (gran_guesses_scale hk tm emf T M c o.titrant_normality o.gran_logic).bind fun g g' hg => ?_
  obtain ⟨h1, h2, h3, h4, h5, h6, h7, h8⟩ := hg
  simp only [h2, h6, h8, mask_map, lsqfun_scale hk]
  refine Parallel.bind_same _ fun _ => Parallel.bind_same _ fun _ => Parallel.bind_same _ fun _ =>
    Parallel.bind_same _ fun opt => Parallel.bind_same _ fun a => Parallel.ret ?_
  refine ⟨rfl, rfl, rfl, rfl, rfl, ?_, rfl, h1, h2, h3, h4, h5, h6, h7, h8⟩
  simp only [List.zipWith_map_right, point_alkalinity, dilution_scale hk, acid_scale hk]

theorem solve_emf_scale {k : ℝ} (hk : 0 < k) (ls : LsFun (Flt × Flt)) (c : Flt)
    (tm emf T : List Flt) (M : Flt) (totals ks : Dict NpVal) (o : EmfOpts) (double : Bool) :
    Parallel (SolveEmf.SameRatio k) (solve_emf ls c tm emf T M totals ks o double)
      (solve_emf ls c (tm.map fun m => fin k * m) emf T (fin k * M) totals ks o double) := by
  cases double with
  | false => exact solve_once_scale hk ls c tm emf T M totals ks o
  | true =>
    rw [solve_emf_true_eq, solve_emf_true_eq]
    refine (solve_once_scale hk ls c tm emf T M totals ks o).bind fun sr sr' h => ?_
    rw [h.1, h.2.1]
    exact solve_once_scale hk ls c tm emf T M totals ks _

theorem solve_pH_scale {k : ℝ} (hk : 0 < k) (c : Flt) (tm pH : List Flt) (M : Flt)
    (totals ks : Dict NpVal) (o : PHOpts) :
    solve_pH c (tm.map fun m => fin k * m) pH (fin k * M) totals ks o
      = solve_pH c tm pH M totals ks o := by
  unfold solve_pH
  simp only [List.zipWith_map_right, point_alkalinity, dilution_scale hk, acid_scale hk, sameShape2,
    List.length_map]

/-- results of a Gran solve with pH that do not depend on the size of the titration -/
def SolvePHGran.SameRatio (k : ℝ) (sr sr' : SolvePHGran) : Prop :=
  sr'.alkalinity = sr.alkalinity ∧ sr'.used = sr.used ∧
  sr'.gfunc = (sr.gfunc.map fun y => fin k * y) ∧ sr'.lr.rvalue = sr.lr.rvalue

theorem solve_pH_gran_scale {k : ℝ} (hk : 0 < k) (c : Flt) (tm pH : List Flt) (M : Flt) (o : PHOpts) :
    Parallel (SolvePHGran.SameRatio k) (solve_pH_gran c tm pH M o)
      (solve_pH_gran c (tm.map fun m => fin k * m) pH (fin k * M) o) := by
  unfold solve_pH_gran
  have hg : List.zipWith (fun m p => (m + fin k * M) * Flt.pow10 (-p)) (tm.map fun m => fin k * m) pH
      = (List.zipWith (fun m p => (m + M) * Flt.pow10 (-p)) tm pH).map fun y => fin k * y := by
    rw [List.zipWith_map_left, List.map_zipWith]
    congr 1
    funext m p
    rw [← scale_add hk, scale_mul hk]
  have hs : sameShape2 (tm.map fun m => fin k * m) pH = sameShape2 tm pH := by
    simp only [sameShape2, List.length_map]
  simp only [hg, hs, mask_map]
  refine Parallel.bind_same _ fun _ => Parallel.bind_same _ fun _ => ?_
  refine Parallel.bind (R := fun lr lr' : LinRegress => lr'.slope = lr.slope ∧
      lr'.intercept = fin k * lr.intercept ∧ lr'.rvalue = lr.rvalue)
    ⟨fun lr h => linregress_scale_ok hk h, fun e h => linregress_scale_error hk h⟩ ?_
  rintro lr lr' ⟨h1, h2, h3⟩
  refine Parallel.ret ⟨?_, rfl, rfl, h3⟩
  rw [h1, h2, scale_neg hk, scale_div hk, scale_mul hk, scale_mul hk, div_scale hk]

theorem titrant_contribution_scale {k : ℝ} (hk : 0 < k) (tm : List Flt) (M c p x : Flt) :
    titrant_contribution (tm.map fun m => fin k * m) (fin k * M) c p x
      = titrant_contribution tm M c p x := by
  unfold titrant_contribution
  rw [List.map_map]
  apply List.map_congr_left
  intro m _
  exact acid_scale hk m (c - p) x M

theorem add_titrant_totals_scale {k : ℝ} (hk : 0 < k) (tm : List Flt) (M c p : Flt)
    (tts : List (String × Flt)) :
    add_titrant_totals (tm.map fun m => fin k * m) (fin k * M) c p tts
      = add_titrant_totals tm M c p tts := by
  induction tts with
  | nil => rfl
  | cons t tts ih =>
    obtain ⟨t, x⟩ := t
    simp only [add_titrant_totals, titrant_contribution_scale hk, ih]

theorem dilution_factors_scale {k : ℝ} (hk : 0 < k) (tm : List Flt) (M : Flt) :
    dilution_factors (tm.map fun m => fin k * m) (fin k * M) = dilution_factors tm M := by
  unfold dilution_factors
  rw [List.map_map]
  exact List.map_congr_left fun m _ => dilution_scale hk m M

/-- the same titration, `k` times as large -/
noncomputable def Converted.scaled (k : ℝ) (cv : Converted) : Converted :=
  { cv with titrant_mass := cv.titrant_mass.map fun m => fin k * m
            analyte_mass := fin k * cv.analyte_mass }

theorem totals_ks_scale {k : ℝ} (hk : 0 < k) (w : World) (cv : Converted) (kw : Dict Val) :
    totals_ks w (cv.scaled k) kw = totals_ks w cv kw := by
  have h1 : ∀ t, dilute_totals t (cv.scaled k).titrant_mass (cv.scaled k).analyte_mass
      = dilute_totals t cv.titrant_mass cv.analyte_mass := by
    intro t
    simp only [dilute_totals, Converted.scaled, dilution_factors_scale hk]
  have h2 : ∀ tp, totals_for_ks (cv.scaled k) tp kw = totals_for_ks cv tp kw := by
    intro t
    simp only [totals_for_ks, dilute_totals_pyco2, Converted.scaled, dilution_factors_scale hk]
  unfold totals_ks
  simp only [h1, h2]
  rfl

/-- results that differ in the size of the titration only -/
def SolveRes.SameRatio (k : ℝ) : SolveRes → SolveRes → Prop
  | .emf sr T, .emf sr' T' => sr.SameRatio k sr' ∧ T' = T
  | .pH sr p T, .pH sr' p' T' => sr' = sr ∧ p' = p ∧ T' = T
  | .pH_gran sr p T, .pH_gran sr' p' T' => sr.SameRatio k sr' ∧ p' = p ∧ T' = T
  | _, _ => False

theorem SolveRes.SameRatio.alkalinity {k : ℝ} {r r' : SolveRes} (h : r.SameRatio k r') :
    r'.alkalinity = r.alkalinity := by
  cases r <;> cases r' <;> first | exact h.elim | exact h.1.1 | exact congrArg SolvePH.alkalinity h.1

theorem solve_dispatch_scale {k : ℝ} (hk : 0 < k) (w : World) (mode : String) (cv : Converted)
    (c : Flt) (totals ks : Dict NpVal) (kw : Dict Val) :
    Parallel (SolveRes.SameRatio k) (solve_dispatch w mode cv c totals ks kw)
      (solve_dispatch w mode (cv.scaled k) c totals ks kw) := by
  unfold solve_dispatch
  by_cases h1 : mode = "emf"
  · rw [if_pos h1, if_pos h1]
    exact Parallel.bind_same _ fun od => (solve_emf_scale hk _ _ _ _ _ _ _ _ _ _).bind fun sr sr' h =>
      Parallel.ret ⟨h, rfl⟩
  rw [if_neg h1, if_neg h1]
  by_cases h2 : mode = "ph_adjust"
  · rw [if_pos h2, if_pos h2]
    exact Parallel.bind_same _ fun od => Parallel.bind_same _ fun emf =>
      (solve_emf_scale hk _ _ _ _ _ _ _ _ _ _).bind fun sr sr' h => Parallel.ret ⟨h, rfl⟩
  rw [if_neg h2, if_neg h2]
  by_cases h3 : mode = "ph"
  · rw [if_pos h3, if_pos h3]
    refine Parallel.bind_same _ fun o => ?_
    simp only [Converted.scaled, solve_pH_scale hk]
    exact Parallel.bind_same _ fun sr => Parallel.ret ⟨rfl, rfl, rfl⟩
  rw [if_neg h3, if_neg h3]
  by_cases h4 : mode = "ph_gran"
  · rw [if_pos h4, if_pos h4]
    exact Parallel.bind_same _ fun o => (solve_pH_gran_scale hk _ _ _ _ _).bind fun sr sr' h =>
      Parallel.ret ⟨h, rfl, rfl⟩
  rw [if_neg h4, if_neg h4]
  exact ⟨fun a h => (by cases h), fun e h => h⟩

theorem calibrate_dispatch_scale {k : ℝ} (hk : 0 < k) (w : World) (mode : String) (cv : Converted)
    (A : Flt) (ks : Dict NpVal) (kw : Dict Val) :
    calibrate_dispatch w mode (cv.scaled k) A ks kw = calibrate_dispatch w mode cv A ks kw := by
  have e1 : ∀ (c : Flt) (emf : List Flt) (totals : Dict NpVal) (o : EmfOpts) (double : Bool),
      (do let sr ← solve_emf w.ls c (cv.scaled k).titrant_mass emf cv.temperature
            (cv.scaled k).analyte_mass totals ks o double
          return sr.alkalinity : Py Flt)
      = (do let sr ← solve_emf w.ls c cv.titrant_mass emf cv.temperature cv.analyte_mass totals ks o
              double
            return sr.alkalinity) := fun c emf totals o double =>
    (solve_emf_scale hk w.ls c cv.titrant_mass emf cv.temperature cv.analyte_mass totals ks o
      double).eq_map fun sr sr' h => h.1
  have e2 : ∀ (c : Flt) (totals : Dict NpVal) (o : PHOpts),
      solve_pH c (cv.scaled k).titrant_mass cv.measurement (cv.scaled k).analyte_mass totals ks o
      = solve_pH c cv.titrant_mass cv.measurement cv.analyte_mass totals ks o :=
    fun c totals o => solve_pH_scale hk c _ _ _ totals ks o
  have e3 : ∀ (c : Flt) (o : PHOpts),
      (do let sr ← solve_pH_gran c (cv.scaled k).titrant_mass cv.measurement (cv.scaled k).analyte_mass o
          return sr.alkalinity : Py Flt)
      = (do let sr ← solve_pH_gran c cv.titrant_mass cv.measurement cv.analyte_mass o
            return sr.alkalinity) := fun c o =>
    (solve_pH_gran_scale hk c cv.titrant_mass cv.measurement cv.analyte_mass o).eq_map
      fun sr sr' h => h.1
  have e4 : ∀ (c p : Flt) (tts : List (String × Flt)),
      add_titrant_totals (cv.scaled k).titrant_mass (cv.scaled k).analyte_mass c p tts
      = add_titrant_totals cv.titrant_mass cv.analyte_mass c p tts :=
    fun c p tts => add_titrant_totals_scale hk _ _ c p tts
  have e5 : (cv.scaled k).measurement = cv.measurement := rfl
  have e6 : (cv.scaled k).temperature = cv.temperature := rfl
  unfold calibrate_dispatch calibrate_emf calibrate_pH calibrate_pH_gran lsqfun_calibrate
  simp only [e4, e5, e6, e1, e2, e3]

end Calk
