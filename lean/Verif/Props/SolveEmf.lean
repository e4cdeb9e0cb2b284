import Verif.Lemmas.SolveEmf
import Verif.Props.Gran

/-!
# Properties C23-C27: the EMF solver (`calkulate/core.py: solve_emf`)

`ls` stands for `scipy.optimize.least_squares` and is an arbitrary function.  Two contracts are used
as explicit hypotheses: `LsSound` (the reported residuals are those at the reported solution) and
`LsGlobalMin` (the reported sum of squares is minimal).
-/

namespace Calk
open Flt Spec

/-- the optimiser reports the residuals at the point it reports -/
def LsSound (ls : LsFun (Flt × Flt)) : Prop :=
  ∀ f x0 r, ls f x0 = .ok r → f r.x = .ok r.fun_

/-- the optimiser finds a global minimum of the sum of squares -/
def LsGlobalMin (ls : LsFun (Flt × Flt)) : Prop :=
  ∀ f x0 r, ls f x0 = .ok r → ∀ x (ρ : List ℝ), f x = .ok (ρ.map fin) →
    ∃ res : List ℝ, r.fun_ = res.map fin ∧ (res.map (· ^ 2)).sum ≤ (ρ.map (· ^ 2)).sum

/-! ## C23 -/

/-- C23: each point estimate differs from the solved alkalinity by `1e6` times the residual at that
point divided by the dilution factor `M / (m + M)`; the residuals the optimiser reports are those of
the used points. -/
theorem C23_residuals (ls : LsFun (Flt × Flt)) (hls : LsSound ls) (c n M A E : ℝ)
    (tm emf T : List ℝ) (totals ks : Dict NpVal) (o : EmfOpts) (double : Bool) (sr : SolveEmf)
    (ho : o.titrant_normality = fin n) (hM : 0 < M) (hm : ∀ m ∈ tm, 0 < m + M)
    (hT : ∀ t ∈ T, -273.15 < t) (hv : ValidRows totals ks emf.length)
    (hr : solve_emf ls (fin c) (tm.map fin) (emf.map fin) (T.map fin) (fin M) totals ks o double
      = .ok sr)
    (hx : sr.opt_result.x = (fin A, fin E)) :
    sr.alkalinity = fin (1e6 * A) ∧ sr.emf0 = fin E ∧
    ∃ res est : List ℝ, res.length = tm.length ∧ est.length = tm.length ∧
      sr.opt_result.fun_ = (mask sr.used res).map fin ∧
      sr.alkalinity_all = est.map fin ∧
      ∀ i, (h1 : i < tm.length) → (h2 : i < res.length) → (h3 : i < est.length) →
        est[i] - 1e6 * A = 1e6 * res[i] / (M / (tm[i] + M)) := by
  obtain ⟨o', -, -, hn, h⟩ := solve_emf_last hr
  obtain ⟨g, opt, hg, -, hk, hf, hf', hopt, rfl⟩ := solve_emf_false_iff.mp h
  obtain ⟨hl1, hl2, -⟩ := gran_guesses_ok hg
  simp only [List.length_map] at hl1 hl2
  rw [hn, ho] at *
  simp only [emfResult] at hx ⊢
  have hfun := hls _ _ _ hopt
  simp only [emfProblem, Except.ok.injEq, hx, emfRes_fin hT hm hl2 hv hk] at hfun
  have hlenp : (pHRs E emf T).length = emf.length := by simp [pHRs, hl2]
  refine ⟨by simp [hx, mul_comm], by simp [hx], emfResR c n M A E tm emf T totals ks,
    phAllR c tm (pHRs E emf T) M totals ks n, ?_, ?_, ?_, ?_, ?_⟩
  · simp [emfResR, pHRs]; omega
  · simp [phAllR, pHRs]; omega
  · rw [← hfun, mask_map]
  · rw [hx, emf_to_pH_arr_fin hT, phAll_fin (by rw [hlenp]; exact hv) hk hM hm]
  · intro i h1 h2 h3
    have hpos := hm _ (List.getElem_mem h1)
    simp only [phAllR, emfResR, List.getElem_zipWith, ptR]
    field_simp
    ring

/-- C23: zero residuals mean that every used point estimate equals the solved alkalinity and the
reported spread is zero. -/
theorem C23_zero_residuals (ls : LsFun (Flt × Flt)) (hls : LsSound ls) (c n M A E : ℝ)
    (tm emf T : List ℝ) (totals ks : Dict NpVal) (o : EmfOpts) (double : Bool) (sr : SolveEmf)
    (ho : o.titrant_normality = fin n) (hM : 0 < M) (hm : ∀ m ∈ tm, 0 < m + M)
    (hT : ∀ t ∈ T, -273.15 < t) (hv : ValidRows totals ks emf.length)
    (hr : solve_emf ls (fin c) (tm.map fin) (emf.map fin) (T.map fin) (fin M) totals ks o double
      = .ok sr)
    (hx : sr.opt_result.x = (fin A, fin E)) (h0 : ∀ ρ ∈ sr.opt_result.fun_, ρ = fin 0)
    (hne : true ∈ sr.used) :
    (∀ i, (h1 : i < sr.used.length) → (h2 : i < sr.alkalinity_all.length) → sr.used[i] = true →
      sr.alkalinity_all[i] = sr.alkalinity) ∧ sr.alkalinity_std = fin 0 := by
  obtain ⟨hA, hE, res, est, hl1, hl2, hfun, hall, hpt⟩ := C23_residuals ls hls c n M A E tm emf T
    totals ks o double sr ho hM hm hT hv hr hx
  constructor
  · intro i h1 h2 hu
    have hi : i < est.length := by simpa [hall] using h2
    have hz : res[i]'(by omega) = 0 := by
      have : fin (res[i]'(by omega)) ∈ sr.opt_result.fun_ := by
        rw [hfun]
        exact List.mem_map.mpr ⟨_, mem_mask.mpr ⟨i, h1, by omega, hu, rfl⟩, rfl⟩
      simpa using h0 _ this
    have := hpt i (by omega) (by omega) hi
    rw [hz] at this
    rw [hA]
    simp only [hall, List.getElem_map, fin_inj]
    simp at this
    linarith
  · obtain ⟨o', -, -, hn, h⟩ := solve_emf_last hr
    obtain ⟨g, opt, hg, -, hk, hf, hf', hopt, rfl⟩ := solve_emf_false_iff.mp h
    obtain ⟨hlg, -, -⟩ := gran_guesses_ok hg
    have hul : (emfStart o' g (emf.map fin) (T.map fin)).used.length = (emf.map fin).length :=
      emfStart_used_length hg
    simp only [emfResult] at hfun h0 ⊢ hne
    simp only [List.length_map] at hul hlg
    rw [hfun] at h0 ⊢
    rw [npStd_map_fin]
    · rw [rstd_const _ 0]
      · simp
      · apply mask_ne_nil (by omega) hne
      · intro x hx'
        simpa using h0 (fin x) (List.mem_map.mpr ⟨x, hx', rfl⟩)
    · exact mask_ne_nil (by omega) hne

/-! ## C24 -/

/-- C24: the used points are those whose pH, computed with the initial EMF0 (the given one, else the
Gran estimate), lies in the closed window. -/
theorem C24_used (ls : LsFun (Flt × Flt)) (c M : Flt) (tm emf T : List Flt)
    (totals ks : Dict NpVal) (o : EmfOpts) (sr : SolveEmf)
    (hr : solve_emf ls c tm emf T M totals ks o false = .ok sr) :
    sr.used.length = emf.length ∧ emf.length = T.length ∧
    ∀ i, (h1 : i < emf.length) → (h2 : i < T.length) → (h3 : i < sr.used.length) →
      (sr.used[i] = true ↔
        o.pH_min.le (emf_to_pH emf[i] (o.emf0_init.getD sr.ggr.emf0) T[i]) = true ∧
        (emf_to_pH emf[i] (o.emf0_init.getD sr.ggr.emf0) T[i]).le o.pH_max = true) := by
  obtain ⟨g, opt, hg, -, hk, hf, hf', hopt, rfl⟩ := solve_emf_false_iff.mp hr
  obtain ⟨hl1, hl2, hp⟩ := gran_guesses_ok hg
  refine ⟨emfStart_used_length hg, hl2, ?_⟩
  intro i h1 h2 h3
  have key : (emfStart o g emf T).used
      = pH_used (emf_to_pH_arr emf (o.emf0_init.getD g.emf0) T) o.pH_min o.pH_max := by
    simp only [emfStart]
    cases o.emf0_init with
    | none => simp only [Option.getD_none, hp]
    | some e => rfl
  simp only [emfResult, key, pH_used, List.getElem_map, Bool.and_eq_true, emf_to_pH_arr,
    List.getElem_zipWith]

/-- C24 for double solving: the used points are decided by the EMF0 of the first solve, the one that
`double=False` would have returned. -/
theorem C24_used_double (ls : LsFun (Flt × Flt)) (c M : Flt) (tm emf T : List Flt)
    (totals ks : Dict NpVal) (o : EmfOpts) (sr : SolveEmf)
    (hr : solve_emf ls c tm emf T M totals ks o true = .ok sr) :
    ∃ sr1, solve_emf ls c tm emf T M totals ks o false = .ok sr1 ∧
      sr.used.length = emf.length ∧
      ∀ i, (h1 : i < emf.length) → (h2 : i < T.length) → (h3 : i < sr.used.length) →
        (sr.used[i] = true ↔ o.pH_min.le (emf_to_pH emf[i] sr1.emf0 T[i]) = true ∧
          (emf_to_pH emf[i] sr1.emf0 T[i]).le o.pH_max = true) := by
  rw [solve_emf_true_eq, bind_ok_iff] at hr
  obtain ⟨sr1, h1, h2⟩ := hr
  obtain ⟨ha, -, hb⟩ := C24_used ls c M tm emf T totals ks _ sr h2
  exact ⟨sr1, h1, ha, hb⟩

/-- C24: with both initial guesses supplied, data at unused points have no influence: if two
titrations have the same used points and agree on them (masses, EMFs, temperatures, totals,
constants), one solve gives the same alkalinity, EMF0, spread and residuals. -/
theorem C24_unused_irrelevant (ls : LsFun (Flt × Flt)) (c M e0 : Flt)
    (tm emf T tm' emf' T' : List Flt) (totals ks totals' ks' : Dict NpVal) (o : EmfOpts)
    (sr sr' : SolveEmf) (he : o.emf0_init = some e0) (ha : o.alkalinity_init ≠ none)
    (hr : solve_emf ls c tm emf T M totals ks o false = .ok sr)
    (hr' : solve_emf ls c tm' emf' T' M totals' ks' o false = .ok sr')
    (hu : sr'.used = sr.used)
    (hsame : ∀ i, (h : i < sr.used.length) → sr.used[i] = true →
      tm[i]? = tm'[i]? ∧ emf[i]? = emf'[i]? ∧ T[i]? = T'[i]? ∧
        rowAt totals i = rowAt totals' i ∧ rowAt ks i = rowAt ks' i) :
    sr'.alkalinity = sr.alkalinity ∧ sr'.emf0 = sr.emf0 ∧
      sr'.alkalinity_std = sr.alkalinity_std ∧ sr'.opt_result = sr.opt_result := by
  obtain ⟨g, opt, hg, -, hk, hf, hf', hopt, rfl⟩ := solve_emf_false_iff.mp hr
  obtain ⟨g', opt', hg', -, hk', hf2, hf2', hopt', rfl⟩ := solve_emf_false_iff.mp hr'
  obtain ⟨hl1, hl2, hp⟩ := gran_guesses_ok hg
  obtain ⟨hl1', hl2', hp'⟩ := gran_guesses_ok hg'
  have hul := emfStart_used_length (o := o) hg
  have hul' := emfStart_used_length (o := o) hg'
  simp only [emfResult] at hu hsame ⊢
  have hlen : emf.length = emf'.length := by rw [← hul, ← hul', hu]
  have halk : (emfStart o g' emf' T').alk = (emfStart o g emf T).alk := by
    simp only [emfStart]
    cases h : o.alkalinity_init with
    | none => exact absurd h ha
    | some a => rfl
  have hemf0 : (emfStart o g' emf' T').emf0 = (emfStart o g emf T).emf0 := by
    simp only [emfStart, he]
  have hprob : emfProblem c o.titrant_normality M tm' emf' T' totals' ks' (emfStart o g' emf' T').used
      = emfProblem c o.titrant_normality M tm emf T totals ks (emfStart o g emf T).used := by
    funext x
    simp only [emfProblem, hu]
    congr 1
    refine mask_congr (by simp [emfRes, alkList_length, emf_to_pH_arr]; omega)
      (by simp [emfRes, alkList_length, emf_to_pH_arr]; omega) ?_
    intro i h1 h2
    obtain ⟨e1, e2, e3, e4, e5⟩ := hsame i h1 h2
    have hi : i < emf.length := by omega
    rw [List.getElem?_eq_getElem (by omega), List.getElem?_eq_getElem (by omega)] at e1 e2 e3
    simp only [Option.some.injEq] at e1 e2 e3
    simp only [emfRes, List.getElem_zipWith]
    rw [alkList_getElem _ _ _ _ _ (by simp [emf_to_pH_arr]; omega),
      alkList_getElem _ _ _ _ _ (by simp [emf_to_pH_arr]; omega)]
    simp only [emf_to_pH_arr, List.getElem_zipWith, alkAt, e1, e2, e3, e4, e5]
  rw [hprob, halk, hemf0, hopt] at hopt'
  simp only [Except.ok.injEq] at hopt'
  subst hopt'
  exact ⟨rfl, rfl, rfl, rfl⟩

/-! ## C25 -/

/-- C25: `double=True` is: solve once, then solve once more from the alkalinity and EMF0 just found
with the same window and normality (and default Gran logic).  Exceptions of either solve propagate. -/
theorem C25_double (ls : LsFun (Flt × Flt)) (c M : Flt) (tm emf T : List Flt)
    (totals ks : Dict NpVal) (o : EmfOpts) :
    (∀ sr1, solve_emf ls c tm emf T M totals ks o false = .ok sr1 →
      solve_emf ls c tm emf T M totals ks o true =
        solve_emf ls c tm emf T M totals ks
          { alkalinity_init := some sr1.alkalinity, emf0_init := some sr1.emf0,
            gran_logic := "v23.7+", pH_min := o.pH_min, pH_max := o.pH_max,
            titrant_normality := o.titrant_normality } false) ∧
    (∀ e, solve_emf ls c tm emf T M totals ks o false = .error e →
      solve_emf ls c tm emf T M totals ks o true = .error e) := by
  constructor
  · intro sr1 h
    rw [solve_emf_true_eq, h, bind_ok]
  · intro e h
    rw [solve_emf_true_eq, h, bind_error]

/-- C25: one solve asks the optimiser exactly one question: two optimisers that answer it alike give
the same result, whatever they do otherwise. -/
theorem C25_single_call (c M : Flt) (tm emf T : List Flt) (totals ks : Dict NpVal) (o : EmfOpts) :
    ∃ (f : Flt × Flt → Py (List Flt)) (x0 : Flt × Flt), ∀ ls ls' : LsFun (Flt × Flt),
      ls f x0 = ls' f x0 →
      solve_emf ls c tm emf T M totals ks o false = solve_emf ls' c tm emf T M totals ks o false := by
  cases hg : gran_guesses tm emf T M c o.titrant_normality o.gran_logic with
  | error e =>
    refine ⟨fun _ => .ok [], (nan, nan), fun ls ls' _ => ?_⟩
    rw [solve_emf, solve_emf.eq_1 ls', hg]; rfl
  | ok g =>
  cases htu : maskDict (emfStart o g emf T).used totals with
  | error e =>
    refine ⟨fun _ => .ok [], (nan, nan), fun ls ls' _ => ?_⟩
    rw [solve_emf, solve_emf.eq_1 ls', hg]
    simp only [bind_ok]
    change (_ >>= fun _ => maskDict (emfStart o g emf T).used totals >>= _) =
      (_ >>= fun _ => maskDict (emfStart o g emf T).used totals >>= _)
    rw [htu]; rfl
  | ok tu =>
  cases hku : maskDict (emfStart o g emf T).used ks with
  | error e =>
    refine ⟨fun _ => .ok [], (nan, nan), fun ls ls' _ => ?_⟩
    rw [solve_emf, solve_emf.eq_1 ls', hg]
    simp only [bind_ok]
    change (_ >>= fun _ => maskDict (emfStart o g emf T).used totals >>= fun _ =>
        maskDict (emfStart o g emf T).used ks >>= _) =
      (_ >>= fun _ => maskDict (emfStart o g emf T).used totals >>= fun _ =>
        maskDict (emfStart o g emf T).used ks >>= _)
    rw [htu, hku]; rfl
  | ok ku =>
    refine ⟨lsqfun_solve_emf c (mask (emfStart o g emf T).used tm)
        (mask (emfStart o g emf T).used emf) (mask (emfStart o g emf T).used T) M tu ku
        o.titrant_normality, ((emfStart o g emf T).alk, (emfStart o g emf T).emf0), ?_⟩
    intro ls ls' h
    rw [solve_emf, solve_emf.eq_1 ls', hg]
    simp only [bind_ok]
    change (_ >>= fun _ => maskDict (emfStart o g emf T).used totals >>= fun tu =>
        maskDict (emfStart o g emf T).used ks >>= fun ku =>
        ls (lsqfun_solve_emf c (mask (emfStart o g emf T).used tm)
        (mask (emfStart o g emf T).used emf) (mask (emfStart o g emf T).used T) M tu ku
        o.titrant_normality) ((emfStart o g emf T).alk, (emfStart o g emf T).emf0) >>= _) =
      (_ >>= fun _ => maskDict (emfStart o g emf T).used totals >>= fun tu =>
        maskDict (emfStart o g emf T).used ks >>= fun ku =>
        ls' (lsqfun_solve_emf c (mask (emfStart o g emf T).used tm)
        (mask (emfStart o g emf T).used emf) (mask (emfStart o g emf T).used T) M tu ku
        o.titrant_normality) ((emfStart o g emf T).alk, (emfStart o g emf T).emf0) >>= _)
    simp only [htu, hku, bind_ok, h]

/-! ## C26 -/

/-- C26: with `double=True` the reported Gran diagnostics are those of the default logic, whatever
`gran_logic` was requested. -/
theorem C26_ggr_default (ls : LsFun (Flt × Flt)) (c M : Flt) (tm emf T : List Flt)
    (totals ks : Dict NpVal) (o : EmfOpts) (sr : SolveEmf)
    (hr : solve_emf ls c tm emf T M totals ks o true = .ok sr) :
    gran_guesses tm emf T M c o.titrant_normality "v23.7+" = .ok sr.ggr := by
  rw [solve_emf_true_eq, bind_ok_iff] at hr
  obtain ⟨sr1, h1, h2⟩ := hr
  obtain ⟨g, opt, hg, -, -, -, -, -, rfl⟩ := solve_emf_false_iff.mp h2
  exact hg

/-- C26: with `double=False` the requested logic is reported. -/
theorem C26_ggr_single (ls : LsFun (Flt × Flt)) (c M : Flt) (tm emf T : List Flt)
    (totals ks : Dict NpVal) (o : EmfOpts) (sr : SolveEmf)
    (hr : solve_emf ls c tm emf T M totals ks o false = .ok sr) :
    gran_guesses tm emf T M c o.titrant_normality o.gran_logic = .ok sr.ggr := by
  obtain ⟨g, opt, hg, -, -, -, -, -, rfl⟩ := solve_emf_false_iff.mp hr
  exact hg

/-! ## C27 -/

/-- C27: if the EMFs were generated from alkalinity `A` and EMF0 `E` by the same chemistry, then all
residuals of the fit (core.py:521 `_lsqfun_solve_emf`) vanish at `(A, E)`. -/
theorem C27_zero (c n M A E : ℝ) (tm emf T pH : List ℝ) (totals ks : Dict NpVal)
    (hl1 : tm.length = emf.length) (hl2 : emf.length = T.length) (hlp : pH.length = emf.length)
    (hm : ∀ m ∈ tm, 0 < m + M) (hT : ∀ t ∈ T, -273.15 < t)
    (hv : ValidRows totals ks emf.length) (hk : HasKsN totals ks 3)
    (hf : dictFits emf.length totals = true) (hf' : dictFits emf.length ks = true)
    (hdata : ∀ i, (h1 : i < emf.length) → (h2 : i < T.length) → (h3 : i < tm.length) →
      (h4 : i < pH.length) → emf[i] = nernst E T[i] ((10:ℝ) ^ (-pH[i])) ∧
        specAlk totals ks i pH[i] * (tm[i] + M) = A * M - tm[i] * c * n) :
    lsqfun_solve_emf (fin c) (tm.map fin) (emf.map fin) (T.map fin) (fin M) totals ks (fin n)
      (fin A, fin E) = .ok (List.replicate emf.length (fin 0)) := by
  have hlen : (pHRs E emf T).length = emf.length := by simp [pHRs, hl2]
  have h := emfRes_fin (c := c) (n := n) (A := A) (E := E) hT hm hl2 hv hk
  rw [emfResR_zero hl1 hl2 hlp hm hT hdata] at h
  simp only [lsqfun_solve_emf]
  rw [alkalinity_arr_eq (by simp) hk _ (by rw [emf_to_pH_arr_fin hT]; simpa [hlen] using hf)
    (by rw [emf_to_pH_arr_fin hT]; simpa [hlen] using hf'), bind_ok]
  change Except.ok (emfRes _ _ _ _ _ _ _ _ (fin A, fin E)) = _
  rw [h]
  simp

/-- C27: hence a globally minimising optimiser fits every used point of exact data exactly. -/
theorem C27_exact_fit (ls : LsFun (Flt × Flt)) (hmin : LsGlobalMin ls) (c n M A E : ℝ)
    (tm emf T pH : List ℝ) (totals ks : Dict NpVal) (o : EmfOpts) (double : Bool) (sr : SolveEmf)
    (ho : o.titrant_normality = fin n) (hm : ∀ m ∈ tm, 0 < m + M)
    (hT : ∀ t ∈ T, -273.15 < t) (hv : ValidRows totals ks emf.length)
    (hlp : pH.length = emf.length)
    (hdata : ∀ i, (h1 : i < emf.length) → (h2 : i < T.length) → (h3 : i < tm.length) →
      (h4 : i < pH.length) → emf[i] = nernst E T[i] ((10:ℝ) ^ (-pH[i])) ∧
        specAlk totals ks i pH[i] * (tm[i] + M) = A * M - tm[i] * c * n)
    (hr : solve_emf ls (fin c) (tm.map fin) (emf.map fin) (T.map fin) (fin M) totals ks o double
      = .ok sr) :
    ∀ ρ ∈ sr.opt_result.fun_, ρ = fin 0 := by
  obtain ⟨o', -, -, hn, h⟩ := solve_emf_last hr
  obtain ⟨g, opt, hg, -, hk, -, -, hopt, rfl⟩ := solve_emf_false_iff.mp h
  obtain ⟨hl1, hl2, -⟩ := gran_guesses_ok hg
  simp only [List.length_map] at hl1 hl2
  have hz := emfRes_fin (c := c) (n := n) (A := A) (E := E) hT hm hl2 hv hk
  rw [emfResR_zero hl1 hl2 hlp hm hT hdata] at hz
  have hf : emfProblem (fin c) o'.titrant_normality (fin M) (tm.map fin) (emf.map fin) (T.map fin)
      totals ks (emfStart o' g (emf.map fin) (T.map fin)).used (fin A, fin E)
      = .ok ((mask (emfStart o' g (emf.map fin) (T.map fin)).used
          (List.replicate emf.length (0:ℝ))).map fin) := by
    simp only [emfProblem, hn, ho, hz, mask_map]
  obtain ⟨res, hres, hle⟩ := hmin _ _ _ hopt _ _ hf
  have hz : ((mask (emfStart o' g (emf.map fin) (T.map fin)).used
      (List.replicate emf.length (0:ℝ))).map (· ^ 2)).sum = 0 := by
    apply List.sum_eq_zero
    intro x hx
    obtain ⟨y, hy, rfl⟩ := List.mem_map.mp hx
    rw [List.eq_of_mem_replicate (mem_of_mem_mask hy)]; norm_num
  rw [hz] at hle
  have hall : ∀ x ∈ res.map (· ^ 2), x = 0 := by
    have hnn : ∀ x ∈ res.map (fun y : ℝ => y ^ 2), 0 ≤ x := by
      intro x hx; obtain ⟨y, -, rfl⟩ := List.mem_map.mp hx; positivity
    intro x hx
    have h1 := List.single_le_sum hnn x hx
    have h2 := hnn x hx
    linarith
  intro ρ hρ
  simp only [emfResult, hres] at hρ
  obtain ⟨y, hy, rfl⟩ := List.mem_map.mp hρ
  have := hall (y ^ 2) (List.mem_map.mpr ⟨y, hy, rfl⟩)
  simpa using this

/-! ## Satisfiability -/

open Classical in
/-- an optimiser that stops at the start if all residuals there are zero, and raises otherwise: it
satisfies both contracts -/
noncomputable def lsExact : LsFun (Flt × Flt) := fun f x0 =>
  if h : ∃ k, f x0 = .ok ((List.replicate k (0:ℝ)).map fin) then
    .ok { x := x0, fun_ := (List.replicate h.choose (0:ℝ)).map fin }
  else .error .ValueError

theorem lsExact_contracts : LsSound lsExact ∧ LsGlobalMin lsExact := by
  constructor
  · intro f x0 r h
    unfold lsExact at h
    split at h
    next hex => cases h; exact hex.choose_spec
    next => cases h
  · intro f x0 r h x ρ _
    unfold lsExact at h
    split at h
    next hex =>
      cases h
      refine ⟨_, rfl, ?_⟩
      have : 0 ≤ (ρ.map (· ^ 2)).sum := by
        apply List.sum_nonneg
        intro x hx; obtain ⟨y, -, rfl⟩ := List.mem_map.mp hx; positivity
      simpa using this
    next => cases h


/-- Ideal strong-acid data with an optimiser meeting both contracts: the EMF solver returns the true
alkalinity and EMF0 (a concrete case of C23-C27). -/
theorem strong_acid_solve : ∃ sr, solve_emf lsExact (fin 1) ([1, 2, 3].map fin)
      ([1, 2, 3].map fun m => fin (nernst 400 25 (strongAcidH 0.5 1 1 1 m))) ([25, 25, 25].map fin)
      (fin 1) [] [] { pH_min := fin (-10), pH_max := fin 10 } false = .ok sr ∧
    sr.opt_result.x = (fin 0.5, fin 400) ∧ sr.alkalinity = fin 500000 := by
  obtain ⟨g, hg, h1, h2, -⟩ := C19_exact 0.5 400 25 1 1 1
    ([1, 2, 3].map fun m => (m, nernst 400 25 (strongAcidH 0.5 1 1 1 m), 25))
    ⟨by simp; norm_num, by simp; norm_num, by simp, by simp⟩ (by norm_num) (by norm_num)
    (by norm_num) (by norm_num)
    ⟨_, List.mem_map.mpr ⟨1, by simp, rfl⟩, _, List.mem_map.mpr ⟨2, by simp, rfl⟩, by norm_num,
      by simp; norm_num, by simp; norm_num⟩
  simp only [List.map_cons, List.map_nil] at hg ⊢
  set emf : List ℝ := [nernst 400 25 (strongAcidH 0.5 1 1 1 1),
    nernst 400 25 (strongAcidH 0.5 1 1 1 2), nernst 400 25 (strongAcidH 0.5 1 1 1 3)] with hemf
  have hs : ∀ i x, specAlk [] [] i x = -(10 : ℝ) ^ (-x) := by
    intro i x
    simp [specAlk, rowAt, Dict.mapKV, Sol.alk, Sol.of, rval, carbAlk, base, phosAlk, extraAlk, acid]
  have h10 : ∀ y : ℝ, 0 < y → (10 : ℝ) ^ (Real.logb 10 y) = y := fun y hy =>
    Real.rpow_logb (by norm_num) (by norm_num) hy
  have hT : ∀ t ∈ ([25, 25, 25] : List ℝ), -273.15 < t := by
    intro t ht; simp at ht; subst ht; norm_num
  have hm : ∀ m ∈ ([1, 2, 3] : List ℝ), 0 < m + 1 := by
    intro m hm; simp at hm; rcases hm with rfl | rfl | rfl <;> norm_num
  have hv : ValidRows [] [] 3 := by
    intro i _; constructor <;> (intro k v hv; simp [rowAt, Dict.mapKV] at hv)
  have hk : HasKsN [] [] 3 := by intro tk _ h; simp [Dict.has] at h
  have hzero := emfResR_zero (c := 1) (n := 1) (M := 1) (A := 0.5) (E := 400) (tm := [1, 2, 3])
    (emf := emf) (T := [25, 25, 25]) (pH := [-Real.logb 10 (strongAcidH 0.5 1 1 1 1),
      -Real.logb 10 (strongAcidH 0.5 1 1 1 2), -Real.logb 10 (strongAcidH 0.5 1 1 1 3)])
    (totals := []) (ks := []) rfl rfl rfl hm hT (by
      intro i h1 h2 h3 h4
      have hp : ∀ m : ℝ, 1 ≤ m → 0 < strongAcidH 0.5 1 1 1 m := by
        intro m hm; unfold strongAcidH; apply div_pos <;> linarith
      match i, h2 with
      | 0, _ => simp only [hemf, List.getElem_cons_zero, hs, neg_neg, h10 _ (hp 1 (by norm_num)),
                  strongAcidH]; norm_num
      | 1, _ => simp only [hemf, List.getElem_cons_succ, List.getElem_cons_zero, hs, neg_neg,
                  h10 _ (hp 2 (by norm_num)), strongAcidH]; norm_num
      | 2, _ => simp only [hemf, List.getElem_cons_succ, List.getElem_cons_zero, hs, neg_neg,
                  h10 _ (hp 3 (by norm_num)), strongAcidH]; norm_num)
  have hr := emfRes_fin (c := 1) (n := 1) (M := 1) (A := 0.5) (E := 400) (tm := [1, 2, 3])
    (emf := emf) (T := [25, 25, 25]) (totals := []) (ks := []) hT hm rfl hv hk
  rw [hzero] at hr
  set o : EmfOpts := { pH_min := fin (-10), pH_max := fin 10 } with ho
  have hst : (emfStart o g (emf.map fin) ([25, 25, 25].map fin)).alk = fin 0.5 ∧
      (emfStart o g (emf.map fin) ([25, 25, 25].map fin)).emf0 = fin 400 := ⟨h1, h2⟩
  have hprob : emfProblem (fin 1) o.titrant_normality (fin 1) ([1, 2, 3].map fin) (emf.map fin)
      ([25, 25, 25].map fin) [] [] (emfStart o g (emf.map fin) ([25, 25, 25].map fin)).used
      (fin 0.5, fin 400) = .ok ((mask (emfStart o g (emf.map fin) ([25, 25, 25].map fin)).used
        (List.replicate 3 (0:ℝ))).map fin) := by
    simp only [emfProblem]
    rw [show o.titrant_normality = fin 1 from rfl, hr, mask_map]
    rfl
  have hex : ∃ k, emfProblem (fin 1) o.titrant_normality (fin 1) ([1, 2, 3].map fin) (emf.map fin)
      ([25, 25, 25].map fin) [] [] (emfStart o g (emf.map fin) ([25, 25, 25].map fin)).used
      ((emfStart o g (emf.map fin) ([25, 25, 25].map fin)).alk,
        (emfStart o g (emf.map fin) ([25, 25, 25].map fin)).emf0)
      = .ok ((List.replicate k (0:ℝ)).map fin) := by
    refine ⟨(mask (emfStart o g (emf.map fin) ([25, 25, 25].map fin)).used
        (List.replicate 3 (0:ℝ))).length, ?_⟩
    rw [hst.1, hst.2, hprob]
    congr 2
    exact List.eq_replicate_of_mem fun x hx => List.eq_of_mem_replicate (mem_of_mem_mask hx)
  refine ⟨_, solve_emf_false_iff.mpr ⟨g, _, hg, by simp [ho], hk, rfl, rfl, dif_pos hex, rfl⟩, ?_, ?_⟩
  · simp only [emfResult]
    exact Prod.ext hst.1 hst.2
  · simp only [emfResult]
    have e : (emfStart o g (emf.map fin) ([25, 25, 25].map fin)).alk * fin 1e6 = fin 500000 := by
      rw [hst.1]; simp; norm_num
    exact e

end Calk
