import Verif.Props.SolveEmf
import Verif.Props.SolvePH

/-!
# Properties C83, C84: what the EMF solver fits, and what the reported spreads are

`ls` stands for `scipy.optimize.least_squares` and is an arbitrary function.
-/

namespace Calk
open Flt Spec

/-! ## C83 -/

/-- Textbook residual of a titration point: the alkalinity that the electrode reading implies, minus
the alkalinity left after dilution and acid addition. -/
noncomputable def fitResidual (c n M A E : ℝ) (totals ks : Dict NpVal) (i : ℕ) (m e t : ℝ) : ℝ :=
  (Sol.of (rowAt totals i) (rowAt ks i)).alk 3 (Real.exp ((e - E) / (8.3144621 * (t + 273.15) / 96.4853365)))
    - (A * M - m * c * n) / (m + M)

/-- the residuals in textbook form -/
theorem emfResR_spec {c n M A E : ℝ} {tm emf T : List ℝ} {totals ks : Dict NpVal}
    (hm : ∀ m ∈ tm, 0 < m + M) (hT : ∀ t ∈ T, -273.15 < t) (i : ℕ)
    (h : i < (emfResR c n M A E tm emf T totals ks).length) (h1 : i < tm.length)
    (h2 : i < emf.length) (h3 : i < T.length) :
    (emfResR c n M A E tm emf T totals ks)[i]
      = fitResidual c n M A E totals ks i tm[i] emf[i] T[i] := by
  have hpos := hm _ (List.getElem_mem h1)
  have hTi := hT _ (List.getElem_mem h3)
  have hp : (10 : ℝ) ^ (-(pHR E emf[i] T[i]))
      = Real.exp ((emf[i] - E) / (8.3144621 * (T[i] + 273.15) / 96.4853365)) := by
    have hns := nslope_pos hTi
    have h0 : 8.3144621 * (T[i] + 273.15) / 96.4853365 = nslope T[i] := by
      simp [nslope, ideal_gas, faraday, absolute_zero]
    rw [h0, pHR, Real.rpow_def_of_pos (by norm_num), neg_neg]
    congr 1
    have := log10_pos
    field_simp
  simp only [emfResR, List.getElem_zipWith, List.getElem_zipIdx, Nat.zero_add, pHRs, specAlk,
    fitResidual, hp]
  field_simp
  ring

/-- `f`, called with the alkalinity (mol/kg) and EMF0, returns the textbook residuals of the points
marked in `used`. -/
def IsFit (c n M : ℝ) (tm emf T : List ℝ) (totals ks : Dict NpVal) (used : List Bool)
    (f : Flt × Flt → Py (List Flt)) : Prop :=
  ∀ A E : ℝ, ∃ res : List ℝ, res.length = tm.length ∧
    (∀ i, (h : i < res.length) → (h1 : i < tm.length) → (h2 : i < emf.length) →
      (h3 : i < T.length) → res[i] = fitResidual c n M A E totals ks i tm[i] emf[i] T[i]) ∧
    f (fin A, fin E) = .ok ((mask used res).map fin)

/-- C83: one solve asks `least_squares` for the alkalinity (mol/kg) and EMF0 that minimise the
textbook residuals of the used points, starting from the given initial values (the alkalinity in
µmol/kg), else from the Gran estimates; its answer is returned, the alkalinity in µmol/kg. -/
theorem C83_fit (ls : LsFun (Flt × Flt)) (c n M : ℝ) (tm emf T : List ℝ) (totals ks : Dict NpVal)
    (o : EmfOpts) (sr : SolveEmf) (ho : o.titrant_normality = fin n)
    (hm : ∀ m ∈ tm, 0 < m + M) (hT : ∀ t ∈ T, -273.15 < t) (hv : ValidRows totals ks emf.length)
    (hr : solve_emf ls (fin c) (tm.map fin) (emf.map fin) (T.map fin) (fin M) totals ks o false
      = .ok sr) :
    ∃ f : Flt × Flt → Py (List Flt), IsFit c n M tm emf T totals ks sr.used f ∧
      ls f ((match o.alkalinity_init with
          | some a => a * fin 1e-6
          | none => sr.ggr.ga.alkalinity),
        (match o.emf0_init with
          | some e => e
          | none => sr.ggr.emf0)) = .ok sr.opt_result ∧
      sr.alkalinity = sr.opt_result.x.1 * fin 1e6 ∧ sr.emf0 = sr.opt_result.x.2 := by
  obtain ⟨g, opt, hg, -, hk, hf, hf', hopt, rfl⟩ := solve_emf_false_iff.mp hr
  obtain ⟨hl1, hl2, -⟩ := gran_guesses_ok hg
  simp only [List.length_map] at hl1 hl2
  rw [ho] at hopt
  refine ⟨emfProblem (fin c) (fin n) (fin M) (tm.map fin) (emf.map fin) (T.map fin) totals ks
      (emfStart o g (emf.map fin) (T.map fin)).used, ?_, ?_, rfl, rfl⟩
  · intro A E
    refine ⟨emfResR c n M A E tm emf T totals ks, ?_, ?_, ?_⟩
    · simp [emfResR, pHRs]; omega
    · intro i h h1 h2 h3
      exact emfResR_spec hm hT i h h1 h2 h3
    · simp only [emfProblem, emfRes_fin hT hm hl2 hv hk, mask_map, emfResult]
  · have e : (emfResult (fin c) o.titrant_normality (fin M) (tm.map fin) (emf.map fin) (T.map fin)
        totals ks (emfStart o g (emf.map fin) (T.map fin)).used g opt).opt_result = opt := rfl
    rw [e, ← hopt]
    cases h1 : o.alkalinity_init <;> cases h2 : o.emf0_init <;>
      simp only [emfStart, emfResult, h1, h2]

/-- C83: a double solve starts its second fit, to the points then in use, exactly where the first
one ended. -/
theorem C83_restart (ls : LsFun (Flt × Flt)) (c n M : ℝ) (tm emf T : List ℝ)
    (totals ks : Dict NpVal) (o : EmfOpts) (sr : SolveEmf) (ho : o.titrant_normality = fin n)
    (hm : ∀ m ∈ tm, 0 < m + M) (hT : ∀ t ∈ T, -273.15 < t) (hv : ValidRows totals ks emf.length)
    (hr : solve_emf ls (fin c) (tm.map fin) (emf.map fin) (T.map fin) (fin M) totals ks o true
      = .ok sr) :
    ∃ sr1, solve_emf ls (fin c) (tm.map fin) (emf.map fin) (T.map fin) (fin M) totals ks o false
        = .ok sr1 ∧
      ∀ A E : ℝ, sr1.opt_result.x = (fin A, fin E) →
        ∃ f, IsFit c n M tm emf T totals ks sr.used f ∧
          ls f (fin A, fin E) = .ok sr.opt_result ∧
          sr.alkalinity = sr.opt_result.x.1 * fin 1e6 ∧ sr.emf0 = sr.opt_result.x.2 := by
  rw [solve_emf_true_eq, bind_ok_iff] at hr
  obtain ⟨sr1, h1, h2⟩ := hr
  refine ⟨sr1, h1, fun A E hx => ?_⟩
  obtain ⟨f, hf, hls, ha, he⟩ := C83_fit ls c n M tm emf T totals ks
    ⟨some sr1.alkalinity, some sr1.emf0, "v23.7+", o.pH_min, o.pH_max, o.titrant_normality⟩ sr ho hm hT hv h2
  obtain ⟨f1, -, -, ha1, he1⟩ := C83_fit ls c n M tm emf T totals ks _ sr1 ho hm hT hv h1
  refine ⟨f, hf, ?_, ha, he⟩
  rw [← hls, ha1, he1, hx]
  congr 2
  simp only [mul_fin, fin_inj]
  ring

/-! ## C84 -/

/-- arithmetic mean -/
noncomputable def Spec.mean (xs : List ℝ) : ℝ := xs.sum / xs.length

/-- population standard deviation -/
noncomputable def Spec.sd (xs : List ℝ) : ℝ :=
  Real.sqrt (Spec.mean (xs.map fun x => (x - Spec.mean xs) ^ 2))

/-- C84: `solve_pH` reports the population standard deviation of the point estimates inside the
window. -/
theorem C84_pH (c n M lo hi : ℝ) (tm pH : List ℝ) (totals ks : Dict NpVal) (r : SolvePH)
    (hM : 0 < M) (hm : ∀ m ∈ tm, 0 < m + M) (hv : ValidRows totals ks pH.length)
    (hin : ∃ p ∈ pH, lo ≤ p ∧ p ≤ hi)
    (hr : solve_pH (fin c) (tm.map fin) (pH.map fin) (fin M) totals ks
        { pH_min := fin lo, pH_max := fin hi, titrant_normality := fin n } = .ok r) :
    ∃ est : List ℝ, r.alkalinity_all = est.map fin ∧
      r.alkalinity_std
        = fin (Spec.sd (mask (pH.map fun p => decide (lo ≤ p) && decide (p ≤ hi)) est)) := by
  obtain ⟨-, hk, -, -, hl, rfl⟩ := solve_pH_ok hr
  simp only [List.length_map] at hl
  have hlen : (phAllR c tm pH M totals ks n).length = pH.length := by simp [phAllR, hl]
  refine ⟨phAllR c tm pH M totals ks n, ?_, ?_⟩
  · simp only [phRes, phAll_fin hv hk hM hm]
  · simp only [phRes, phAll_fin hv hk hM hm, pH_used_fin]
    rw [mask_map, npStd_map_fin]
    · rfl
    · apply mask_ne_nil (by simp [hlen])
      obtain ⟨p, hp, h1, h2⟩ := hin
      exact List.mem_map.mpr ⟨p, hp, by simp [inWin, h1, h2]⟩

/-- C84: the EMF solver reports 1e6 times the population standard deviation of the residuals of the
used points - not that of the point estimates, in which each residual is divided by the dilution
factor `M / (m + M)`. -/
theorem C84_emf (ls : LsFun (Flt × Flt)) (hls : LsSound ls) (c n M A E : ℝ)
    (tm emf T : List ℝ) (totals ks : Dict NpVal) (o : EmfOpts) (double : Bool) (sr : SolveEmf)
    (ho : o.titrant_normality = fin n) (hM : 0 < M) (hm : ∀ m ∈ tm, 0 < m + M)
    (hT : ∀ t ∈ T, -273.15 < t) (hv : ValidRows totals ks emf.length)
    (hr : solve_emf ls (fin c) (tm.map fin) (emf.map fin) (T.map fin) (fin M) totals ks o double
      = .ok sr)
    (hx : sr.opt_result.x = (fin A, fin E)) (hne : true ∈ sr.used) :
    ∃ res est : List ℝ, res.length = tm.length ∧ est.length = tm.length ∧
      sr.alkalinity_all = est.map fin ∧
      (∀ i, (h : i < res.length) → (h1 : i < tm.length) → (h2 : i < emf.length) →
        (h3 : i < T.length) → (h4 : i < est.length) →
        res[i] = fitResidual c n M A E totals ks i tm[i] emf[i] T[i] ∧
        est[i] = 1e6 * A + 1e6 * res[i] * (tm[i] + M) / M) ∧
      sr.alkalinity_std = fin (1e6 * Spec.sd (mask sr.used res)) := by
  obtain ⟨o', -, -, hn, h⟩ := solve_emf_last hr
  obtain ⟨g, opt, hg, -, hk, hf, hf', hopt, rfl⟩ := solve_emf_false_iff.mp h
  obtain ⟨hl1, hl2, -⟩ := gran_guesses_ok hg
  have hul : (emfStart o' g (emf.map fin) (T.map fin)).used.length = (emf.map fin).length :=
    emfStart_used_length hg
  simp only [List.length_map] at hl1 hl2 hul
  rw [hn, ho] at *
  simp only [emfResult] at hx hne ⊢
  have hfun := hls _ _ _ hopt
  simp only [emfProblem, Except.ok.injEq, hx, emfRes_fin hT hm hl2 hv hk, mask_map] at hfun
  have hlenp : (pHRs E emf T).length = emf.length := by simp [pHRs, hl2]
  have hlr : (emfResR c n M A E tm emf T totals ks).length = tm.length := by
    simp [emfResR, pHRs]; omega
  refine ⟨emfResR c n M A E tm emf T totals ks, phAllR c tm (pHRs E emf T) M totals ks n, hlr, ?_,
    ?_, ?_, ?_⟩
  · simp [phAllR, pHRs]; omega
  · rw [hx, emf_to_pH_arr_fin hT, phAll_fin (by rw [hlenp]; exact hv) hk hM hm]
  · intro i h h1 h2 h3 h4
    refine ⟨emfResR_spec hm hT i h h1 h2 h3, ?_⟩
    have hpos := hm _ (List.getElem_mem h1)
    simp only [phAllR, emfResR, List.getElem_zipWith, ptR]
    field_simp
    ring
  · rw [← hfun, npStd_map_fin]
    · simp only [mul_fin, fin_inj]
      rw [mul_comm]
      rfl
    · exact mask_ne_nil (by omega) hne

/-! ## Satisfiability -/

/-- an optimiser that stays where it starts -/
def lsStay : LsFun (Flt × Flt) := fun f x0 => do
  let r ← f x0
  return { x := x0, fun_ := r }

theorem lsStay_sound : LsSound lsStay := by
  intro f x0 r h
  simp only [lsStay, bind_ok_iff, pure_ok, Except.ok.injEq] at h
  obtain ⟨ρ, hρ, rfl⟩ := h
  exact hρ

/-- three points of a strong acid titration -/
noncomputable def fitEmf : List ℝ := [1, 2, 3].map fun m => nernst 400 25 (strongAcidH 0.5 1 1 1 m)

/-- options with a given start -/
noncomputable def fitO (a : ℝ) : EmfOpts :=
  { alkalinity_init := some (fin a), emf0_init := some (fin 400),
    pH_min := fin 0, pH_max := fin 1 }

theorem fit_solves (a : ℝ) : ∃ sr, solve_emf lsStay (fin 1) ([1, 2, 3].map fin) (fitEmf.map fin)
      ([25, 25, 25].map fin) (fin 1) [] [] (fitO a) false = .ok sr ∧
    sr.opt_result.x = (fin (a * 1e-6), fin 400) ∧ sr.used = [true, true, true] := by
  obtain ⟨g, hg, -⟩ := C19_exact 0.5 400 25 1 1 1
    ([1, 2, 3].map fun m => (m, nernst 400 25 (strongAcidH 0.5 1 1 1 m), 25))
    ⟨by simp; norm_num, by simp; norm_num, by simp, by simp⟩ (by norm_num) (by norm_num)
    (by norm_num) (by norm_num)
    ⟨_, List.mem_map.mpr ⟨1, by simp, rfl⟩, _, List.mem_map.mpr ⟨2, by simp, rfl⟩, by norm_num,
      by simp; norm_num, by simp; norm_num⟩
  have hk : HasKsN [] [] 3 := by intro tk _ h; simp [Dict.has] at h
  have hT : ∀ t ∈ ([25, 25, 25] : List ℝ), -273.15 < t := by
    intro t ht; simp at ht; subst ht; norm_num
  refine ⟨_, solve_emf_false_iff.mpr ⟨g, ⟨_, _⟩, hg, by norm_num [fitO], hk, rfl, rfl, rfl, rfl⟩, ?_, ?_⟩
  · simp only [emfResult, emfStart, fitO, mul_fin]
  · simp only [emfResult, emfStart, fitO]
    rw [emf_to_pH_arr_fin hT, pH_used_fin]
    have key : ∀ h : ℝ, 0.1 ≤ h → h ≤ 1 → inWin 0 1 (pHR 400 (nernst 400 25 h) 25) = true := by
      intro h hlo hhi
      have e : pHR 400 (nernst 400 25 h) 25 = -Real.logb 10 h := by
        have hns := nslope_pos (t := 25) (by norm_num)
        have h0 : 8.3144621 * ((25 : ℝ) + 273.15) / 96.4853365 = nslope 25 := by
          simp [nslope, ideal_gas, faraday, absolute_zero]
        have := log10_pos
        rw [pHR, nernst, h0, Real.logb]
        field_simp
        ring
      have h1 : Real.logb 10 h ≤ 0 := Real.logb_nonpos (by norm_num) (by linarith) hhi
      have h2 : Real.logb 10 (10 ^ (-1 : ℝ)) ≤ Real.logb 10 h := by
        apply Real.logb_le_logb_of_le (by norm_num) (by positivity)
        rw [Real.rpow_neg (by norm_num)]; norm_num; linarith
      rw [Real.logb_rpow (by norm_num) (by norm_num)] at h2
      rw [e, inWin]
      simp only [Bool.and_eq_true, decide_eq_true_eq]
      constructor <;> linarith
    simp only [pHRs, fitEmf, List.map_cons, List.map_nil, List.zipWith_cons_cons, List.zipWith_nil_left]
    rw [key, key, key] <;> unfold strongAcidH <;> norm_num

theorem fit_hyps : (∀ m ∈ ([1, 2, 3] : List ℝ), 0 < m + 1) ∧ (∀ t ∈ ([25, 25, 25] : List ℝ), -273.15 < t) ∧
    ValidRows [] [] fitEmf.length := by
  refine ⟨?_, ?_, ?_⟩
  · intro m hm; simp at hm; rcases hm with rfl | rfl | rfl <;> norm_num
  · intro t ht; simp at ht; subst ht; norm_num
  · intro i _; constructor <;> (intro k v hv; simp [rowAt, Dict.mapKV] at hv)

/-- C83 and C84 at work: one solve, and a double one, starting away from the truth -/
example : ∃ sr : SolveEmf, (∃ f, IsFit 1 1 1 [1, 2, 3] fitEmf [25, 25, 25] [] [] sr.used f ∧
      lsStay f (fin 0.4, fin 400) = .ok sr.opt_result) ∧
    ∃ res : List ℝ, res.length = 3 ∧ sr.alkalinity_std = fin (1e6 * Spec.sd (mask sr.used res)) := by
  obtain ⟨sr, h, hx, hu⟩ := fit_solves 400000
  obtain ⟨hm, hT, hv⟩ := fit_hyps
  refine ⟨sr, ?_, ?_⟩
  · obtain ⟨f, hf, hl, -⟩ := C83_fit lsStay 1 1 1 _ _ _ _ _ _ sr rfl hm hT hv h
    refine ⟨f, hf, ?_⟩
    rw [← hl]
    congr 2
    simp only [fitO, mul_fin, fin_inj]
    norm_num
  · obtain ⟨res, est, hl, -, -, -, hs⟩ :=
      C84_emf lsStay lsStay_sound 1 1 1 _ _ _ _ _ _ _ _ _ sr rfl one_pos hm hT hv h hx
        (by rw [hu]; simp)
    exact ⟨res, hl, hs⟩

example : ∃ sr, solve_emf lsStay (fin 1) ([1, 2, 3].map fin) (fitEmf.map fin)
      ([25, 25, 25].map fin) (fin 1) [] [] (fitO 400000) true = .ok sr ∧
    ∃ f, IsFit 1 1 1 [1, 2, 3] fitEmf [25, 25, 25] [] [] sr.used f ∧
      lsStay f (fin 0.4, fin 400) = .ok sr.opt_result := by
  obtain ⟨sr1, h1, hx, -⟩ := fit_solves 400000
  obtain ⟨hm, hT, hv⟩ := fit_hyps
  obtain ⟨f, -, -, ha, he⟩ := C83_fit lsStay 1 1 1 _ _ _ _ _ _ sr1 rfl hm hT hv h1
  rw [hx] at ha he
  obtain ⟨sr, h, -⟩ := fit_solves 400000
  have h2 : solve_emf lsStay (fin 1) ([1, 2, 3].map fin) (fitEmf.map fin)
      ([25, 25, 25].map fin) (fin 1) [] [] (fitO 400000) true = .ok sr := by
    rw [(C25_double _ _ _ _ _ _ _ _ _).1 sr1 h1, ha, he, ← h]
    congr 1
    simp only [fitO, mul_fin]
    norm_num
  refine ⟨sr, h2, ?_⟩
  obtain ⟨sr1', h1', hr⟩ := C83_restart lsStay 1 1 1 _ _ _ _ _ _ sr rfl hm hT hv h2
  rw [h1] at h1'
  cases h1'
  obtain ⟨f, hf, hl, -⟩ := hr (400000 * 1e-6) 400 hx
  refine ⟨f, hf, ?_⟩
  rw [← hl]
  norm_num

theorem fit_residual (i : ℕ) (m : ℝ) (hm : 0.5 < m) :
    fitResidual 1 1 1 0.4 400 [] [] i m (nernst 400 25 (strongAcidH 0.5 1 1 1 m)) 25 = 0.1 / (m + 1) := by
  have h0 : 0 < strongAcidH 0.5 1 1 1 m := by unfold strongAcidH; apply div_pos <;> linarith
  have e : (nernst 400 25 (strongAcidH 0.5 1 1 1 m) - 400) / (8.3144621 * (25 + 273.15) / 96.4853365)
      = Real.log (strongAcidH 0.5 1 1 1 m) := by
    unfold nernst; field_simp; ring
  unfold fitResidual
  rw [e, Real.exp_log h0]
  simp [rowAt, Dict.mapKV, Sol.alk, Sol.of, rval, carbAlk, base, phosAlk, extraAlk, acid, strongAcidH]
  field_simp
  ring

/-- C84: the two spreads are different quantities: here the estimates of the three points used agree
exactly, so that their spread is zero, but `alkalinity_std` is not. -/
theorem C84_differs : ∃ sr, solve_emf lsStay (fin 1) ([1, 2, 3].map fin) (fitEmf.map fin)
      ([25, 25, 25].map fin) (fin 1) [] [] (fitO 400000) false = .ok sr ∧
    npStd (mask sr.used sr.alkalinity_all) = fin 0 ∧ ∃ x, sr.alkalinity_std = fin x ∧ 0 < x := by
  obtain ⟨sr, h, hx, hu⟩ := fit_solves 400000
  obtain ⟨hm, hT, hv⟩ := fit_hyps
  rw [show (400000 * 1e-6 : ℝ) = 0.4 by norm_num] at hx
  obtain ⟨res, est, hl, hl', ha, hre, hs⟩ :=
    C84_emf lsStay lsStay_sound 1 1 1 _ _ _ _ _ _ _ _ _ sr rfl one_pos hm hT hv h hx
      (by rw [hu]; simp)
  have hle : fitEmf.length = 3 := by simp [fitEmf]
  simp only [List.length_cons, List.length_nil] at hl hl'
  obtain ⟨a, b, c, rfl⟩ : ∃ a b c, res = [a, b, c] := by
    rcases res with _ | ⟨a, _ | ⟨b, _ | ⟨c, _ | _⟩⟩⟩ <;> simp at hl; exact ⟨_, _, _, rfl⟩
  obtain ⟨x, y, z, rfl⟩ : ∃ a b c, est = [a, b, c] := by
    rcases est with _ | ⟨a, _ | ⟨b, _ | ⟨c, _ | _⟩⟩⟩ <;> simp at hl'; exact ⟨_, _, _, rfl⟩
  have h0 := hre 0 (by simp) (by simp) (by simp [hle]) (by simp) (by simp)
  have h1 := hre 1 (by simp) (by simp) (by simp [hle]) (by simp) (by simp)
  have h2 := hre 2 (by simp) (by simp) (by simp [hle]) (by simp) (by simp)
  simp only [fitEmf, List.map_cons, List.map_nil, List.getElem_cons_zero, List.getElem_cons_succ] at h0 h1 h2
  rw [fit_residual _ _ (by norm_num)] at h0 h1 h2
  obtain ⟨rfl, rfl⟩ := h0
  obtain ⟨rfl, rfl⟩ := h1
  obtain ⟨rfl, rfl⟩ := h2
  refine ⟨sr, h, ?_, _, hs, ?_⟩
  · rw [ha, mask_map, npStd_map_fin _ (by rw [hu]; simp [mask]), hu]
    norm_num [mask, rstd, rmean]
  · rw [hu]
    apply mul_pos (by norm_num)
    apply Real.sqrt_pos.mpr
    norm_num [mask, Spec.mean]

/-- C84 for the pH solver: two of three points in the window -/
example : ∃ r est, solve_pH (fin 1) ([1, 2, 3].map fin) ([0.5, 0.25, 7].map fin) (fin 1) [] []
      { pH_min := fin 0, pH_max := fin 1, titrant_normality := fin 1 } = .ok r ∧
    r.alkalinity_all = est.map fin ∧
    r.alkalinity_std = fin (Spec.sd (mask [true, true, false] est)) := by
  have hv : ValidRows [] [] 3 := by
    intro i _; constructor <;> (intro k v hv; simp [rowAt, Dict.mapKV] at hv)
  obtain ⟨r, hr⟩ : ∃ r, solve_pH (fin 1) ([1, 2, 3].map fin) ([0.5, 0.25, 7].map fin) (fin 1) [] []
      { pH_min := fin 0, pH_max := fin 1, titrant_normality := fin 1 } = .ok r :=
    ⟨_, solve_pH_eq (by simp) (by intro tk _ h; simp [Dict.has] at h) rfl rfl rfl⟩
  obtain ⟨est, h1, h2⟩ := C84_pH 1 1 1 0 1 _ _ _ _ r one_pos fit_hyps.1 hv
    ⟨0.5, by simp, by norm_num, by norm_num⟩ hr
  refine ⟨r, est, hr, h1, ?_⟩
  rw [h2]
  norm_num

end Calk
