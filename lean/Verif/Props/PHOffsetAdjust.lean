import Verif.Props.Burette
import Verif.Props.FileAdjust

/-!
# Property C148, `ph_adjust` mode: a constant error of the pH electrode
-/

namespace Calk
open Flt Spec

/-- the potential (mV) that belongs to a pH error of `d` at `t` °C -/
noncomputable def Spec.errorEmf (t d : ℝ) : ℝ := 8.3144621 * (t + 273.15) / 96.4853365 * (d * Real.log 10)

theorem corrected_offset {E m p t d : ℝ} (ht : -273.15 < t) :
    correctedAcidity E (m, p + d, t) = correctedAcidity (E + errorEmf t d) (m, p, t) := by
  have hs : 8.3144621 * (t + 273.15) / 96.4853365 ≠ 0 := by
    have : 0 < t + 273.15 := by linarith
    positivity
  simp only [correctedAcidity, errorEmf]
  rw [add_div, mul_div_cancel_left₀ _ hs, neg_add, neg_add, Real.rpow_add (by norm_num), Real.exp_add, mul_assoc,
    mul_comm ((10 : ℝ) ^ (-d)), show (10 : ℝ) ^ (-d) = Real.exp (-(d * Real.log 10)) by
      rw [Real.rpow_def_of_pos (by norm_num)]; congr 1; ring]

/-- **C148**: `ph_adjust` mode, which looks for the error of the electrode, is immune as well, at constant temperature
and for a sound optimiser that finds minima: the fits of two files whose pH values differ by `d` throughout, and of
which the same points are used, are equally good, and what is found for the one, with the electrode's error moved by
the potential of `d`, is a best fit for the other. -/
theorem C148_adjust (w w' : World) (f f' : String) (S S' : Flt) (kw kw' : Dict Val)
    (x K : String → ℝ) (c n g M t d : ℝ) (pts : List (ℝ × ℝ × ℝ)) (ht : ∀ p ∈ pts, p.2.2 = t)
    (h : AdjustRun w f S kw x K c n g M pts)
    (h' : AdjustRun w' f' S' kw' x K c n g M (pts.map fun p => (p.1, p.2.1 + d, p.2.2)))
    (hmin : LsGlobalMin w.ls) (hmin' : LsGlobalMin w'.ls) (sr sr' : SolveEmf) (T T' : List Flt)
    (hr : files_solve w f (fin c) S kw = .ok (.emf sr T))
    (hr' : files_solve w' f' (fin c) S' kw' = .ok (.emf sr' T')) (hu : sr'.used = sr.used) (hany : true ∈ sr.used)
    (A E A' E' : ℝ) (hx : sr.opt_result.x = (fin A, fin E)) (hx' : sr'.opt_result.x = (fin A', fin E')) :
    sr.alkalinity = fin (1e6 * A) ∧ sr'.alkalinity = fin (1e6 * A') ∧ sr'.emf0 = fin E' ∧
    ((mask sr.used pts).map fun p => adjustMisfit x K c n g M A' (E' + errorEmf t d) p ^ 2).sum
      = ((mask sr.used pts).map fun p => adjustMisfit x K c n g M A E p ^ 2).sum ∧
    ∀ a e : ℝ, ((mask sr.used pts).map fun p => adjustMisfit x K c n g M A' (E' + errorEmf t d) p ^ 2).sum
      ≤ ((mask sr.used pts).map fun p => adjustMisfit x K c n g M a e p ^ 2).sum := by
  have hm : ∀ (a e : ℝ) (p : ℝ × ℝ × ℝ), p ∈ mask sr.used pts →
      adjustMisfit x K c n g M a e (p.1, p.2.1 + d, p.2.2) = adjustMisfit x K c n g M a (e + errorEmf t d) p := by
    intro a e p hp
    have hp := mask_subset _ _ hp
    simp only [adjustMisfit]
    rw [corrected_offset (h.temps p hp), ht p hp]
    rw [show ((p.1, p.2.1, t) : ℝ × ℝ × ℝ) = p by rw [← ht p hp]]
  obtain ⟨q, hq, hbest⟩ := C117_best w f S kw x K c n g M pts h hmin _ hr
  obtain ⟨q', hq', hbest'⟩ := C117_best w' f' S' kw' x K c n g M _ h' hmin' _ hr'
  simp only [SolveRes.emf.injEq] at hq hq'
  obtain ⟨rfl, -⟩ := hq
  obtain ⟨rfl, -⟩ := hq'
  obtain ⟨b1, -, -, b2⟩ := hbest A E hx hany
  obtain ⟨b1', b3', -, b2'⟩ := hbest' A' E' hx' (by rw [hu]; exact hany)
  have hsum : ∀ a e : ℝ, ((mask sr.used (pts.map fun p => (p.1, p.2.1 + d, p.2.2))).map
      fun p => adjustMisfit x K c n g M a e p ^ 2).sum
      = ((mask sr.used pts).map fun p => adjustMisfit x K c n g M a (e + errorEmf t d) p ^ 2).sum := by
    intro a e
    rw [mask_map, List.map_map]
    congr 1
    refine List.map_congr_left fun p hp => ?_
    simp only [Function.comp_apply]
    rw [hm a e p hp]
  have key : ∀ a e : ℝ,
      ((mask sr.used pts).map fun p => adjustMisfit x K c n g M A' (E' + errorEmf t d) p ^ 2).sum
      ≤ ((mask sr.used pts).map fun p => adjustMisfit x K c n g M a e p ^ 2).sum := by
    intro a e
    have := b2' a (e - errorEmf t d)
    rw [hu, hsum, hsum, sub_add_cancel] at this
    exact this
  exact ⟨b1, b1', b3', le_antisymm (key A E) (b2 _ _), key⟩

/-- **C148**: with exact data but for the electrode, `ph_adjust` mode finds the same alkalinity and the error of the
electrode that belongs to the shift: under the conditions of `C117_exact` on the acidity of a point `p` used and of
a point `q` with clearly more acid, the file whose pH values are off by another `d` has the true alkalinity `A`, and
its `emf0` is the electrode's error `E` less the potential of `d`. -/
theorem C148_adjust_exact (w' : World) (f' : String) (S' : Flt) (kw' : Dict Val)
    (x K : String → ℝ) (c n g M t d : ℝ) (pts : List (ℝ × ℝ × ℝ)) (ht : ∀ p ∈ pts, p.2.2 = t)
    (h' : AdjustRun w' f' S' kw' x K c n g M (pts.map fun p => (p.1, p.2.1 + d, p.2.2)))
    (hmin' : LsGlobalMin w'.ls) (sr' : SolveEmf) (T' : List Flt)
    (hr' : files_solve w' f' (fin c) S' kw' = .ok (.emf sr' T')) (A E A' E' : ℝ)
    (hx' : sr'.opt_result.x = (fin A', fin E'))
    (hdata : ∀ p ∈ pts, (mixture x K p.1 M c g).alk 3 (correctedAcidity E p) * (p.1 + M)
      = A * M - p.1 * c * n)
    (i j : ℕ) (p q : ℝ × ℝ × ℝ) (hi : pts[i]? = some p) (hj : pts[j]? = some q)
    (hui : sr'.used[i]? = some true) (huj : sr'.used[j]? = some true)
    (lo : ℝ) (hlo : 0 < lo) (hl : lo ≤ correctedAcidity E p)
    (hl' : lo ≤ correctedAcidity E' (p.1, p.2.1 + d, p.2.2))
    (hmore : (1 + (mixture x K p.1 M c g).buffering lo) * ((p.1 + M) * correctedAcidity E p)
      < (q.1 + M) * correctedAcidity E q) :
    sr'.alkalinity = fin (1e6 * A) ∧ sr'.emf0 = fin (E - errorEmf t d) := by
  have hc : ∀ r ∈ pts, correctedAcidity (E - errorEmf t d) (r.1, r.2.1 + d, r.2.2) = correctedAcidity E r := by
    intro r hr
    have hT : -273.15 < r.2.2 := h'.temps (r.1, r.2.1 + d, r.2.2) (List.mem_map.mpr ⟨r, hr, rfl⟩)
    rw [corrected_offset hT, ht r hr, sub_add_cancel]
    rw [show ((r.1, r.2.1, t) : ℝ × ℝ × ℝ) = r by rw [← ht r hr]]
  have hp := List.mem_of_getElem? hi
  have hq := List.mem_of_getElem? hj
  refine C117_exact w' f' S' kw' x K c n g M _ h' hmin' sr' T' hr' A (E - errorEmf t d) A' E' hx' ?_ i j
    (p.1, p.2.1 + d, p.2.2) (q.1, q.2.1 + d, q.2.2) (by rw [List.getElem?_map, hi]; rfl)
    (by rw [List.getElem?_map, hj]; rfl) hui huj (by rw [ht p hp, ht q hq]) lo hlo (by rw [hc p hp]; exact hl) hl' ?_
  · intro r' hr'
    obtain ⟨r, hr, rfl⟩ := List.mem_map.mp hr'
    rw [hc r hr]
    exact hdata r hr
  · rw [hc p hp, hc q hq]
    exact hmore

/-! ### A case: the two points of `qPts`, reported as pH by electrodes 10 mV and 5 mV off -/

/-- the pH values -/
noncomputable def aoPts (E : ℝ) : List (ℝ × ℝ × ℝ) :=
  [(0.001, -Real.logb 10 (2e-4 * Real.exp (E / (8.3144621 * (25 + 273.15) / 96.4853365))), 25),
   (0.002, -Real.logb 10 (9e-4 * Real.exp (E / (8.3144621 * (25 + 273.15) / 96.4853365))), 25)]

theorem ao_zero (E : ℝ) : (aoPts E).map zeroEmf = qPts E := by
  have e : ∀ h : ℝ, 0 < h → nernst 0 25 ((10 : ℝ) ^ (-(-Real.logb 10
      (h * Real.exp (E / (8.3144621 * (25 + 273.15) / 96.4853365)))))) = nernst E 25 h := by
    intro h hh
    rw [neg_neg, Real.rpow_logb (by norm_num) (by norm_num) (by positivity), nernst, nernst,
      Real.log_mul hh.ne' (Real.exp_pos _).ne', Real.log_exp]
    field_simp
    ring
  simp only [aoPts, qPts, zeroEmf, List.map_cons, List.map_nil, e 2e-4 (by norm_num),
    e 9e-4 (by norm_num)]

noncomputable def aoData (E : ℝ) : DatData where
  titrant_amount := (aoPts E).map fun p => fin p.1
  measurement := (aoPts E).map fun p => fin p.2.1
  temperature := (aoPts E).map fun p => fin p.2.2

noncomputable def aoWorld (E : ℝ) : World :=
  { keepWorld with readDat := fun _ _ => .ok (aoData E), ls := lsAt (fin qTrue, fin E) }

theorem ao_load (E : ℝ) : ∃ totals ks, load (aoWorld E) "a.dat" (fin 35) adjArgs
    = .ok ({ qCv 0 with measurement := (aoPts E).map fun p => fin p.2.1 }, totals, ks) := by
  obtain ⟨totals, ks, h⟩ := q_load 0
  refine ⟨totals, ks, ?_⟩
  obtain ⟨fname, dd, h1, h2, h3, h4⟩ := load_parts h
  have hd : (aoData E) = { qData 0 with measurement := (aoPts E).map fun p => fin p.2.1 } := rfl
  obtain rfl : qData 0 = dd := Except.ok.inj h2
  have h3' : amount_units (aoData E) (fin 35) (get_kwargs_for keys_cau adjArgs none)
      = .ok { qCv 0 with measurement := (aoPts E).map fun p => fin p.2.1 } := by
    rw [hd, show get_kwargs_for keys_cau adjArgs none = get_kwargs_for keys_cau (qArgs 0) none from rfl]
    simp only [amount_units, bind_ok_iff, pure_ok, Except.ok.injEq] at h3 ⊢
    obtain ⟨t, ht, tm, htm, a, ha, e⟩ := h3
    refine ⟨t, ht, tm, htm, a, ha, ?_⟩
    rw [← e]
  unfold load
  rw [show full_name "a.dat" adjArgs = .ok "a.dat" from rfl, bind_ok,
    show (aoWorld E).readDat "a.dat" (get_kwargs_for keys_read_dat adjArgs none) = .ok (aoData E) from rfl,
    bind_ok, h3', bind_ok,
    show totals_ks (aoWorld E) { qCv 0 with measurement := (aoPts E).map fun p => fin p.2.1 }
      (get_kwargs_for keys_totals_ks adjArgs none) = .ok (totals, ks) from h4]
  rfl

theorem ao_run (E : ℝ) : AdjustRun (aoWorld E) "a.dat" (fin 35) adjArgs pContents qConstants qAcid 1 0 0.1
    (aoPts E) := by
  have h := q_run 0
  refine ⟨?_, keepWorld_totals, keepWorld_ks, (lsAt_contracts _).1, ?_, ⟨"pH_adjust", rfl, by decide⟩,
    ⟨?_, ?_, ?_⟩, .inr ⟨rfl, rfl⟩, rfl, rfl, .inr ⟨rfl, rfl⟩, by norm_num, ?_, ?_, by norm_num⟩
  · obtain ⟨totals, ks, h⟩ := ao_load E
    exact ⟨_, _, _, h, rfl, rfl, rfl, rfl⟩
  · have : Dict.keys adjArgs = "solve_mode" :: ([ "analyte_mass", "titrant_amount_unit", "emf0_init",
      "alkalinity_init" ] ++ ("dic" :: (optionalContents ++ saltContents)) ++ allConstants) := rfl
    rw [this]
    decide
  · intro k hk
    rw [show adjArgs.get? k = if k = "solve_mode" then some (.str "pH_adjust") else (qArgs 0).get? k by
      unfold adjArgs; rw [Dict.get?_cons]; simp only [eq_comm],
      if_neg ((by decide : ∀ k ∈ "dic" :: (optionalContents ++ saltContents), k ≠ "solve_mode") k hk)]
    exact h.sample.contents k hk
  · intro k hk
    rw [show adjArgs.get? k = if k = "solve_mode" then some (.str "pH_adjust") else (qArgs 0).get? k by
      unfold adjArgs; rw [Dict.get?_cons]; simp only [eq_comm],
      if_neg ((by decide : ∀ k ∈ allConstants, k ≠ "solve_mode") k hk)]
    exact h.sample.constants k hk
  · exact h.sample.scale
  · intro p hp
    simp only [aoPts, List.mem_cons, List.not_mem_nil, or_false] at hp
    rcases hp with rfl | rfl <;> norm_num
  · intro p hp
    simp only [aoPts, List.mem_cons, List.not_mem_nil, or_false] at hp
    rcases hp with rfl | rfl <;> norm_num

/-- the acidity that is read at first is in the window too -/
theorem ao_used {E : ℝ} (hE : -10 ≤ E) (hE0 : E ≤ 0) :
    pH_used (emf_to_pH_arr (((qPts E).map (·.2.1)).map fin) (fin 0)
    (((qPts E).map (·.2.2)).map fin)) (fin 3) (fin 4) = [true, true] := by
  rw [emf_to_pH_arr_fin (by
      intro t ht; obtain ⟨p, hp, rfl⟩ := List.mem_map.mp ht; exact (q_run E).temps p hp)]
  set k : ℝ := Real.exp (E / (8.3144621 * (25 + 273.15) / 96.4853365)) with hk
  have hk0 : 0 < k := Real.exp_pos _
  have hk1 : k ≤ 1 := by
    rw [hk, ← Real.exp_zero]
    exact Real.exp_le_exp.mpr (div_nonpos_of_nonpos_of_nonneg hE0 (by norm_num))
  have hk2 : 0.6 ≤ k := by
    have := Real.add_one_le_exp (E / (8.3144621 * (25 + 273.15) / 96.4853365))
    rw [← hk] at this
    have h2 : -10 / (8.3144621 * (25 + 273.15) / 96.4853365) ≤ E / (8.3144621 * (25 + 273.15) / 96.4853365) :=
      div_le_div_of_nonneg_right hE (by norm_num)
    refine le_trans ?_ (le_trans (add_le_add_left h2 1) this)
    norm_num
  have hn : ∀ h : ℝ, 0 < h → nernst E 25 h = nernst 0 25 (h * k) := by
    intro h hh
    rw [nernst, nernst, Real.log_mul hh.ne' hk0.ne', hk, Real.log_exp]
    field_simp
    ring
  simp only [pHRs, qPts, List.map_cons, List.map_nil, List.zipWith_cons_cons, List.zipWith_nil_left,
    hn 2e-4 (by norm_num), hn 9e-4 (by norm_num)]
  rw [pHR_nernst (by norm_num) (by positivity), pHR_nernst (by norm_num) (by positivity)]
  have := pH_used_fin (pH := [-Real.logb 10 (2e-4 * k), -Real.logb 10 (9e-4 * k)]) (lo := 3) (hi := 4)
  simp only [List.map_cons, List.map_nil] at this
  rw [this]
  have key : ∀ h : ℝ, 1e-4 ≤ h → h ≤ 1e-3 → inWin 3 4 (-Real.logb 10 h) = true := by
    intro h h1 h2
    have a1 : Real.logb 10 h ≤ -3 := by
      rw [Real.logb_le_iff_le_rpow (by norm_num) (by linarith), Real.rpow_neg (by norm_num)]
      norm_num; linarith
    have a2 : -4 ≤ Real.logb 10 h := by
      rw [Real.le_logb_iff_rpow_le (by norm_num) (by linarith), Real.rpow_neg (by norm_num)]
      norm_num; linarith
    simp only [inWin, Bool.and_eq_true, decide_eq_true_eq]
    constructor <;> linarith
  rw [key _ (by linarith) (by linarith), key _ (by linarith) (by linarith)]

/-- the run on it: solved twice, as is the default -/
theorem ao_solve {E : ℝ} (hE : -10 ≤ E) (hE0 : E ≤ 0) :
    ∃ sr, files_solve (aoWorld E) "a.dat" (fin qAcid) (fin 35) adjArgs
      = .ok (.emf sr ((aoPts E).map fun p => fin p.2.2)) ∧
    sr.opt_result.x = (fin qTrue, fin E) ∧ sr.used = [true, true] := by
  have hrun := (ao_run E).emf
  rw [(ao_run E).same, show (aoPts E).map (fun p => fin p.2.2) = (qPts E).map fun p => fin p.2.2 from rfl]
  rw [ao_zero] at hrun
  set w' := (aoWorld E).showing ((aoPts E).map fun p => fin (zeroEmf p).2.1)
  have hw' : w'.ls = lsAt (fin qTrue, fin E) := rfl
  obtain ⟨totals, ks, hs, hv, hk, hf, hf', hsol⟩ := hrun.reduces
  obtain ⟨gg, hg⟩ := (q_gran E) qAcid
  have hopts : emf_opts (asEmf adjArgs) = .ok (qOpts 0, true) := by with_unfolding_all rfl
  have hmis : (mask [true, true] (qPts E)).map
      (pointMisfit pContents qConstants qAcid 1 0 0.1 qTrue E) = List.replicate 2 0 := by
    have hz : ∀ p ∈ (qPts E), pointMisfit pContents qConstants qAcid 1 0 0.1 qTrue E p = 0 := by
      intro p hp
      have h3 := ((q_exact E) p hp).2.2
      have hp0 : p.1 + 0.1 ≠ 0 := by have := (q_run E).masses p hp; positivity
      rw [pointMisfit, ← h3, mul_div_assoc, div_self hp0, mul_one, sub_self]
    have : mask [true, true] (qPts E) = (qPts E) := rfl
    rw [this]
    exact List.eq_replicate_iff.mpr ⟨by simp [qPts], fun b hb => by
      obtain ⟨p, hp, rfl⟩ := List.mem_map.mp hb
      exact hz p hp⟩
  have hprob := hrun.problem (by rw [List.length_map]; exact hv) hk hsol [true, true] qTrue E
  rw [hmis] at hprob
  have hex : ∃ k, emfProblem (fin qAcid) (fin 1) (fin 0.1) (((qPts E).map (·.1)).map fin)
      (((qPts E).map (·.2.1)).map fin) (((qPts E).map (·.2.2)).map fin) totals ks [true, true]
      (fin qTrue, fin E) = .ok ((List.replicate k (0:ℝ)).map fin) := ⟨2, hprob⟩
  have hls : ∀ x0, ∃ opt, w'.ls (emfProblem (fin qAcid) (fin 1) (fin 0.1)
      (((qPts E).map (·.1)).map fin) (((qPts E).map (·.2.1)).map fin)
      (((qPts E).map (·.2.2)).map fin) totals ks [true, true]) x0 = .ok opt ∧
        opt.x = (fin qTrue, fin E) := by
    intro x0
    rw [hw']
    exact ⟨_, dif_pos hex, rfl⟩
  have hone : ∀ o : EmfOpts, o.pH_min = fin 3 → o.pH_max = fin 4 → o.titrant_normality = fin 1 →
      o.gran_logic = "v23.7+" →
      (emfStart o gg (((qPts E).map (·.2.1)).map fin) (((qPts E).map (·.2.2)).map fin)).used
        = [true, true] →
      ∃ sr, solve_emf w'.ls (fin qAcid) (((qPts E).map (·.1)).map fin)
        (((qPts E).map (·.2.1)).map fin) (((qPts E).map (·.2.2)).map fin) (fin 0.1) totals ks o false
          = .ok sr ∧ sr.opt_result.x = (fin qTrue, fin E) ∧ sr.used = [true, true] ∧
        sr.alkalinity = fin (1e6 * qTrue) ∧ sr.emf0 = fin E := by
    intro o h1 h2 h3 h4 hu
    obtain ⟨opt, hls, hx⟩ := hls ((emfStart o gg (((qPts E).map (·.2.1)).map fin)
      (((qPts E).map (·.2.2)).map fin)).alk, (emfStart o gg (((qPts E).map (·.2.1)).map fin)
      (((qPts E).map (·.2.2)).map fin)).emf0)
    refine ⟨_, solve_emf_false_iff.mpr ⟨gg, opt, by rw [h3, h4]; exact hg, ?_, hk, by simpa using hf,
      by simpa using hf', by rw [hu, h3]; exact hls, rfl⟩, hx, hu, ?_, ?_⟩
    · rw [h1, h2]; simp; norm_num
    · simp only [emfResult, hx, mul_fin, mul_comm]
    · simp only [emfResult, hx]
  obtain ⟨sr1, h1, -, -, h4, h5⟩ := hone (qOpts 0) rfl rfl rfl rfl (by
    simp only [emfStart, qOpts]; exact ao_used hE hE0)
  obtain ⟨sr, h1', h2', h3', -, -⟩ := hone (qOpts E) rfl rfl rfl rfl (by
    simp only [emfStart, qOpts, (q_used E).1, (q_used E).2])
  refine ⟨sr, ?_, h2', h3'⟩
  have htwo : solve_emf w'.ls (fin qAcid) (((qPts E).map (·.1)).map fin)
      (((qPts E).map (·.2.1)).map fin) (((qPts E).map (·.2.2)).map fin) (fin 0.1) totals ks
      (qOpts 0) true = .ok sr := by
    rw [solve_emf_true_eq, h1, bind_ok, h4, h5]
    exact h1'
  rw [hs, hopts]
  simp only [bind_ok, htwo]
  rfl

/-- the shift of the pH from 10 mV to 5 mV -/
noncomputable def aoShift : ℝ := -(5 / (8.3144621 * (25 + 273.15) / 96.4853365) / Real.log 10)

theorem ao_shift : aoPts (-5) = (aoPts (-10)).map (fun p => (p.1, p.2.1 + aoShift, p.2.2)) := by
  have hln : 0 < Real.log 10 := Real.log_pos (by norm_num)
  have e : ∀ y : ℝ, 0 < y → -Real.logb 10 (y * Real.exp (-5 / (8.3144621 * (25 + 273.15) / 96.4853365)))
      = -Real.logb 10 (y * Real.exp (-10 / (8.3144621 * (25 + 273.15) / 96.4853365))) + aoShift := by
    intro y hy
    simp only [Real.logb, Real.log_mul hy.ne' (Real.exp_pos _).ne', Real.log_exp, aoShift]
    field_simp
    ring
  simp only [aoPts, List.map_cons, List.map_nil, e 2e-4 (by norm_num), e 9e-4 (by norm_num)]

theorem ao_isothermal (E : ℝ) : ∀ p ∈ aoPts E, p.2.2 = 25 := by
  intro p hp
  simp only [aoPts, List.mem_cons, List.not_mem_nil, or_false] at hp
  rcases hp with rfl | rfl <;> rfl

theorem ao_corrected (E m h : ℝ) (hh : 0 < h) : correctedAcidity E (m, -Real.logb 10 (h * Real.exp (E /
    (8.3144621 * (25 + 273.15) / 96.4853365))), 25) = h := by
  simp only [correctedAcidity, neg_neg]
  rw [Real.rpow_logb (by norm_num) (by norm_num) (by positivity), mul_assoc, ← Real.exp_add,
    add_neg_cancel, Real.exp_zero, mul_one]

/-- C148 for the two files -/
example : ∃ (sr sr' : SolveEmf) (T T' : List Flt), aoShift < 0 ∧
    files_solve (aoWorld (-10)) "a.dat" (fin qAcid) (fin 35) adjArgs = .ok (.emf sr T) ∧
    files_solve (aoWorld (-5)) "a.dat" (fin qAcid) (fin 35) adjArgs = .ok (.emf sr' T') ∧
    sr'.emf0 = fin (-5) ∧ sr'.alkalinity = sr.alkalinity := by
  obtain ⟨sr, h, hx, hu⟩ := ao_solve (E := -10) le_rfl (by norm_num)
  obtain ⟨sr', h', hx', hu'⟩ := ao_solve (E := -5) (by norm_num) (by norm_num)
  have hln : 0 < Real.log 10 := Real.log_pos (by norm_num)
  have hrun' := ao_run (-5)
  rw [ao_shift] at hrun'
  obtain ⟨b1, b2, b3, -, -⟩ := C148_adjust _ _ _ _ _ _ _ _ _ _ _ _ _ _ 25 aoShift _ (ao_isothermal _) (ao_run (-10))
    hrun' (lsAt_contracts _).2 (lsAt_contracts _).2 sr sr' _ _ h h' (hu'.trans hu.symm) (by rw [hu]; simp) _ _ _ _ hx hx'
  refine ⟨sr, sr', _, _, ?_, h, h', b3, by rw [b1, b2]⟩
  have : 0 < 5 / (8.3144621 * (25 + 273.15) / 96.4853365) / Real.log 10 := by positivity
  simp only [aoShift]
  linarith

/-- and the true alkalinity with the shifted error for the second of them -/
example : ∃ (sr' : SolveEmf) (T' : List Flt),
    files_solve (aoWorld (-5)) "a.dat" (fin qAcid) (fin 35) adjArgs = .ok (.emf sr' T') ∧
    sr'.alkalinity = fin (1e6 * qTrue) ∧ sr'.emf0 = fin (-10 - errorEmf 25 aoShift) := by
  obtain ⟨sr', h', hx', hu'⟩ := ao_solve (E := -5) (by norm_num) (by norm_num)
  have hrun' := ao_run (-5)
  rw [ao_shift] at hrun'
  have hs := ao_shift
  simp only [aoPts, List.map_cons, List.map_nil, List.cons.injEq, Prod.mk.injEq, true_and, and_true] at hs
  refine ⟨sr', _, h', C148_adjust_exact _ _ _ _ _ _ _ _ _ _ 25 aoShift _ (ao_isothermal (-10)) hrun'
    (lsAt_contracts _).2 sr' _ h' qTrue (-10) _ _ hx' ?_ 0 1 _ _ rfl rfl (by rw [hu']; rfl) (by rw [hu']; rfl)
    2e-4 (by norm_num) ?_ ?_ ?_⟩
  · intro p hp
    have hz : zeroEmf p ∈ qPts (-10) := by rw [← ao_zero]; exact List.mem_map.mpr ⟨p, hp, rfl⟩
    have := (q_exact (-10) _ hz).2.2
    rw [read_zeroEmf _ _ ((ao_run (-10)).temps p hp)] at this
    exact this
  · rw [ao_corrected _ _ _ (by norm_num)]
  · simp only [← hs.1]
    rw [ao_corrected _ _ _ (by norm_num)]
  · rw [ao_corrected _ _ _ (by norm_num), ao_corrected _ _ _ (by norm_num)]
    norm_num [Sol.buffering, mono, mixture, mixContent, pContents, qConstants]

end Calk
