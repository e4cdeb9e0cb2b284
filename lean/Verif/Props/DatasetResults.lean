import Verif.Props.DatasetRows
import Verif.Props.Files
import Verif.Props.EmfFit
import Verif.Props.TitrationExample

/-!
# Properties C82, C84: what the result columns of a data set hold
-/

namespace Calk
open Flt Spec

/-- the first element, NaN if there is none -/
noncomputable def firstOr (xs : List Flt) : Flt := xs.headD nan

/-- The result columns of a row `r` report what `files.solve` returned for its file. The
spread is that of the point estimates in use. A column about something that the solver does not
compute is NaN. -/
def Reports (r : Row) : SolveRes → Prop
  | .emf sr T =>
    r "alkalinity" = .num sr.alkalinity ∧ r "emf0" = .num sr.emf0 ∧
    r "alkalinity_npts" = .num (fin (sr.used.count true : ℕ)) ∧
    r "alkalinity_std" = .num (npStd (mask sr.used sr.alkalinity_all)) ∧
    r "gran_alkalinity" = .num (sr.ggr.ga.alkalinity * fin 1e6) ∧
    r "gran_emf0" = .num sr.ggr.emf0 ∧
    r "pH_init" = .num (firstOr sr.pH) ∧
    r "temperature_init" = .num (if sr.pH = [] then nan else firstOr T)
  | .pH sr ph T =>
    r "alkalinity" = .num sr.alkalinity ∧ r "emf0" = .num nan ∧
    r "alkalinity_npts" = .num (fin (sr.used.count true : ℕ)) ∧
    r "alkalinity_std" = .num (npStd (mask sr.used sr.alkalinity_all)) ∧
    r "gran_alkalinity" = .num nan ∧ r "gran_emf0" = .num nan ∧
    r "pH_init" = .num (firstOr ph) ∧
    r "temperature_init" = .num (if ph = [] then nan else firstOr T)
  | .pH_gran sr ph T =>
    r "alkalinity" = .num sr.alkalinity ∧ r "emf0" = .num nan ∧
    r "alkalinity_npts" = .num (fin (sr.used.count true : ℕ)) ∧
    r "alkalinity_std" = .num nan ∧
    r "gran_alkalinity" = .num nan ∧ r "gran_emf0" = .num nan ∧
    r "pH_init" = .num (firstOr ph) ∧
    r "temperature_init" = .num (if ph = [] then nan else firstOr T)

/-- the results proper: all result columns except `analyte_mass`, which is an input -/
def foundCols : List String :=
  ["alkalinity_npts", "alkalinity_std", "alkalinity", "emf0", "gran_alkalinity",
    "gran_emf0", "pH_init", "temperature_init"]

theorem countUsed_eq (u : List Bool) : countUsed u = fin (u.count true : ℕ) := by
  unfold countUsed
  congr 2
  rw [List.count_eq_length_filter]
  congr 2
  funext b; cases b <;> rfl

theorem add_solve_results_reports (sr : SolveRes) (r : Row) :
    Reports (add_solve_results sr (blankSolved r)).2 sr := by
  cases sr with
  | emf sr T =>
    unfold Reports
    rcases h : sr.pH with _ | ⟨p, ps⟩ <;> rcases T with _ | ⟨t, ts⟩ <;>
    simp [add_solve_results, putNum, putFirst, h, PyS.bind_apply, PyS.modify, PyS.raise, Row.put, firstOr,
      blankSolved, countUsed_eq]
  | pH sr ph T =>
    unfold Reports
    rcases ph with _ | ⟨p, ps⟩ <;> rcases T with _ | ⟨t, ts⟩ <;>
    simp [add_solve_results, putNum, putFirst, PyS.bind_apply, PyS.modify, PyS.raise, Row.put, firstOr,
      blankSolved, countUsed_eq]
  | pH_gran sr ph T =>
    unfold Reports
    rcases ph with _ | ⟨p, ps⟩ <;> rcases T with _ | ⟨t, ts⟩ <;>
    simp [add_solve_results, putNum, putFirst, PyS.bind_apply, PyS.modify, PyS.raise, Row.put, firstOr,
      blankSolved, countUsed_eq]

theorem Reports.congr {r r' : Row} (h : ∀ c ∈ foundCols, r' c = r c) {sr : SolveRes}
    (hr : Reports r sr) : Reports r' sr := by
  unfold foundCols at h
  cases sr <;> unfold Reports at hr ⊢ <;>
  rwa [h "alkalinity" (by decide), h "emf0" (by decide), h "alkalinity_npts" (by decide),
    h "alkalinity_std" (by decide), h "gran_alkalinity" (by decide), h "gran_emf0" (by decide),
    h "pH_init" (by decide), h "temperature_init" (by decide)]

/-- a solved row holds what `solve_row` finds for it -/
theorem solved_self {w : World} {kw : Dict Val} {df df' : DF}
    (h : dataset_solve w kw df = (.ok (), df')) {r' : Row} (hr' : r' ∈ df'.rows) :
    ∃ s, solve_row w kw df'.cols r' = .ok s ∧ ∀ c ∈ foundCols, r' c = s c := by
  obtain ⟨-, -, -, -, hc, h6⟩ := dataset_solve_ok_iff.mp h
  obtain ⟨r, hr⟩ : ∃ r, solvedRow w kw df.cols r = .ok r' := by
    clear h hc
    generalize df.rows = l at h6
    generalize df'.rows = l' at h6 hr'
    induction h6 with
    | nil => cases hr'
    | cons h0 _ ih =>
      rcases List.mem_cons.mp hr' with rfl | h
      · exact ⟨_, h0⟩
      · exact ih h
  have ha := solvedRow_again hr
  rw [solvedRow, bind_ok_iff] at ha
  obtain ⟨m, hm, ho⟩ := ha
  obtain ⟨s, hs, rfl⟩ := mergedRow_inv hm
  rw [prepRow_solved hr, prepCols_done, ← hc] at hs
  refine ⟨s, hs, fun c hcr => ?_⟩
  rw [offsetRow_keeps ho c (by revert c; decide)]
  unfold mergeSolved
  rw [if_pos (by revert c; decide)]

theorem results_of_call {w : World} {kw : Dict Val} {df df' : DF}
    (h : dataset_solve w kw df = (.ok (), df')) {r' : Row} (hr' : r' ∈ df'.rows)
    (hg : Spec.Counts (r' "file_good")) {kwb : Dict Val}
    (hb : backcompat kw (rowDict df'.cols r') = .ok kwb) {f : String} {c S : Flt}
    (hf : "file_name" ∈ df'.cols) (hfn : r' "file_name" = .str f)
    (hc : r' "titrant_molinity" = .num c) (hcn : c ≠ nan) (hS : r' "salinity" = .num S) :
    (∀ sr, files_solve w f c S (get_kwargs_for keys_solve kwb (some (rowDict df'.cols r'))) = .ok sr →
      Reports r' sr) ∧
    (∀ e, files_solve w f c S (get_kwargs_for keys_solve kwb (some (rowDict df'.cols r'))) = .error e →
      Blank r') := by
  obtain ⟨s, hs, hrs⟩ := solved_self h hr'
  have hnull : (r' "titrant_molinity").isNull = false := by
    rw [hc]; cases c <;> first | rfl | exact absurd rfl hcn
  have hcall : solve_call w kw df'.cols r' = files_solve w f c S
      (get_kwargs_for keys_solve kwb (some (rowDict df'.cols r'))) := by
    have hf' : df'.cols.contains "file_name" = true := List.contains_iff_mem.mpr hf
    simp only [solve_call, hb, bind_ok, rowAttr, hf', if_true, hfn, Val.toStr, hc, Val.toFlt, hS]
  constructor
  · intro sr hsr
    have hs' : s = (add_solve_results sr (blankSolved r')).2 := by
      unfold solve_row at hs
      rw [if_pos (by rw [hnull, truthy_iff.mpr hg]; rfl)] at hs
      have : solve_attempt w kw df'.cols r' (blankSolved r')
          = add_solve_results sr (blankSolved r') := by
        unfold solve_attempt
        rw [PyS.lift_bind, hcall, hsr]
      rw [this] at hs
      rcases hx : add_solve_results sr (blankSolved r') with ⟨_ | _, s'⟩
      · rw [hx] at hs
        simp only [caught] at hs
        split at hs
        · exact (Except.ok.inj hs).symm
        · cases hs
      · rw [hx] at hs
        exact (Except.ok.inj hs).symm
    exact (add_solve_results_reports sr r').congr fun c hc => by rw [← hs', hrs c hc]
  · intro e he
    have hs' := solve_row_blank hs ⟨e, hcall.trans he⟩
    have hb : Blank (mergeSolved r' s) := blank_of_merge hs'
    have hm : ∀ c ∈ foundCols, r' c = mergeSolved r' s c := by
      intro c hc
      rw [hrs c hc]
      unfold mergeSolved
      rw [if_pos (by revert c; decide)]
    refine ⟨by rw [hm _ (by decide)]; exact hb.1, fun c hc => ?_⟩
    rw [hm c (by revert c; decide)]
    exact hb.2 c hc

/-- C82: in a solved data set, a row that is not skipped reports what `files.solve` gives for its
file, titrant molinity and salinity with the row's settings: each keyword argument comes from the
row unless the cell is null or absent, else from the call. If that raises, the results are blank. -/
theorem C82_results (w : World) (kw : Dict Val) (df df' : DF)
    (h : dataset_solve w kw df = (.ok (), df')) (r' : Row) (hr' : r' ∈ df'.rows)
    (hg : Spec.Counts (r' "file_good")) (kwb : Dict Val)
    (hb : backcompat kw (rowDict df'.cols r') = .ok kwb) (f : String) (c S : Flt)
    (hf : "file_name" ∈ df'.cols) (hfn : r' "file_name" = .str f)
    (hc : r' "titrant_molinity" = .num c) (hcn : c ≠ nan) (hS : r' "salinity" = .num S) :
    ∃ st : Dict Val,
      (∀ k, st.get? k = if k ∈ keys_solve then
          (if k ∈ df'.cols ∧ ¬ Spec.Null (r' k) then some (r' k) else kwb.get? k) else none) ∧
      (∀ sr, files_solve w f c S st = .ok sr → Reports r' sr) ∧
      (∀ e, files_solve w f c S st = .error e → Blank r') := by
  refine ⟨get_kwargs_for keys_solve kwb (some (rowDict df'.cols r')), ?_,
    results_of_call h hr' hg hb hf hfn hc hcn hS⟩
  intro k
  rw [C31_value]
  by_cases hk : k ∈ keys_solve
  · rw [if_pos hk, if_pos hk]
    unfold chosen
    rw [rowDict_get?]
    by_cases hkc : k ∈ df'.cols
    · simp only [hkc, if_true, true_and]
      cases hn : (r' k).isNull <;> simp [← isNull_iff, hn]
    · simp [hkc]
  · rw [if_neg hk, if_neg hk]

/-- C84: the `alkalinity_std` column of a row is the population standard deviation of the point
estimates in use, in the EMF mode as in the pH mode. -/
theorem C84_column (r : Row) (est : List ℝ) (used : List Bool) (hu : used.length = est.length)
    (hne : true ∈ used) :
    (∀ sr T, sr.used = used → sr.alkalinity_all = est.map fin → Reports r (.emf sr T) →
      r "alkalinity_std" = .num (fin (Spec.sd (mask used est)))) ∧
    (∀ sr ph T, sr.used = used → sr.alkalinity_all = est.map fin → Reports r (.pH sr ph T) →
      r "alkalinity_std" = .num (fin (Spec.sd (mask used est)))) := by
  have e : npStd (mask used (est.map fin)) = fin (Spec.sd (mask used est)) := by
    rw [mask_map, npStd_map_fin _ (mask_ne_nil hu hne)]
    rfl
  constructor
  · intro sr T h1 h2 h
    rw [h.2.2.2.1, h1, h2, e]
  · intro sr ph T h1 h2 h
    rw [h.2.2.2.1, h1, h2, e]


/-! ## A concrete case -/

/-- a data set row with everything that `prepare` would fill in -/
def dCols : List String :=
  ["file_name", "file_path", "salinity", "titrant_molinity", "analyte_mass", "titrant_amount_unit",
    "solve_mode", "opt_total_borate", "total_sulfate", "total_borate", "total_fluoride", "file_good",
    "pH_min"]

noncomputable def dRow : Row := fun k =>
  if k = "file_name" then .str "a.dat" else if k = "file_path" then .str "data"
  else if k = "salinity" then .num (fin 35) else if k = "titrant_molinity" then .num (fin 0.1)
  else if k = "analyte_mass" then .num (fin 1)
  else if k = "titrant_amount_unit" then .str "kg" else if k = "solve_mode" then .str "pH"
  else if k = "opt_total_borate" then .num (fin 1) else if k = "total_sulfate" then .num (fin 28000)
  else if k = "total_borate" then .num (fin 400) else if k = "total_fluoride" then .num (fin 70)
  else if k = "file_good" then .bool true
  else if k = "pH_min" then .num nan
  else .none

/-- the settings: `pH_min` is null in the row, so it comes from the call; the normality too -/
noncomputable def dKw (n : Option ℝ) : Dict Val :=
  ("pH_min", .num (fin 3.2)) :: (n.elim [] fun n => [("titrant_normality", .num (fin n))])

noncomputable def dSt (n : Option ℝ) : Dict Val := get_kwargs_for keys_solve (dKw n) (some (rowDict dCols dRow))

theorem d_load (n : Option ℝ) : load tW "a.dat" (fin 35) (dSt n) = .ok (tCv (fin 1), tTotals (fin 1), tKs) := by
  have h1 : get_kwargs_for keys_cau (dSt n) none =
      [("analyte_mass", .num (fin 1)), ("titrant_amount_unit", .str "kg")] := by
    cases n <;> with_unfolding_all rfl
  have h2 : get_kwargs_for keys_totals_ks (dSt n) none =
      [("opt_total_borate", .num (fin 1)), ("total_borate", .num (fin 400)),
        ("total_fluoride", .num (fin 70)), ("total_sulfate", .num (fin 28000))] := by
    cases n <;> with_unfolding_all rfl
  have h3 : full_name "a.dat" (dSt n) = .ok "data/a.dat" := by cases n <;> with_unfolding_all rfl
  have hl : lowerS "kg" = "kg" := by decide
  have hc : amount_units tDat (fin 35)
      [("analyte_mass", .num (fin 1)), ("titrant_amount_unit", .str "kg")] = .ok (tCv (fin 1)) := by
    simp [amount_units, tDat, override_temperature, get_analyte_mass, tCv, argOpt, argNotNull, argVal,
      titrant_masses, Dict.get?, Val.lower, hl, pyAssert, Val.isNull, Val.toFlt, bind_ok, pure_ok]
  have ht : get_totals tW (fin 35)
      [("opt_total_borate", .num (fin 1)), ("total_borate", .num (fin 400)),
        ("total_fluoride", .num (fin 70)), ("total_sulfate", .num (fin 28000))]
      = .ok ([("dic", .scalar (fin 0)), ("total_borate", .scalar (fin 4)),
      ("total_fluoride", .scalar (fin 2)), ("total_sulfate", .scalar (fin 6))],
      [("TB", .scalar (fin 4)), ("TF", .scalar (fin 2)), ("TSO4", .scalar (fin 6))]) := by
    simp [get_totals, argNum, argNotNull, copyIfPos, setIfPos, tW, Dict.get, Dict.get?, Dict.set,
      Val.isNull, Val.toFlt, bind_ok, pure_ok]
  have hd : dilute_totals [("dic", .scalar (fin 0)), ("total_borate", .scalar (fin 4)),
      ("total_fluoride", .scalar (fin 2)), ("total_sulfate", .scalar (fin 6))] [fin 0, fin 1] (fin 1)
      = .ok (tTotals (fin 1)) := by
    simp [dilute_totals, Dict.mapValsM, NpVal.zipW, NpVal.fits, NpVal.bcast, dilution_factors, tTotals,
      tDil, bind_ok, pure_ok, List.range_succ, NpVal.at_]
  have hk : get_k_constants tW [("TB", .scalar (fin 4)), ("TF", .scalar (fin 2)),
      ("TSO4", .scalar (fin 6))] [fin 25, fin 25]
      [("opt_total_borate", .num (fin 1))] = .ok tKs := by
    simp [get_k_constants, ks_for_pyco2, argNotNull, argVal, setIf, tW, calk_to_pyco2_ks, Val.eqNum,
      feq, Dict.get?, bind_ok, pure_ok, tKs]
  have f1 : ([("opt_total_borate", Val.num (fin 1)), ("total_borate", .num (fin 400)),
        ("total_fluoride", .num (fin 70)), ("total_sulfate", .num (fin 28000))] : Dict Val).filter
        (fun k => keys_get_totals.contains k.1)
      = [("opt_total_borate", .num (fin 1)), ("total_borate", .num (fin 400)),
        ("total_fluoride", .num (fin 70)), ("total_sulfate", .num (fin 28000))] := by
    with_unfolding_all rfl
  have f2 : ([("opt_total_borate", Val.num (fin 1)), ("total_borate", .num (fin 400)),
        ("total_fluoride", .num (fin 70)), ("total_sulfate", .num (fin 28000))] : Dict Val).filter
        (fun k => keys_get_k_constants.contains k.1) = [("opt_total_borate", .num (fin 1))] := by
    with_unfolding_all rfl
  unfold load
  rw [h3, h1, h2]
  simp only [bind_ok]
  rw [show tW.readDat "data/a.dat" (get_kwargs_for keys_read_dat (dSt n) none) = .ok tDat from rfl]
  simp only [bind_ok, hc]
  unfold totals_ks
  have hf : totals_for_ks (tCv (fin 1)) [("TB", .scalar (fin 4)), ("TF", .scalar (fin 2)),
      ("TSO4", .scalar (fin 6))] [("opt_total_borate", .num (fin 1)), ("total_borate", .num (fin 400)),
        ("total_fluoride", .num (fin 70)), ("total_sulfate", .num (fin 28000))]
      = .ok [("TB", .scalar (fin 4)), ("TF", .scalar (fin 2)), ("TSO4", .scalar (fin 6))] := rfl
  unfold tCv at hf
  simp only [f1, f2, tCv, ht, bind_ok, hd, hf, hk]
  rfl

set_option maxHeartbeats 800000 in
theorem d_solve (n : Option ℝ) : files_solve tW "a.dat" (fin 0.1) (fin 35) (dSt n)
    = .ok (.pH (phRes (fin 0.1) [fin 0, fin 1] [fin 8, fin 3.5] (fin 1) (tTotals (fin 1)) tKs
    { pH_min := fin 3.2, pH_max := fin 4, titrant_normality := fin (n.getD 1) }) [fin 8, fin 3.5]
      [fin 25, fin 25]) := by
  have h1 : titrant_totals (dSt n) = .ok [] := by cases n <;> with_unfolding_all rfl
  have h2 : solve_mode (dSt n) = .ok "ph" := by cases n <;> with_unfolding_all rfl
  have h3 : ph_opts (get_kwargs_for keys_solve_pH (dSt n) none)
      = .ok { pH_min := fin 3.2, pH_max := fin 4, titrant_normality := fin (n.getD 1) } := by
    have : get_kwargs_for keys_solve_pH (dSt n) none = dKw n := by
      cases n <;> with_unfolding_all rfl
    rw [this]
    cases n <;> simp [dKw, ph_opts, argNum, Dict.get?, Val.toFlt, bind_ok, pure_ok]
  have h4 : solve_dispatch tW "ph" (tCv (fin 1)) (fin 0.1) (tTotals (fin 1)) tKs (dSt n)
      = .ok (.pH (phRes (fin 0.1) [fin 0, fin 1] [fin 8, fin 3.5] (fin 1) (tTotals (fin 1)) tKs
        { pH_min := fin 3.2, pH_max := fin 4, titrant_normality := fin (n.getD 1) }) [fin 8, fin 3.5]
        [fin 25, fin 25]) := by
    unfold solve_dispatch
    rw [if_neg (by decide), if_neg (by decide), if_pos rfl, h3]
    simp only [bind_ok]
    unfold tCv
    simp only
    have h := solve_pH_eq (c := fin 0.1) (tm := [fin 0, fin 1]) (pH := [fin 8, fin 3.5]) (M := fin 1)
      (totals := tTotals (fin 1)) (ks := tKs)
      (o := { pH_min := fin 3.2, pH_max := fin 4, titrant_normality := fin (n.getD 1) })
      (by simp [Flt.lt]; norm_num) (t_hasKs (fin 1)) (by with_unfolding_all rfl)
      (by with_unfolding_all rfl) rfl
    simp only [h, bind_ok]
    rfl
  rw [files_solve_all_sr]
  unfold files_solve_all
  have h5 : add_titrant_totals (tCv (fin 1)).titrant_mass (tCv (fin 1)).analyte_mass (fin 0.1) (fin 0)
      [] (tTotals (fin 1)) = (.ok (), tTotals (fin 1)) := rfl
  simp only [d_load n, bind_ok, h1, h2, h5, h4]
  with_unfolding_all rfl

/-- The data set of this one row is solved: the row reports the alkalinity and spread of the one
point in the window [3.2, 4]. -/
theorem d_solved (n : Option ℝ) : ∃ r', dataset_solve tW (dKw n) ⟨dCols, [dRow]⟩ = (.ok (), ⟨doneCols dCols, [r']⟩) ∧
    r' "alkalinity" = .num (phRes (fin 0.1) [fin 0, fin 1] [fin 8, fin 3.5] (fin 1)
      (tTotals (fin 1)) tKs { pH_min := fin 3.2, pH_max := fin 4, titrant_normality := fin (n.getD 1) }).alkalinity ∧
    r' "pH_init" = .num (fin 8) ∧ r' "emf0" = .num nan ∧
    (∀ c, c ∉ solvedCols ∨ c = "analyte_mass" → c ≠ "alkalinity_offset" → r' c = dRow c) := by
  obtain ⟨df', h⟩ := C41_finishes tW (dKw n) ⟨dCols, [dRow]⟩ ⟨[], by cases n <;> with_unfolding_all rfl⟩ (by simp [dCols])
    (by simp [dCols]) (by simp [dCols]) (by simp [dCols]) (by simp [dCols])
  obtain ⟨-, -, -, -, hcols, h6⟩ := dataset_solve_ok_iff.mp h
  obtain ⟨cols, rows⟩ := df'
  simp only at hcols h6
  subst hcols
  cases h6 with | cons hr ht =>
  cases ht
  rename_i r'
  have hprep : ∀ c, prepRow tW dCols dRow c = dRow c := by
    intro c
    by_cases hc : c ∈ prepFills
    · simp only [prepFills, List.mem_cons, List.not_mem_nil, or_false] at hc
      rcases hc with rfl | rfl | rfl | rfl | rfl | rfl | rfl <;> with_unfolding_all rfl
    · exact prepRow_other hc
  have hk : ∀ c, c ∉ solvedCols ∨ c = "analyte_mass" → c ≠ "alkalinity_offset" → r' c = dRow c := by
    intro c h1 h2
    rw [solvedRow_keeps hr c h1 h2, hprep]
  have hst : get_kwargs_for keys_solve (dKw n) (some (rowDict (doneCols dCols) r')) = (dSt n) := by
    apply get_kwargs_row_congr
    intro k hkk
    have h1 : k ∉ solvedCols ∨ k = "analyte_mass" :=
      (by decide : ∀ k ∈ keys_solve, k ∉ solvedCols ∨ k = "analyte_mass") k hkk
    have h2 : k ≠ "alkalinity_offset" := by rintro rfl; revert hkk; decide
    rw [rowDict_get?, rowDict_get?, hk k h1 h2]
    have : k ∈ doneCols dCols ↔ k ∈ dCols :=
      (by decide +kernel : ∀ k ∈ keys_solve, (k ∈ doneCols dCols ↔ k ∈ dCols)) k hkk
    simp only [this]
  obtain ⟨h1, -⟩ := results_of_call h (r' := r') (by simp) (by rw [hk _ (by decide) (by decide)]; exact truthy_iff.mp rfl)
    (kwb := (dKw n)) (by
      have : (rowDict (doneCols dCols) r').get? "read_dat_method" = none := by
        rw [rowDict_get?, if_neg (by decide +kernel)]
      simp only [backcompat, this]
      cases n <;> rfl)
    (f := "a.dat") (c := fin 0.1) (S := fin 35) (by show "file_name" ∈ doneCols dCols; decide +kernel)
    (by rw [hk _ (by decide) (by decide)]; rfl) (by rw [hk _ (by decide) (by decide)]; rfl) (by simp)
    (by rw [hk _ (by decide) (by decide)]; rfl)
  rw [hst] at h1
  obtain ⟨ha, he, -, -, -, -, hp, -⟩ := h1 _ (d_solve n)
  exact ⟨r', h, ha, hp, he, hk⟩

end Calk
