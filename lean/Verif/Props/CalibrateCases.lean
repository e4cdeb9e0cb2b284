import Verif.Props.Calibrate

/-! # Calibration always finishes; concrete calibrations for C43, C44, C46, C50 -/

namespace Calk
open Flt

theorem c41_calibrate_finishes (w : World) (kw : Dict Val) (df : DF)
    (hk : ∃ l, dataset_ignored kw = .ok l) (hS : "salinity" ∈ df.cols)
    (hm : "analyte_mass" ∈ df.cols ∨ "analyte_volume" ∈ df.cols)
    (hcc : "alkalinity_certified" ∈ df.cols) (hf : "file_name" ∈ df.cols)
    (hc : ∀ r ∈ df.rows, NumOrNull (r "alkalinity_certified"))
    (hb : "analysis_batch" ∈ df.cols → ∀ r ∈ df.rows, (r "analysis_batch").isNull = false)
    (hflag : "reference_good" ∈ df.cols → ∀ r ∈ df.rows,
      r "reference_good" = .bool true ∨ r "reference_good" = .bool false ∨
      (r "reference_good").isNull = true) :
    ∃ df', dataset_calibrate w kw df = (.ok (), df') := by
  have hhere : ∀ r, ∃ r', hereRow w kw df.cols r = .ok r' := by
    intro r
    unfold hereRow
    rcases calibrate_row_outcome w kw (prepCols df.cols) (prepRow w df.cols r) with ⟨x, hx⟩ | ⟨h, hx⟩
    · exact ⟨_, by rw [hx, bind_ok]; rfl⟩
    · exact absurd (mem_prepCols.mpr (.inl hf)) h
  choose f hf' using hhere
  have hmap : List.Forall₂ (fun r r' => hereRow w kw df.cols r = .ok r') df.rows (df.rows.map f) := by
    rw [List.forall₂_map_right_iff, List.forall₂_same]
    exact fun r _ => hf' r
  have hkeep : ∀ r c, c ≠ "titrant_molinity_here" → c ∉ prepFills → f r c = r c := by
    intro r c h1 h2
    obtain ⟨x, _, hx⟩ := hereRow_inv (hf' r)
    rw [hx, put_ne _ _ h1, prepRow_other h2]
  obtain ⟨g, hg, hg1, hg2, hg3, hg4, hg5⟩ := withDefaults_rows ⟨hereCols df.cols, df.rows.map f⟩
  have hcol : ∀ c, c ∈ df.cols → c ∈ (withDefaults ⟨hereCols df.cols, df.rows.map f⟩).cols :=
    fun c hc => mem_withDefaults.mpr (.inl (mem_addCol.mpr (.inl (mem_prepCols.mpr (.inl hc)))))
  have hin : ∀ c, c ∉ ["opt_total_borate", "total_sulfate", "total_borate", "total_fluoride",
      "analyte_mass", "file_good", "titrant_molinity_here"] → (c ∈ hereCols df.cols ↔ c ∈ df.cols) := by
    intro c hc
    simp only [List.mem_cons, List.not_mem_nil, or_false, not_or] at hc
    unfold hereCols
    rw [mem_addCol, or_iff_left hc.2.2.2.2.2.2, mem_prepCols, or_iff_left]
    simp only [salts, List.mem_cons, List.not_mem_nil, or_false, not_or]
    exact ⟨hc.1, ⟨hc.2.1, hc.2.2.1, hc.2.2.2.1⟩, hc.2.2.2.2.1, hc.2.2.2.2.2.1⟩
  have hsol : ∃ df', dataset_solve w kw
      (withMolinity (withDefaults ⟨hereCols df.cols, df.rows.map f⟩)) = (.ok (), df') := by
    refine C41_finishes w kw _ hk (mem_addCol.mpr (.inl (hcol _ hS))) ?_
      (mem_addCol.mpr (.inr rfl)) (mem_addCol.mpr (.inl (hcol _ hf))) ?_
    · rcases hm with h | h
      · exact .inl (mem_addCol.mpr (.inl (hcol _ h)))
      · exact .inr (mem_addCol.mpr (.inl (hcol _ h)))
    · intro _ r hr
      obtain ⟨r1, hr1, rfl⟩ := List.mem_map.mp hr
      rw [hg, List.map_map] at hr1
      obtain ⟨r0, hr0, rfl⟩ := List.mem_map.mp hr1
      rw [put_ne _ _ (by decide)]
      show NumOrNull (g (f r0) _)
      rw [hg1 _ _ (by decide) (by decide), hkeep _ _ (by decide) (by decide)]
      exact hc r0 hr0
  obtain ⟨df', hdf'⟩ := hsol
  refine ⟨df', dataset_calibrate_ok_iff.mpr ⟨hS, hm, hcc, _, hmap, ?_, hdf'⟩⟩
  intro r hr
  rw [hg, List.map_map] at hr
  obtain ⟨r0, hr0, rfl⟩ := List.mem_map.mp hr
  show (g (f r0) _).isNull = _ ∧ (refFlag (g (f r0) _)).isSome = _
  constructor
  · by_cases h : "analysis_batch" ∈ df.cols
    · rw [hg2 _ ((hin _ (by decide)).mpr h), hkeep _ _ (by decide) (by decide)]
      exact hb h r0 hr0
    · rw [hg4 _ (fun h' => h ((hin _ (by decide)).mp h'))]; rfl
  · by_cases h : "reference_good" ∈ df.cols
    · rw [hg3 _ ((hin _ (by decide)).mpr h), hkeep _ _ (by decide) (by decide)]
      rcases hflag h r0 hr0 with h | h | h
      · rw [h]; rfl
      · rw [h]; rfl
      · unfold refFlag
        split
        · rfl
        · rw [if_pos h]; rfl
    · rw [hg5 _ (fun h' => h ((hin _ (by decide)).mp h'))]; rfl

/-- **C41** for `calibrate`: it finishes, whatever happens with the individual files. -/
theorem C41_calibrate_finishes (w : World) (kw : Dict Val) (df : DF)
    (hk : ∃ l, dataset_ignored kw = .ok l) (hS : "salinity" ∈ df.cols)
    (hm : "analyte_mass" ∈ df.cols ∨ "analyte_volume" ∈ df.cols)
    (hcc : "alkalinity_certified" ∈ df.cols) (hf : "file_name" ∈ df.cols)
    (hc : ∀ r ∈ df.rows, NumOrNull (r "alkalinity_certified"))
    (hb : "analysis_batch" ∈ df.cols → ∀ r ∈ df.rows, ¬ Spec.Null (r "analysis_batch"))
    (hflag : "reference_good" ∈ df.cols → ∀ r ∈ df.rows,
      r "reference_good" = .bool true ∨ r "reference_good" = .bool false ∨
      Spec.Null (r "reference_good")) :
    ∃ df', dataset_calibrate w kw df = (.ok (), df') := by
  simp only [← isNull_iff, Bool.not_eq_true] at *
  exact c41_calibrate_finishes w kw df hk hS hm hcc hf hc hb hflag

/-! ## One Gran titration, calibrated in a dataset -/

/-- one file: three points of which two are in the pH window; the optimiser tries its start value -/
noncomputable def gWorld : World where
  readDat _ _ := .ok { titrant_amount := [fin 0, fin 0.001, fin 0.002],
                       measurement := [fin 8, fin 4, fin 3],
                       temperature := [fin 25, fin 25, fin 25] }
  saltsAssemble := exWorld.saltsAssemble
  equilibriaAssemble := exWorld.equilibriaAssemble
  sysSalts S _ _ := match S with
    | .num x => x * fin 0.001
    | _ => nan
  ls := exWorld.ls
  opt := lsqOnce

/-- its alkalinity for a molinity of 0.1 -/
noncomputable def gAlk : ℝ := 1000000 * ((8.18e-5 / 0.0919) * 0.1 * 1 / 0.1)

/-- a reference of that alkalinity -/
noncomputable def gRow (good : Bool) : Row := fun c =>
  if c = "file_name" then .str "a.dat" else if c = "salinity" then .num (fin 35)
  else if c = "analyte_mass" then .num (fin 0.1)
  else if c = "alkalinity_certified" then .num (fin gAlk)
  else if c = "titrant_amount_unit" then .str "kg"
  else if c = "file_good" then .bool good else .str "pH_gran"

def gCols : List String :=
  ["file_name", "salinity", "analyte_mass", "alkalinity_certified", "titrant_amount_unit",
    "file_good", "solve_mode"]

noncomputable def gFrame (good : Bool) : DF := ⟨gCols, [gRow good]⟩

noncomputable def gKw : Dict Val :=
  [ ("analyte_mass", .num (fin 0.1)), ("titrant_amount_unit", .str "kg"),
    ("opt_total_borate", .num (fin 1)), ("total_borate", .num (fin 35 * fin 0.001)),
    ("total_fluoride", .num (fin 35 * fin 0.001)), ("total_sulfate", .num (fin 35 * fin 0.001)),
    ("solve_mode", .str "pH_gran") ]

theorem gKw_eq (good : Bool) : get_kwargs_for keys_calibrate []
    (some (rowDict (prepCols gCols) (prepRow gWorld gCols (gRow good)))) = gKw := by
  with_unfolding_all rfl

noncomputable def gCv : Converted where
  titrant_mass := [0, 0.001, 0.002].map fin
  measurement := [fin 8, fin 4, fin 3]
  temperature := [fin 25, fin 25, fin 25]
  analyte_mass := fin 0.1
  salinity := fin 35

theorem g_load : ∃ totals ks, load gWorld "a.dat" (fin 35) gKw = .ok (gCv, totals, ks) := by
  have hc : amount_units
      { titrant_amount := [fin 0, fin 0.001, fin 0.002], measurement := [fin 8, fin 4, fin 3],
        temperature := [fin 25, fin 25, fin 25] } (fin 35) (get_kwargs_for keys_cau gKw none)
      = .ok gCv := by
    have h : get_kwargs_for keys_cau gKw none
        = [("analyte_mass", .num (fin 0.1)), ("titrant_amount_unit", .str "kg")] := by
      simp [get_kwargs_for, gKw, keys_cau]
    rw [h]
    have hl : lowerS "kg" = "kg" := by decide
    simp [amount_units, override_temperature, get_analyte_mass, gCv, argOpt, argNotNull, argVal,
      titrant_masses, Dict.get?, Val.lower, hl, pyAssert, Val.isNull, Val.toFlt, bind_ok, pure_ok,
      Flt.isNaN]
  have h2 : get_kwargs_for keys_totals_ks gKw none =
      [("opt_total_borate", .num (fin 1)), ("total_borate", .num (fin 35 * fin 0.001)),
       ("total_fluoride", .num (fin 35 * fin 0.001)),
       ("total_sulfate", .num (fin 35 * fin 0.001))] := by
    simp [get_kwargs_for, gKw, keys_totals_ks]
  have hf : full_name "a.dat" gKw = .ok "a.dat" := by
    simp [full_name, gKw, Dict.get?]
  simp only [load, gWorld, exWorld, hf, hc, h2, bind_ok]
  simp [totals_ks, totals_for_ks, get_totals, get_k_constants, ks_for_pyco2, argNum, argNotNull,
    argVal, copyIfPos, setIfPos, setIf, dilute_totals, Dict.mapValsM, NpVal.zipW, NpVal.fits,
    bind_ok, pure_ok, Dict.get, Dict.get?, Dict.set, Val.truthy, Val.eqNum, feq,
    calk_to_pyco2_ks, Dict.has, keys_get_totals, keys_get_k_constants, Val.isNull, Val.toFlt,
    Flt.isNaN]

theorem g_typed : Typed gKw "ph_gran" (fin 0.1) (ttArgs []) where
  mode := by
    have : lowerS "pH_gran" = "ph_gran" := by decide
    simp [solve_mode, argVal, gKw, Dict.get?, Val.lower, this]
  c0 := by simp [argNum, gKw, Dict.get?]
  tts := by simp [titrant_totals, gKw, keys_titrant_totals, Dict.mapValsM, ttArgs]
  opts := by simp [emf_opts, argNum, argOpt, gKw, Dict.get?, bind_ok, pure_ok]

theorem g_regular : Regular gWorld "a.dat" (fin 35) gKw := by
  obtain ⟨totals, ks, h⟩ := g_load
  exact ⟨lsqOnce_reports, gCv, totals, ks, "ph_gran", fin 0.1, [], h, g_typed, by decide, rfl, .inl rfl⟩

theorem g_solve : ∃ sr, files_solve gWorld "a.dat" (fin 0.1) (fin 35) gKw = .ok sr ∧
    sr.alkalinity = fin gAlk := by
  obtain ⟨totals, ks, h⟩ := g_load
  obtain ⟨lr, hlr, hs, hi⟩ := linregress_exact (xs := [0.001, 0.002]) 0.0919 (-8.18e-5)
    ⟨0.001, by simp, 0.002, by simp, by norm_num⟩
  have hp4 : Flt.pow10 (fin (-4)) = fin 0.0001 := by
    show fin ((10 : ℝ) ^ (-4 : ℝ)) = _
    rw [show (-4 : ℝ) = -((4 : ℕ) : ℝ) by norm_num, Real.rpow_neg (by norm_num), Real.rpow_natCast]
    norm_num
  have hp3 : Flt.pow10 (fin (-3)) = fin 0.001 := by
    show fin ((10 : ℝ) ^ (-3 : ℝ)) = _
    rw [show (-3 : ℝ) = -((3 : ℕ) : ℝ) by norm_num, Real.rpow_neg (by norm_num), Real.rpow_natCast]
    norm_num
  have hu : pH_used gCv.measurement (fin 3) (fin 4) = [false, true, true] := by
    simp [pH_used, gCv, Flt.le]
    norm_num
  have ho : ph_opts (get_kwargs_for keys_solve_pH_gran gKw none) = .ok {} := by
    simp [ph_opts, get_kwargs_for, gKw, keys_solve_pH_gran, argNum, Dict.get?, bind_ok, pure_ok]
  have hm : mask [false, true, true] gCv.titrant_mass = [0.001, 0.002].map fin := rfl
  have hg : mask [false, true, true] (List.zipWith (fun m p => (m + gCv.analyte_mass) * Flt.pow10 (-p))
      gCv.titrant_mass gCv.measurement) = [0.001, 0.002].map fun x => fin (0.0919 * x + -8.18e-5) := by
    simp only [gCv, List.map_cons, List.map_nil, List.zipWith_cons_cons, List.zipWith_nil_left, mask,
      neg_fin, hp4, hp3, add_fin, mul_fin]
    norm_num
  have hsh : sameShape2 gCv.titrant_mass gCv.measurement = .ok () := by
    simp [sameShape2, gCv, pyAssert]
  have hsol : ∃ r, solve_pH_gran (fin 0.1) gCv.titrant_mass gCv.measurement gCv.analyte_mass {} = .ok r ∧
      r.alkalinity = fin gAlk := by
    refine ⟨⟨fin 1e6 * (-lr.intercept / lr.slope * fin 0.1 * fin 1 / gCv.analyte_mass),
      [false, true, true], List.zipWith (fun m p => (m + gCv.analyte_mass) * Flt.pow10 (-p))
        gCv.titrant_mass gCv.measurement, lr⟩, ?_, ?_⟩
    · have hlt : Flt.lt (fin 3) (fin 4) = true := by simp [Flt.lt]; norm_num
      simp only [solve_pH_gran, hu, hsh, hm, hg, hlr, hlt, pyAssert, bind_ok, pure_ok, if_true]
    · simp only [hs, hi, neg_fin, gCv]
      rw [div_fin _ _ (by norm_num)]
      simp only [mul_fin]
      rw [div_fin _ _ (by norm_num), mul_fin, gAlk]
      norm_num
  obtain ⟨r, hr, hra⟩ := hsol
  refine ⟨.pH_gran r gCv.measurement gCv.temperature, ?_, hra⟩
  have hmode := g_typed.mode
  have htts := g_typed.tts
  simp only [files_solve, h, bind_ok, htts, hmode]
  simp only [ttArgs, List.map_nil, add_titrant_totals, PyS.pure_apply, bind_ok, solve_dispatch]
  rw [if_neg (by decide), if_neg (by decide), if_neg (by decide), if_pos trivial, ho, bind_ok, hr]
  rfl

theorem g_calibrate : files_calibrate gWorld "a.dat" (fin gAlk) (fin 35) gKw
    = .ok ⟨fin 0.1, [fin 0]⟩ := by
  obtain ⟨totals, ks, h⟩ := g_load
  obtain ⟨sr, hsr, ha⟩ := g_solve
  rw [C32_same_solver gWorld "a.dat" "ph_gran" (fin gAlk) (fin 35) (fin 0.1) gKw gCv totals ks h
    g_typed (by simp [gKw, Dict.get?]) (by decide) rfl]
  have hres : solveRes gWorld "a.dat" (fin 35) (fin gAlk) gKw (fin 0.1) () = (.ok [fin 0], ()) := by
    simp only [solveRes, PyS.lift_apply, hsr, bind_ok, pure_ok, ha, sub_fin, sub_self]
  show (lsqOnce.run _ _ _).1 = _
  simp [Lsq.run, lsqOnce, Lsq.loop, hres, allFinite]

theorem g_row (good : Bool) : rowCalibration gWorld [] (prepCols gCols) (prepRow gWorld gCols (gRow good))
    = .ok ("a.dat", fin gAlk, fin 35, [], ⟨fin 0.1, [fin 0]⟩) := by
  have hp : ∀ c, c ∉ prepFills → prepRow gWorld gCols (gRow good) c = gRow good c :=
    fun c hc => prepRow_other hc
  have hb : backcompat [] (rowDict (prepCols gCols) (prepRow gWorld gCols (gRow good))) = .ok [] := by
    have : (rowDict (prepCols gCols) (prepRow gWorld gCols (gRow good))).get? "read_dat_method" = none := by
      rw [rowDict_get?, if_neg]
      rw [mem_prepCols]; decide
    simp only [backcompat, backcompat_dicts, backcompat_range, Dict.get?, bind_ok, setFileType, this,
      pure_ok]
  have hf : rowAttr (prepCols gCols) (prepRow gWorld gCols (gRow good)) "file_name"
      = .ok (.str "a.dat") := by
    unfold rowAttr
    rw [if_pos (by rw [List.contains_iff_mem, mem_prepCols]; decide), hp _ (by decide)]
    rfl
  simp only [rowCalibration, hb, hf, gKw_eq, bind_ok, hp _ (show "alkalinity_certified" ∉ prepFills by decide),
    hp _ (show "salinity" ∉ prepFills by decide)]
  have h1 : (Val.str "a.dat").toStr = .ok "a.dat" := rfl
  have h2 : (gRow good "alkalinity_certified").toFlt = .ok (fin gAlk) := by simp [gRow, Val.toFlt]
  have h3 : (gRow good "salinity").toFlt = .ok (fin 35) := by simp [gRow, Val.toFlt]
  simp only [h1, h2, h3, bind_ok, g_calibrate, pure_ok]

/-- The file is calibrated exactly if its flag is set. -/
theorem g_here (good : Bool) : calibrate_row gWorld [] (prepCols gCols) (prepRow gWorld gCols (gRow good))
    = .ok (.num (if good then fin 0.1 else nan)) := by
  have hr := g_row good
  simp only [rowCalibration, bind_ok_iff, pure_ok, Except.ok.injEq, Prod.mk.injEq] at hr
  obtain ⟨a, h1, b, h2, c, h3, d, h4, e, h5, g, h6, rfl, rfl, rfl, rfl, h7⟩ := hr
  have hatt : calibrate_attempt gWorld [] (prepCols gCols) (prepRow gWorld gCols (gRow good))
      = .ok (fin 0.1) := by
    simp only [calibrate_attempt, h1, h2, h3, h4, h5, h6, h7, bind_ok, pure_ok]
  have hg : prepRow gWorld gCols (gRow good) "file_good" = .bool good := by
    rw [prepRow_keep (by decide) (by simp [gRow, Val.isNull])]; simp [gRow]
  have hc : prepRow gWorld gCols (gRow good) "alkalinity_certified" = .num (fin gAlk) := by
    rw [prepRow_other (by decide)]; simp [gRow]
  unfold calibrate_row
  rw [hg, hc, hatt]
  cases good <;> simp [Val.truthy, Val.isNull, Flt.isNaN]

theorem g_ignored : ∃ l, dataset_ignored [] = .ok l := ⟨[], rfl⟩

theorem calibrate_one {w : World} {kw : Dict Val} {cols : List String} {r : Row} {df' : DF}
    (h : dataset_calibrate w kw ⟨cols, [r]⟩ = (.ok (), df')) :
    ∃ r', df'.rows = [r'] ∧ ∃ x s, CalRow w kw cols r r' x s := by
  have hr := calibrate_rows h
  obtain ⟨cols', rows'⟩ := df'
  simp only at hr
  rcases hr with _ | ⟨hcr, hnil⟩
  rename_i r' _
  rcases hnil with _ | _
  exact ⟨r', rfl, hcr⟩

theorem g_finishes (good : Bool) : ∃ df' r', dataset_calibrate gWorld [] (gFrame good) = (.ok (), df') ∧
    df'.rows = [r'] ∧ r' "titrant_molinity_here" = .num (if good then fin 0.1 else nan) ∧
    r' "analysis_batch" = .num (fin 0) ∧ r' "reference_good" = .bool good ∧
    r' "alkalinity_certified" = .num (fin gAlk) := by
  obtain ⟨df', h⟩ := c41_calibrate_finishes gWorld [] (gFrame good) g_ignored
    (show "salinity" ∈ gCols by decide) (.inl (show "analyte_mass" ∈ gCols by decide))
    (show "alkalinity_certified" ∈ gCols by decide) (show "file_name" ∈ gCols by decide)
    (by
      intro r hr
      rw [List.mem_singleton.mp hr]
      exact .inr ⟨fin gAlk, by simp [gRow]⟩)
    (fun h => absurd h (show "analysis_batch" ∉ gCols by decide))
    (fun h => absurd h (show "reference_good" ∉ gCols by decide))
  obtain ⟨r', hr', x, s, hcr⟩ := calibrate_one h
  have hx := hcr.here
  rw [g_here] at hx
  have hx : x = if good then fin 0.1 else nan := by
    cases good <;> simpa using hx.symm
  refine ⟨df', r', h, hr', ?_, ?_, ?_, ?_⟩
  · rw [hcr.here', hx]
  · rw [hcr.batch, if_neg (by decide)]
  · rw [hcr.flag, if_neg (by decide), hcr.here', hx]
    cases good <;> rfl
  · rw [hcr.keep _ (by decide) (by decide) (by decide), prepRow_other (by decide)]
    simp [gRow]

theorem g_good (r' : Row) (h1 : r' "titrant_molinity_here" = .num (fin 0.1))
    (h2 : r' "analysis_batch" = .num (fin 0)) (h3 : r' "reference_good" = .bool true) :
    goodHere [r'] (r' "analysis_batch") = [fin 0.1] := by
  unfold goodHere
  rw [List.filterMap_cons, h1]
  simp only
  rw [if_pos ⟨rfl, h3, by simp⟩]
  rfl

/-- C43, C44 at work: one reference calibrates its batch and gets back its certified value. -/
theorem g_calibrated : ∃ df' r', dataset_calibrate gWorld [] (gFrame true) = (.ok (), df') ∧
    df'.rows = [r'] ∧ r' "titrant_molinity" = .num (fin 0.1) ∧
    r' "alkalinity" = .num (fin gAlk) ∧ r' "alkalinity_offset" = .num (fin 0) := by
  obtain ⟨df', r', h, hr', h1, h2, h3, h4⟩ := g_finishes true
  have hlab : ∀ r ∈ df'.rows, Label (r "analysis_batch") := by
    rw [hr']
    intro r hr
    rw [List.mem_singleton.mp hr, h2]
    exact .inr ⟨_, rfl, by simp⟩
  have hlen : 0 < df'.rows.length := by rw [hr']; simp
  have h0 : df'.rows[0] = r' := by simp only [hr', List.getElem_cons_zero]
  have := c44_self_calibrated gWorld [] (gFrame true) df' h hlab 0 (by simp [gFrame]) hlen "a.dat"
    (fin gAlk) (fin 35) [] ⟨fin 0.1, [fin 0]⟩ (g_row true) rfl
    (by rw [h0, hr']; exact g_good r' (by simpa using h1) h2 h3)
    (by rw [h0, h1]; rfl)
    (by
      have : (gFrame true).rows[0]'(by simp [gFrame]) = gRow true := rfl
      rw [this]
      show Regular gWorld "a.dat" (fin 35) (get_kwargs_for keys_calibrate []
        (some (rowDict (prepCols gCols) (prepRow gWorld gCols (gRow true)))))
      rw [gKw_eq]; exact g_regular)
    rfl (fun h => absurd h (show "gran_logic" ∉ gCols by decide))
  rw [h0] at this
  exact ⟨df', r', h, hr', this⟩

/-- repairing a dataset: the file is good after all -/
noncomputable def DF.markGood (df : DF) : DF := df.setCol "file_good" fun _ => .bool true

/-- **C46**: calibrating, then marking the file as good, then calibrating again leaves the batch
without a molinity; calibrating the same dataset with the file marked as good from the start gives
one. -/
theorem C46_history_matters : ∃ (w : World) (kw : Dict Val) (df df1 df2 df3 : DF),
    dataset_calibrate w kw df = (.ok (), df1) ∧
    dataset_calibrate w kw df1.markGood = (.ok (), df2) ∧
    dataset_calibrate w kw df.markGood = (.ok (), df3) ∧
    df2.rows.map (· "titrant_molinity") = [.num nan] ∧
    df3.rows.map (· "titrant_molinity") = [.num (fin 0.1)] := by
  obtain ⟨df1, r1, h1, hr1, a1, a2, a3, a4⟩ := g_finishes false
  obtain ⟨df3, r3, h3, hr3, b1, _, _⟩ := g_calibrated
  have hmark : (gFrame false).markGood = gFrame true := by
    unfold DF.markGood DF.setCol gFrame
    simp only [DF.mk.injEq, List.map_cons, List.map_nil, List.cons.injEq, and_true]
    refine ⟨by decide, ?_⟩
    funext c
    unfold Row.put gRow
    by_cases hc : c = "file_good"
    · subst hc; simp
    · simp [hc]
  have hcols : ∀ c, c ∈ gCols ∨ c ∈ calCols → c ∈ df1.markGood.cols := fun c hc =>
    mem_addCol.mpr (.inl (calibrate_cols h1 hc))
  have hrows : df1.markGood.rows = [r1.put "file_good" (.bool true)] := by
    unfold DF.markGood DF.setCol; simp only; rw [hr1]; rfl
  obtain ⟨df2, h2⟩ := c41_calibrate_finishes gWorld [] df1.markGood g_ignored
    (hcols _ (.inl (by decide))) (.inl (hcols _ (.inl (by decide)))) (hcols _ (.inl (by decide)))
    (hcols _ (.inl (by decide)))
    (by
      intro r hr
      rw [hrows, List.mem_singleton] at hr
      subst hr
      exact .inr ⟨fin gAlk, by rw [put_ne _ _ (by decide), a4]⟩)
    (by
      intro _ r hr
      rw [hrows, List.mem_singleton] at hr
      subst hr
      rw [put_ne _ _ (by decide), a2]; rfl)
    (by
      intro _ r hr
      rw [hrows, List.mem_singleton] at hr
      subst hr
      rw [put_ne _ _ (by decide), a3]; exact .inr (.inl rfl))
  have hd1 : df1.markGood = ⟨df1.markGood.cols, [r1.put "file_good" (.bool true)]⟩ := by
    rw [← hrows]
  have h2' := h2
  rw [hd1] at h2'
  obtain ⟨r2, hr2, x, s, hcr⟩ := calibrate_one h2'
  have e1 : r2 "analysis_batch" = .num (fin 0) := by
    rw [hcr.batch, if_pos (hcols _ (.inr (by decide))), put_ne _ _ (by decide), a2]
  have e2 : r2 "reference_good" = .bool false := by
    rw [hcr.flag, if_pos (hcols _ (.inr (by decide))), put_ne _ _ (by decide), a3]
  have e3 : r2 "titrant_molinity" = .num nan := by
    refine c43_none gWorld [] _ df2 h2 ?_ r2 (by rw [hr2]; simp) ?_
    · rw [hr2]
      intro r hr
      rw [List.mem_singleton.mp hr, e1]
      exact .inr ⟨_, rfl, by simp⟩
    · rw [hr2]
      intro r hr _
      rw [List.mem_singleton.mp hr, e2]
      exact .inl (by simp)
  refine ⟨gWorld, [], gFrame false, df1, df2, df3, h1, h2, by rw [hmark]; exact h3, ?_, ?_⟩
  · rw [hr2]; simp only [List.map_cons, List.map_nil, e3]
  · rw [hr3]; simp only [List.map_cons, List.map_nil, b1]

/-- C50 applies: the reference with a null batch label -/
example : ∃ df', dataset_calibrate gWorld []
      ⟨"analysis_batch" :: gCols, [(gRow true).put "analysis_batch" .none]⟩
    = (.error (.KeyError "nan"), df') := by
  obtain ⟨df', h, _⟩ := c50_null_batch gWorld []
    ⟨"analysis_batch" :: gCols, [(gRow true).put "analysis_batch" .none]⟩
    (show "salinity" ∈ "analysis_batch" :: gCols by decide)
    (.inl (show "analyte_mass" ∈ "analysis_batch" :: gCols by decide))
    (show "alkalinity_certified" ∈ "analysis_batch" :: gCols by decide)
    (show "file_name" ∈ "analysis_batch" :: gCols by decide)
    (show "analysis_batch" ∈ "analysis_batch" :: gCols by decide)
    (fun h => absurd h (show "reference_good" ∉ "analysis_batch" :: gCols by decide))
    ⟨_, List.mem_singleton_self _, by rw [put_eq]; rfl⟩
  exact ⟨df', h⟩

/-- C43, several batches: two references of one batch, one of another, one not good -/
example : goodHere
    [ fun c => if c = "analysis_batch" then .str "A" else if c = "reference_good" then .bool true
        else .num (fin 0.1),
      fun c => if c = "analysis_batch" then .str "A" else if c = "reference_good" then .bool true
        else .num (fin 0.3),
      fun c => if c = "analysis_batch" then .str "B" else if c = "reference_good" then .bool true
        else .num (fin 0.7),
      fun c => if c = "analysis_batch" then .str "A" else if c = "reference_good" then .bool false
        else .num (fin 0.9) ] (.str "A") = [0.1, 0.3].map fin := by
  simp [goodHere]

end Calk
