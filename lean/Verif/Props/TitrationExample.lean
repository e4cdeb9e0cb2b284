import Verif.Props.TitrationEstimate

/-! # A concrete `Titration`, to which C63–C65 and C81 apply -/

namespace Calk
open Flt Spec

noncomputable def tDat : DatData where
  titrant_amount := [fin 0, fin 1]
  measurement := [fin 8, fin 3.5]
  temperature := [fin 25, fin 25]

/-- a world with two-point files -/
noncomputable def tW : World where
  readDat _ _ := .ok tDat
  saltsAssemble _ _ _ _ _ _ _ _ := .ok
    [("TB", .scalar (fin 4)), ("TF", .scalar (fin 2)), ("TSO4", .scalar (fin 6))]
  equilibriaAssemble _ _ _ _ _ _ _ := .ok (calk_to_pyco2_ks.map fun kv => (kv.2, .scalar (fin 1e-6)))
  sysSalts _ _ _ := fin 0.01
  ls _ x0 := .ok { x := x0, fun_ := [] }
  opt := { next := fun x0 hist => if hist.isEmpty then some x0 else none
           finish := fun x0 hist => .ok { x := x0, fun_ := (hist.head?.map Prod.snd).getD [] }
           maxEval := 1 }

/-- PyCO2SYS as C63 assumes it -/
noncomputable def tSys (s : SysIn) : Py SysOut := .ok
  { alkalinity := s.pH.mapIdx fun i p =>
      match p with
      | fin p => fin (1e6 * (Sol.of (s.totalsAt i) (s.ksAt i)).alk 3 ((10 : ℝ) ^ (-p)))
      | _ => nan
    k_CO2 := s.pH.map fun _ => fin 1
    comps := fun _ => s.pH.map fun _ => fin 1
    alkalinity_alpha := s.pH.map fun _ => fin 0
    alkalinity_beta := s.pH.map fun _ => fin 0 }

theorem tSys_agrees : SysAgrees tSys := by
  intro s r hr i p hp _ _ _ _
  rw [← Except.ok.inj hr]
  simp [hp]

/-- the data set row, with the given cell for `analyte_mass` if any -/
def tRow (mass : Option Val) : Series :=
  { labels := ["file_name", "file_path", "salinity", "titrant_molinity"] ++
      (mass.elim [] fun _ => ["analyte_mass"]) ++
      ["analyte_volume", "titrant_amount_unit", "solve_mode"]
    val := fun k =>
      if k = "file_name" then .str "a.dat" else if k = "file_path" then .str "data"
      else if k = "salinity" then .num (fin 35) else if k = "titrant_molinity" then .num (fin 0.1)
      else if k = "analyte_mass" then mass.getD .none
      else if k = "analyte_volume" then .num (fin 100)
      else if k = "titrant_amount_unit" then .str "kg" else if k = "solve_mode" then .str "pH"
      else .none }

/-- mass from the volume -/
noncomputable def tM : Flt := fin 100 * seawater_1atm_MP81 (fin 25) (fin 35) * fin 1e-3

/-- the cell for the mass and the mass used -/
inductive TMass : Option Val → Flt → Prop
  | given : TMass (some (.num (fin 1))) (fin 1)
  | null : TMass (some (.num nan)) tM
  | absent : TMass none tM

noncomputable def tCv (M : Flt) : Converted :=
  { titrant_mass := [fin 0, fin 1], measurement := [fin 8, fin 3.5],
    temperature := [fin 25, fin 25], analyte_mass := M, salinity := fin 35 }

noncomputable def tDil (M : Flt) (x : ℝ) : NpVal :=
  .arr [fin x * get_dilution_factor (fin 0) M, fin x * get_dilution_factor (fin 1) M]

noncomputable def tTotals (M : Flt) : Dict NpVal :=
  [("dic", tDil M 0), ("total_borate", tDil M 4), ("total_fluoride", tDil M 2),
    ("total_sulfate", tDil M 6)]

noncomputable def tKs : Dict NpVal := calk_to_pyco2_ks.map fun kv => (kv.1, .scalar (fin 1e-6))

noncomputable def tKw (mass : Option Val) (n : ℝ) : Dict Val :=
  [("file_path", .str "data")] ++ (mass.elim [] fun v => [("analyte_mass", v)]) ++
    [("analyte_volume", .num (fin 100)),
    ("titrant_amount_unit", .str "kg"), ("solve_mode", .str "pH"), ("titrant_normality", .num (fin n))]

theorem t_load {mass : Option Val} {M : Flt} (hM : TMass mass M) (n : ℝ) :
    load tW "a.dat" (fin 35) (tKw mass n) = .ok (tCv M, tTotals M, tKs) := by
  have h1 : get_kwargs_for keys_cau (tKw mass n) none = (mass.elim [] fun v => [("analyte_mass", v)]) ++
      [("analyte_volume", .num (fin 100)), ("titrant_amount_unit", .str "kg")] := by
    cases mass <;> simp [get_kwargs_for, tKw, keys_cau]
  have h2 : get_kwargs_for keys_totals_ks (tKw mass n) none = [] := by
    cases mass <;> simp [get_kwargs_for, tKw, keys_totals_ks]
  have h3 : full_name "a.dat" (tKw mass n) = .ok "data/a.dat" := by with_unfolding_all rfl
  have hl : lowerS "kg" = "kg" := by decide
  have hc : amount_units tDat (fin 35) ((mass.elim [] fun v => [("analyte_mass", v)]) ++
      [("analyte_volume", .num (fin 100)), ("titrant_amount_unit", .str "kg")]) = .ok (tCv M) := by
    cases hM <;>
    simp [amount_units, tDat, override_temperature, get_analyte_mass, tCv, tM, argOpt, argNotNull, argVal,
      titrant_masses, Dict.get?, Val.lower, hl, pyAssert, Val.isNull, Val.toFlt, bind_ok, pure_ok]
  have ht : get_totals tW (fin 35) [] = .ok ([("dic", .scalar (fin 0)), ("total_borate", .scalar (fin 4)),
      ("total_fluoride", .scalar (fin 2)), ("total_sulfate", .scalar (fin 6))],
      [("TB", .scalar (fin 4)), ("TF", .scalar (fin 2)), ("TSO4", .scalar (fin 6))]) := by
    simp [get_totals, argNum, argNotNull, copyIfPos, setIfPos, tW, Dict.get, Dict.get?, Dict.set,
      bind_ok, pure_ok]
  have hd : dilute_totals [("dic", .scalar (fin 0)), ("total_borate", .scalar (fin 4)),
      ("total_fluoride", .scalar (fin 2)), ("total_sulfate", .scalar (fin 6))] [fin 0, fin 1] M
      = .ok (tTotals M) := by
    simp [dilute_totals, Dict.mapValsM, NpVal.zipW, NpVal.fits, NpVal.bcast, dilution_factors, tTotals,
      tDil, bind_ok, pure_ok, List.range_succ, NpVal.at_]
  have hk : get_k_constants tW [("TB", .scalar (fin 4)), ("TF", .scalar (fin 2)),
      ("TSO4", .scalar (fin 6))] [fin 25, fin 25] [] = .ok tKs := by
    simp [get_k_constants, ks_for_pyco2, argNotNull, argVal, setIf, tW, calk_to_pyco2_ks, Val.eqNum,
      feq, Dict.get?, bind_ok, pure_ok, tKs]
  unfold load
  rw [h3, h1, h2]
  simp only [bind_ok]
  rw [show tW.readDat "data/a.dat" (get_kwargs_for keys_read_dat (tKw mass n) none) = .ok
    tDat from rfl]
  simp only [bind_ok, hc]
  unfold totals_ks
  simp only [List.filter_nil, tCv, ht, bind_ok, hd]
  have hf : totals_for_ks (tCv M) [("TB", .scalar (fin 4)), ("TF", .scalar (fin 2)),
      ("TSO4", .scalar (fin 6))] [] = .ok [("TB", .scalar (fin 4)), ("TF", .scalar (fin 2)),
      ("TSO4", .scalar (fin 6))] := rfl
  unfold tCv at hf
  simp only [hf, hk, bind_ok]
  rfl

noncomputable def tOut (M : Flt) (n : ℝ) : SolveOut where
  sr := .pH (phRes (fin 0.1) [fin 0, fin 1] [fin 8, fin 3.5] M (tTotals M) tKs
    { pH_min := fin 3, pH_max := fin 4, titrant_normality := fin n }) [fin 8, fin 3.5] [fin 25, fin 25]
  cv := tCv M
  emf := [fin 8, fin 3.5]
  totals := tTotals M
  ks := tKs

theorem t_valid : ValidRows (tTotals (fin 1)) tKs 2 := by
  intro i hi
  constructor
  · intro k v h
    have h' : (k, v) ∈ rowAt (tTotals (fin 1)) i := Dict.mem_of_get? h
    have e0 : get_dilution_factor (fin 0) (fin 1) = fin 1 := by
      rw [get_dilution_factor_fin (by norm_num)]; norm_num
    have e1 : get_dilution_factor (fin 1) (fin 1) = fin (1 / 2) := by
      rw [get_dilution_factor_fin (by norm_num)]; norm_num
    rcases i with _ | _ | i
    · simp [rowAt, tTotals, tDil, e0, e1, Dict.mapKV, NpVal.at_] at h'
      rcases h' with h' | h' | h' | h' <;> exact ⟨_, by norm_num, h'.2⟩
    · simp [rowAt, tTotals, tDil, e0, e1, Dict.mapKV, NpVal.at_] at h'
      rcases h' with h' | h' | h' | h' <;> exact ⟨_, by norm_num, h'.2⟩
    · omega
  · intro k v h
    have h' : (k, v) ∈ rowAt tKs i := Dict.mem_of_get? h
    simp only [rowAt, tKs, Dict.mapKV, List.mem_map] at h'
    obtain ⟨_, ⟨_, _, rfl⟩, h'⟩ := h'
    simp only [NpVal.at_, Prod.mk.injEq] at h'
    exact ⟨_, by norm_num, h'.2.symm⟩

theorem t_hasKs (M : Flt) : HasKsN (tTotals M) tKs 3 := by
  have : ∀ tk ∈ requiredKs 3, tKs.has tk.2 = true := by
    intro tk h
    simp [requiredKs] at h
    rcases h with h | h | h | h | h | h | h | h | h | h | h | h | h <;> subst h <;>
      with_unfolding_all rfl
  exact fun tk h _ => this tk h

theorem t_solve {mass : Option Val} {M : Flt} (hM : TMass mass M) (n : ℝ) :
    files_solve_all tW "a.dat" (fin 0.1) (fin 35) (tKw mass n) = .ok (tOut M n) := by
  have h1 : titrant_totals (tKw mass n) = .ok [] := by cases hM <;> with_unfolding_all rfl
  have h2 : solve_mode (tKw mass n) = .ok "ph" := by cases hM <;> with_unfolding_all rfl
  have h3 : ph_opts (get_kwargs_for keys_solve_pH (tKw mass n) none)
      = .ok { pH_min := fin 3, pH_max := fin 4, titrant_normality := fin n } := by
    cases hM <;> with_unfolding_all rfl
  have h4 : solve_dispatch tW "ph" (tCv M) (fin 0.1) (tTotals M) tKs (tKw mass n)
      = .ok (tOut M n).sr := by
    unfold solve_dispatch
    rw [if_neg (by decide), if_neg (by decide), if_pos rfl, h3]
    simp only [bind_ok]
    unfold tCv
    simp only
    have h := solve_pH_eq (c := fin 0.1) (tm := [fin 0, fin 1]) (pH := [fin 8, fin 3.5]) (M := M)
      (totals := tTotals M) (ks := tKs)
      (o := { pH_min := fin 3, pH_max := fin 4, titrant_normality := fin n })
      (by simp [Flt.lt]; norm_num) (t_hasKs M) (by with_unfolding_all rfl)
      (by with_unfolding_all rfl) rfl
    simp only [h, bind_ok]
    rfl
  unfold files_solve_all
  have h5 : add_titrant_totals (tCv M).titrant_mass (tCv M).analyte_mass (fin 0.1) (fin 0)
      [] (tTotals M) = (.ok (), tTotals M) := rfl
  simp only [t_load hM, bind_ok, h1, h2, h5, h4]
  with_unfolding_all rfl

/-- the keyword argument -/
noncomputable def tArg (n : ℝ) : Dict Val := [("titrant_normality", .num (fin n))]

theorem t_row {mass : Option Val} {M : Flt} (hM : TMass mass M) (n : ℝ) :
    titrationRow (tRow mass) (tArg n) = .ok ((tRow mass).set "titrant_normality" (.num (fin n))) := by
  cases hM <;> with_unfolding_all rfl

theorem t_titration_solve {mass : Option Val} {M : Flt} (hM : TMass mass M) (n : ℝ) :
    titration_solve tW ((tRow mass).set "titrant_normality" (.num (fin n))) = .ok (tOut M n) := by
  rw [← t_solve hM n]
  cases hM <;> with_unfolding_all rfl

def okB {α : Type} : Py α → Bool
  | .ok _ => true
  | .error _ => false

theorem okB_iff {α : Type} {x : Py α} (h : okB x = true) : ∃ a, x = .ok a := by
  cases x with
  | ok a => exact ⟨a, rfl⟩
  | error e => cases h

/-- `Titration.__init__` after solving -/
noncomputable def tFinish (row : Series) (sr : SolveOut) : Py Titration := do
  let row ← resultRow row sr.sr
  let t ← makeTable sr
  let t ← get_alkalinity_from_acid row t
  let t ← do_CO2SYS tSys row t
  return { row, sr, t }

theorem init_eq (row : Series) (kw : Dict Val) : Titration_init tW tSys row kw =
    (titrationRow row kw >>= fun r => titration_solve tW r >>= fun sr => tFinish r sr) := rfl

theorem t_alks (M : Flt) (n : ℝ) : ∃ all, (tOut M n).sr.alks = some all := ⟨_, rfl⟩

theorem t_init {mass : Option Val} {M : Flt} (hM : TMass mass M) {n : ℝ}
    (h : okB (tFinish ((tRow mass).set "titrant_normality" (.num (fin n))) (tOut M n)) = true) :
    ∃ tt, Titration_init tW tSys (tRow mass) (tArg n) = .ok tt ∧ tt.sr = tOut M n := by
  have : ∃ tt, Titration_init tW tSys (tRow mass) (tArg n) = .ok tt := by
    rw [init_eq, t_row hM, bind_ok, t_titration_solve hM, bind_ok]
    exact okB_iff h
  obtain ⟨tt, ht⟩ := this
  refine ⟨tt, ht, ?_⟩
  obtain ⟨row', _, _, h1, h2, -⟩ := Titration_ok ht
  rw [t_row hM] at h1
  rw [← Except.ok.inj h1, t_titration_solve hM] at h2
  exact (Except.ok.inj h2).symm

theorem t_given2 : ∃ tt, Titration_init tW tSys (tRow (some (.num (fin 1)))) (tArg 2) = .ok tt ∧
    tt.sr = tOut (fin 1) 2 := t_init .given (by decide +kernel)

theorem t_given1 : ∃ tt, Titration_init tW tSys (tRow (some (.num (fin 1)))) (tArg 1) = .ok tt ∧
    tt.sr = tOut (fin 1) 1 := t_init .given (by decide +kernel)

theorem t_null : ∃ tt, Titration_init tW tSys (tRow (some (.num nan))) (tArg 1) = .ok tt ∧
    tt.sr = tOut tM 1 := t_init .null (by decide +kernel)

theorem t_set {mass : Option Val} {M : Flt} (hM : TMass mass M) (n : ℝ) (k : String) :
    titrationSetting (tArg n) (tRow mass).dict k
      = ((tRow mass).set "titrant_normality" (.num (fin n))).dict.get? k :=
  (C64_settings _ _ _ (by simp [tArg, Dict.keys]) (by simp [tArg, nestedArgs, Dict.get?, Dict.keys])
    (t_row hM n) k).symm

theorem t_real {n : ℝ} {tt : Titration} (h : tt.sr = tOut (fin 1) n) :
    RealTitration (tArg n) (tRow (some (.num (fin 1)))).dict tt [0, 1] [8, 3.5] 1 0.1 n where
  mass := by rw [t_set .given]; with_unfolding_all rfl
  mass_pos := one_pos
  molinity := by rw [t_set .given]; with_unfolding_all rfl
  normality := by left; rw [t_set .given]; with_unfolding_all rfl
  titrant := by rw [h]; rfl
  titrant_pos := by intro m hm; simp at hm; rcases hm with rfl | rfl <;> norm_num
  pHs := by rw [h]; rfl
  valid := by rw [h]; exact t_valid
  water := by rw [h]; with_unfolding_all rfl

/-- C63 applies: normality 1 and normality 2 -/
example : ∃ (tt : Titration) (all : List Flt),
    Titration_init tW tSys (tRow (some (.num (fin 1)))) (tArg 1) = .ok tt ∧
    RealTitration (tArg 1) (tRow (some (.num (fin 1)))).dict tt [0, 1] [8, 3.5] 1 0.1 1 ∧
    tt.sr.sr.alks = some all ∧
    tt.t.nums.get? "alkalinity_estimate" = some (all.map fun x => x * fin 1e-6) := by
  obtain ⟨tt, h, hs⟩ := t_given1
  obtain ⟨all, ha⟩ := t_alks _ _
  rw [← hs] at ha
  exact ⟨tt, _, h, t_real hs, ha, C63_equal tW tSys tSys_agrees _ _ tt (by simp [tArg, Dict.keys])
    (by simp [tArg, nestedArgs, Dict.get?, Dict.keys]) h _ _ _ _ (t_real hs) _ ha⟩

example : ∃ (tt : Titration) (all : List Flt),
    Titration_init tW tSys (tRow (some (.num (fin 1)))) (tArg 2) = .ok tt ∧
    RealTitration (tArg 2) (tRow (some (.num (fin 1)))).dict tt [0, 1] [8, 3.5] 1 0.1 2 ∧
    tt.sr.sr.alks = some all ∧ ∃ est x y, tt.t.nums.get? "alkalinity_estimate" = some est ∧
      est[1]? = some x ∧ all[1]? = some y ∧ x ≠ y * fin 1e-6 := by
  obtain ⟨tt, h, hs⟩ := t_given2
  obtain ⟨all, ha⟩ := t_alks _ _
  rw [← hs] at ha
  exact ⟨tt, _, h, t_real hs, ha, C63_differs tW tSys tSys_agrees _ _ tt (by simp [tArg, Dict.keys])
    (by simp [tArg, nestedArgs, Dict.get?, Dict.keys]) h _ _ _ _ _ (t_real hs) _ ha (by norm_num)
    (by norm_num) 1 1 rfl (by norm_num)⟩

/-- C65 applies: this titration has a `file_path` -/
example : ∃ tt, Titration_init tW tSys (tRow (some (.num (fin 1)))) (tArg 1) = .ok tt ∧
    titrationSetting (tArg 1) (tRow (some (.num (fin 1)))).dict "file_path" ≠ none := by
  obtain ⟨tt, h, -⟩ := t_given1
  refine ⟨tt, h, ?_⟩
  rw [t_set .given]
  have : ((tRow (some (.num (fin 1)))).set "titrant_normality" (.num (fin 1))).dict.get? "file_path"
      = some (.str "data") := by with_unfolding_all rfl
  rw [this]; simp

/-- C81 applies: a NaN mass with a volume, and a volume only -/
example : ∃ tt, Titration_init tW tSys (tRow (some (.num nan))) (tArg 1) = .ok tt ∧
    titrationSetting (tArg 1) (tRow (some (.num nan))).dict "analyte_mass" = some (.num nan) ∧
    tt.t.nums.get? "alkalinity_estimate" = some [nan, nan] := by
  obtain ⟨tt, h, hs⟩ := t_null
  have hm : titrationSetting (tArg 1) (tRow (some (.num nan))).dict "analyte_mass" = some (.num nan) := by
    rw [t_set .null]; with_unfolding_all rfl
  refine ⟨tt, h, hm, ?_⟩
  rw [C81_nan tW tSys _ _ tt (by simp [tArg, Dict.keys])
    (by simp [tArg, nestedArgs, Dict.get?, Dict.keys]) hm h _ (by decide), hs]
  rfl

example : Titration_init tW tSys (tRow none) (tArg 1) = .error (.AttributeError "analyte_mass") := by
  obtain ⟨r, hr⟩ := okB_iff (x := resultRow ((tRow none).set "titrant_normality" (.num (fin 1)))
    (tOut tM 1).sr) (by decide +kernel)
  obtain ⟨t, ht⟩ := okB_iff (x := makeTable (tOut tM 1)) (by decide +kernel)
  refine C81_no_mass tW tSys _ _ _ _ _ _ (by simp [tArg, Dict.keys])
    (by simp [tArg, nestedArgs, Dict.get?, Dict.keys]) ?_ (t_row .absent 1) (t_titration_solve .absent 1)
    hr ht
  rw [t_set .absent]; with_unfolding_all rfl

/-- C64 applies: `pH_min` given both ways, and a null `solve_mode` in the row -/
example : ∃ row', titrationRow ⟨["pH_min"], fun _ => .num (fin 3)⟩ [("pH_min", .num (fin 3.5))] = .ok row' ∧
    row'.dict.get? "pH_min" = some (.num (fin 3.5)) := by
  have h : titrationRow ⟨["pH_min"], fun _ => .num (fin 3)⟩ [("pH_min", .num (fin 3.5))]
      = .ok ((⟨["pH_min"], fun _ => .num (fin 3)⟩ : Series).set "pH_min" (.num (fin 3.5))) := by
    with_unfolding_all rfl
  exact ⟨_, h, (c64_opposite _ _ _ "pH_min" _ _ (by simp [Dict.keys]) (by simp [Dict.get?])
    (by simp [Dict.get?]) (by decide) (by decide) (by simp [Dict.get?]) (by with_unfolding_all rfl) rfl h).1⟩

example : (⟨["solve_mode"], fun _ => .num nan⟩ : Series).dict.get? "solve_mode" = some (.num nan) ∧
    (Val.num nan).isNull = true ∧ directArg [] "solve_mode" = none := by
  refine ⟨by with_unfolding_all rfl, rfl, by with_unfolding_all rfl⟩

/-- C65 applies: a row without `file_path` -/
example : (⟨["file_name"], fun _ => .str "a.dat"⟩ : Series).dict.get? "file_path" = none := by
  with_unfolding_all rfl

end Calk
