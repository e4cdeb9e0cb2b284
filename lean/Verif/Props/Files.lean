import Verif.Lemmas.Files
import Verif.Props.Convert
import Verif.Props.SolveEmf
import Verif.Props.Totals

/-! # Properties C31–C36: keyword arguments and the file-level calibrator and solver -/

namespace Calk
open Flt

/-- Does Python take the value for true?  Anything but None, False, zero and what is empty (so NaN). -/
def Spec.Counts (v : Val) : Prop :=
  v ≠ .none ∧ v ≠ .bool false ∧ v ≠ .num (fin 0) ∧ v ≠ .str "" ∧ v ≠ .tup [] ∧ v ≠ .dict []

theorem truthy_iff {v : Val} : v.truthy = true ↔ Spec.Counts v := by
  cases v with
  | num x =>
    cases x with
    | fin y =>
      have : (0 : ℝ) = y ↔ y = 0 := eq_comm
      simp [Val.truthy, Spec.Counts, feq, this]
    | _ => simp [Val.truthy, Spec.Counts, feq, Flt.le]
  | tup l => cases l <;> simp [Val.truthy, Spec.Counts]
  | dict l => cases l <;> simp [Val.truthy, Spec.Counts]
  | bool b => cases b <;> simp [Val.truthy, Spec.Counts]
  | _ => simp [Val.truthy, Spec.Counts]

theorem truthy_false {v : Val} : v.truthy = false ↔ ¬ Spec.Counts v := by
  rw [← truthy_iff]; simp

/-! ## C31 -/

/-- the setting that wins: a non-null cell of the row, else the keyword argument -/
def chosen (kw row : Dict Val) (k : String) : Option Val :=
  match row.get? k with
  | some v => if v.isNull then kw.get? k else some v
  | none => kw.get? k

theorem foldl_row (row : Dict Val) (keys : List String) (d : Dict Val) (k : String) :
    (keys.foldl (setFromRow row) d).get? k
    = if k ∈ keys then (match row.get? k with
        | some v => if v.isNull then d.get? k else some v
        | none => d.get? k) else d.get? k := by
  induction keys generalizing d with
  | nil => simp
  | cons k' keys ih =>
    rw [List.foldl_cons, ih]
    by_cases hk : k = k'
    · subst hk
      simp only [List.mem_cons, true_or, if_true]
      cases hr : row.get? k with
      | none => simp [setFromRow, hr]
      | some v =>
        cases hv : v.isNull with
        | true => simp [setFromRow, hr, hv]
        | false => simp [setFromRow, hr, hv, Dict.get?_set_self]
    · have : ∀ v, (d.set k' v).get? k = d.get? k := fun v => Dict.get?_set_ne _ _ _ _ hk
      have h2 : (setFromRow row d k').get? k = d.get? k := by
        simp only [setFromRow]
        cases row.get? k' with
        | none => rfl
        | some v => cases hv : v.isNull <;> simp [this, hv]
      simp only [List.mem_cons, hk, false_or, h2]

/-- C31: recognised settings take the row's value if that is non-null, else the keyword argument's,
and unrecognised settings never get through. -/
theorem C31_value (keys : List String) (kw row : Dict Val) (k : String) :
    (get_kwargs_for keys kw (some row)).get? k = if k ∈ keys then chosen kw row k else none := by
  have h0 := Dict.get?_filter (fun k => keys.contains k) kw k
  simp only [get_kwargs_for]
  rw [foldl_row, h0]
  by_cases hk : k ∈ keys
  · simp only [hk, if_true, List.contains_iff_mem, chosen]
  · simp [hk]

/-- C31: without a row the recognised keyword arguments are kept. -/
theorem C31_no_row (keys : List String) (kw : Dict Val) (k : String) :
    (get_kwargs_for keys kw none).get? k = if k ∈ keys then kw.get? k else none := by
  have h0 := Dict.get?_filter (fun k => keys.contains k) kw k
  simp only [get_kwargs_for]
  rw [h0]; simp

/-- C31: the iteration order of the key set does not matter. -/
theorem C31_order (keys keys' : List String) (h : ∀ k, k ∈ keys ↔ k ∈ keys') (kw : Dict Val)
    (row : Option (Dict Val)) (k : String) :
    (get_kwargs_for keys kw row).get? k = (get_kwargs_for keys' kw row).get? k := by
  cases row with
  | none => simp only [C31_no_row, h]
  | some row => simp only [C31_value, h]

/-- the row wins, a null cell does not, an unknown key is dropped -/
example : (get_kwargs_for ["pH_min", "pH_max"]
      [("pH_min", .num (fin 3)), ("pH_max", .num (fin 4)), ("oops", .num (fin 1))]
      (some [("pH_max", .num nan), ("pH_min", .num (fin 3.3)), ("x", .none)])).get? "pH_min"
    = some (.num (fin 3.3)) ∧
    (get_kwargs_for ["pH_min", "pH_max"]
      [("pH_min", .num (fin 3)), ("pH_max", .num (fin 4)), ("oops", .num (fin 1))]
      (some [("pH_max", .num nan), ("pH_min", .num (fin 3.3)), ("x", .none)])).get? "pH_max"
    = some (.num (fin 4)) := by
  constructor
  · rw [C31_value]; simp [chosen, Dict.get?, Val.isNull]
  · rw [C31_value]; simp [chosen, Dict.get?, Val.isNull]

/-- the four modes in their documented spelling -/
def documentedModes : List String := ["emf", "pH_adjust", "pH", "pH_gran"]

/-! ## C32 -/

theorem residual_agrees {w : World} {f mode : String} {S cert c : Flt} {kw : Dict Val}
    {cv : Converted} {totals ks : Dict NpVal} {c0 : Flt} {tts : List (String × Flt)}
    (hl : load w f S kw = .ok (cv, totals, ks)) (ht : Typed kw mode c0 tts)
    (hrev : (add_titrant_totals cv.titrant_mass cv.analyte_mass c (fin 0) tts totals).1 = .ok () →
      add_titrant_totals cv.titrant_mass cv.analyte_mass (fin 0) c tts
        (add_titrant_totals cv.titrant_mass cv.analyte_mass c (fin 0) tts totals).2
          = (.ok (), totals)) :
    let t := lsqfun_calibrate (solvedAlk w mode cv ks kw) cert cv.titrant_mass cv.analyte_mass tts
      c totals
    t.1 = (solveRes w f S cert kw c ()).1 ∧ ∀ r, t.1 = .ok r → t.2 = totals := by
  simp only [solveRes, PyS.lift_apply, files_solve_eq hl ht]
  simp only [lsqfun_calibrate, PyS.bind_apply, PyS.get_apply, PyS.lift_apply]
  rcases h : add_titrant_totals cv.titrant_mass cv.analyte_mass c (fin 0) tts totals with ⟨r, s⟩
  rw [h] at hrev
  cases r with
  | error e => simp [bind_error]
  | ok u =>
    have hr := hrev rfl
    simp only [bind_ok, solvedAlk] at hr ⊢
    cases hs : solve_dispatch w mode cv c s ks kw with
    | error e => simp [bind_error]
    | ok r =>
      simp only [bind_ok, pure_ok, hr, PyS.pure_apply]
      exact ⟨trivial, fun _ _ => trivial⟩

/-- C32: without titrant totals, `files.calibrate` is the optimiser run on
`files.solve(c).alkalinity - certified`, for every mode and every kind of number.  (The settings are
of the right types; `read_dat` gives columns of equal length.) -/
theorem C32_same_solver (w : World) (f mode : String) (cert S c0 : Flt) (kw : Dict Val)
    (cv : Converted) (totals ks : Dict NpVal)
    (hl : load w f S kw = .ok (cv, totals, ks)) (ht : Typed kw mode c0 [])
    (hg : kw.get? "gran_logic" = none) (hm : mode ∈ modes)
    (hlen : cv.measurement.length = cv.temperature.length) :
    files_calibrate w f cert S kw = (w.opt.run (solveRes w f S cert kw) c0 ()).1 := by
  simp only [files_calibrate, hl, bind_ok, ht.mode, calibrate_dispatch_eq ht hg hm hlen, Lsq.run]
  refine loop_congr w.opt _ _ c0 _ _ totals (fun s => s = totals) rfl ?_
  rintro x hist - s rfl
  exact residual_agrees hl ht (fun _ => rfl)

/-- C32: the same with titrant totals (e.g. H2SO4), whose contribution is added for every trial and
taken back afterwards; also when a named total is missing and every trial raises. -/
theorem C32_same_solver_titrant (w : World) (f mode : String) (cert S c0 : Flt) (kw : Dict Val)
    (cv : Converted) (totals ks : Dict NpVal) (tts : List (String × ℝ)) (tm : List ℝ) (M : ℝ)
    (hopt : FiniteTrials w.opt)
    (hl : load w f S kw = .ok (cv, totals, ks)) (ht : Typed kw mode c0 (ttArgs tts))
    (htm : cv.titrant_mass = tm.map fin) (hM : cv.analyte_mass = fin M)
    (hmm : ∀ m ∈ tm, m + M ≠ 0) (hg : kw.get? "gran_logic" = none) (hm : mode ∈ modes)
    (hlen : cv.measurement.length = cv.temperature.length) :
    files_calibrate w f cert S kw = (w.opt.run (solveRes w f S cert kw) c0 ()).1 := by
  simp only [files_calibrate, hl, bind_ok, ht.mode, calibrate_dispatch_eq ht hg hm hlen, Lsq.run]
  refine loop_congr w.opt _ _ c0 _ _ totals (fun s => s = totals) rfl ?_
  rintro x hist hx s rfl
  obtain ⟨c, rfl⟩ := hopt _ _ _ hx
  refine residual_agrees hl ht ?_
  intro hok
  obtain ⟨hnd, harr⟩ := load_totals hl
  have hlt : cv.titrant_mass.length = tm.length := by rw [htm]; simp
  rw [hlt] at harr
  have hgood := good_of_add hlt tts s harr hok
  rw [htm, hM, add_eq hmm tts s hnd hgood]
  simp only
  rw [add_eq hmm tts _ (by rw [withTitrant_keys]; exact hnd) (hgood.withTitrant rfl),
    withTitrant_add, show c - 0 + (0 - c) = (0 : ℝ) by ring, withTitrant_zero hnd]
  exact fun k v _ hv => harr k v hv

/-- C32: a file that cannot be loaded gives the same exception from both. -/
theorem C32_load_error (w : World) (f : String) (cert S c : Flt) (kw : Dict Val) (e : PyErr)
    (hl : load w f S kw = .error e) :
    files_calibrate w f cert S kw = .error e ∧ files_solve w f c S kw = .error e := by
  simp [files_calibrate, files_solve, hl, bind_error]

/-- a small world: one file with three points, fixed salts and constants -/
noncomputable def exWorld : World where
  readDat _ _ := .ok { titrant_amount := [fin 0, fin 0.001, fin 0.002],
                       measurement := [fin 8, fin 3.5, fin 3.2],
                       temperature := [fin 25, fin 25, fin 25] }
  saltsAssemble _ _ _ _ _ _ _ _ := .ok
    [("TB", .scalar (fin 0.0004)), ("TF", .scalar (fin 0.00007)), ("TSO4", .scalar (fin 0.028))]
  equilibriaAssemble _ _ _ _ _ _ _ := .ok
    [("K1", .scalar (fin 1e-6)), ("K2", .scalar (fin 1e-9)), ("KB", .scalar (fin 2e-9)),
     ("KF", .scalar (fin 0.002)), ("KSO4", .scalar (fin 0.1)), ("KW", .scalar (fin 1e-14))]
  sysSalts _ _ _ := fin 0.01
  ls _ x0 := .ok { x := x0, fun_ := [] }
  opt := { next := fun x0 hist => if hist.isEmpty then some x0 else none
           finish := fun x0 hist => .ok { x := x0, fun_ := (hist.head?.map Prod.snd).getD [] }
           maxEval := 1 }

noncomputable def exKw (mode : String) : Dict Val :=
  [("titrant_amount_unit", .str "kg"), ("analyte_mass", .num (fin 0.1)), ("solve_mode", .str mode)]

noncomputable def exCv : Converted where
  titrant_mass := [fin 0, fin 0.001, fin 0.002]
  measurement := [fin 8, fin 3.5, fin 3.2]
  temperature := [fin 25, fin 25, fin 25]
  analyte_mass := fin 0.1
  salinity := fin 35

theorem exWorld_load (mode : String) : ∃ totals ks, load exWorld "f.dat" (fin 35) (exKw mode)
    = .ok (exCv, totals, ks) := by
  have hc : amount_units
      { titrant_amount := [fin 0, fin 0.001, fin 0.002], measurement := [fin 8, fin 3.5, fin 3.2],
        temperature := [fin 25, fin 25, fin 25] } (fin 35) (get_kwargs_for keys_cau (exKw mode) none)
      = .ok exCv := by
    have h : get_kwargs_for keys_cau (exKw mode) none
        = [("titrant_amount_unit", .str "kg"), ("analyte_mass", .num (fin 0.1))] := by
      simp [get_kwargs_for, exKw, keys_cau]
    rw [h]
    have hl : lowerS "kg" = "kg" := by decide
    simp [amount_units, override_temperature, get_analyte_mass, exCv, argOpt, argNotNull, argVal, titrant_masses, Dict.get?, Val.lower, hl,
      pyAssert, Val.isNull, Val.toFlt, bind_ok, pure_ok]
  have h2 : get_kwargs_for keys_totals_ks (exKw mode) none = [] := by
    simp [get_kwargs_for, exKw, keys_totals_ks]
  have hf : full_name "f.dat" (exKw mode) = .ok "f.dat" := by
    simp [full_name, exKw, Dict.get?]
  simp only [load, exWorld, hf, hc, h2, bind_ok]
  simp [totals_ks, totals_for_ks, get_totals, get_k_constants, ks_for_pyco2, argNum, argNotNull,
    argVal, copyIfPos, setIfPos, setIf, dilute_totals, Dict.mapValsM, NpVal.zipW, NpVal.fits,
    bind_ok, pure_ok, Dict.get, Dict.get?, Dict.set, Val.truthy, Val.eqNum, feq,
    calk_to_pyco2_ks, Dict.has]

/-- C32 applies: a titration in each of the modes -/
example : ∀ d ∈ documentedModes, ∃ cv totals ks,
    load exWorld "f.dat" (fin 35) (exKw d) = .ok (cv, totals, ks) ∧
    Typed (exKw d) (lowerS d) (fin 0.1) [] ∧ (exKw d).get? "gran_logic" = none ∧
    lowerS d ∈ modes ∧ cv.measurement.length = cv.temperature.length := by
  intro d hd
  obtain ⟨totals, ks, h⟩ := exWorld_load d
  refine ⟨_, totals, ks, h, ⟨?_, ?_, ?_, ?_⟩, ?_, ?_, rfl⟩
  · simp [solve_mode, argVal, exKw, Dict.get?, Val.lower]
  · simp [argNum, exKw, Dict.get?]
  · simp [titrant_totals, exKw, keys_titrant_totals, Dict.mapValsM]
  · simp [emf_opts, argNum, argOpt, exKw, Dict.get?, bind_ok, pure_ok]
  · simp [exKw, Dict.get?]
  · exact (by decide : ∀ d ∈ documentedModes, lowerS d ∈ modes) d hd

/-! ## C33 -/

theorem load_set {w : World} {f : String} {S : Flt} {kw : Dict Val} {k : String} (v : Val)
    (h1 : k ∉ keys_read_dat) (h2 : k ∉ keys_cau) (h3 : k ∉ keys_totals_ks) (h4 : k ≠ "file_path") :
    load w f S (kw.set k v) = load w f S kw := by
  simp only [load, full_name, get_kwargs_set v h1, get_kwargs_set v h2, get_kwargs_set v h3,
    Dict.get?_set_ne _ _ _ _ (Ne.symm h4)]

theorem solve_mode_set {kw : Dict Val} {k : String} (v : Val) (h : k ≠ "solve_mode") :
    solve_mode (kw.set k v) = solve_mode kw := by
  simp only [solve_mode, argVal, Dict.get?_set_ne _ _ _ _ (Ne.symm h)]

theorem calibrate_dispatch_set {w : World} {mode : String} {cv : Converted} {cert : Flt}
    {ks : Dict NpVal} {kw : Dict Val} {k : String} (v : Val) (h1 : k ∉ keys_calibrate_emf)
    (h2 : k ∉ keys_calibrate_pH) (h3 : k ∉ keys_calibrate_pH_gran) :
    calibrate_dispatch w mode cv cert ks (kw.set k v) = calibrate_dispatch w mode cv cert ks kw := by
  simp only [calibrate_dispatch, get_kwargs_set v h1, get_kwargs_set v h2, get_kwargs_set v h3]

theorem solve_dispatch_set {w : World} {mode : String} {cv : Converted} {c : Flt}
    {totals ks : Dict NpVal} {kw : Dict Val} {k : String} (v : Val) (h1 : k ∉ keys_solve_emf)
    (h2 : k ∉ keys_solve_pH) (h3 : k ∉ keys_solve_pH_gran) :
    solve_dispatch w mode cv c totals ks (kw.set k v) = solve_dispatch w mode cv c totals ks kw := by
  simp only [solve_dispatch, get_kwargs_set v h1, get_kwargs_set v h2, get_kwargs_set v h3]

/-- C33: whatever `gran_logic` is passed, calibration gives the same result. -/
theorem C33_calibrate (w : World) (f : String) (cert S : Flt) (kw : Dict Val) (v : Val) :
    files_calibrate w f cert S (kw.set "gran_logic" v) = files_calibrate w f cert S kw := by
  simp only [files_calibrate,
    load_set v (show "gran_logic" ∉ keys_read_dat by decide)
      (show "gran_logic" ∉ keys_cau by decide) (show "gran_logic" ∉ keys_totals_ks by decide)
      (show "gran_logic" ≠ "file_path" by decide),
    solve_mode_set v (show "gran_logic" ≠ "solve_mode" by decide),
    calibrate_dispatch_set v (show "gran_logic" ∉ keys_calibrate_emf by decide)
      (show "gran_logic" ∉ keys_calibrate_pH by decide)
      (show "gran_logic" ∉ keys_calibrate_pH_gran by decide)]

/-- C33: ... and it is reported as ignored. -/
theorem C33_reported (kw : Dict Val) (v : Val) :
    "gran_logic" ∈ calibrate_ignored (kw.set "gran_logic" v) := by
  have h1 : "gran_logic" ∈ (kw.set "gran_logic" v).keys := by
    have := Dict.get?_set_self kw "gran_logic" v
    by_contra h
    rw [(Dict.get?_eq_none_iff _ _).mpr h] at this
    simp at this
  simp only [calibrate_ignored, List.mem_filter]
  exact ⟨⟨h1, by decide⟩, by decide⟩

/-- C33: the solver does look at `gran_logic`: with a value other than the two known ones an EMF
titration is never solved. -/
theorem C33_solve_honours (w : World) (f : String) (c S : Flt) (kw : Dict Val) (g : Val) (r : SolveRes)
    (hmode : solve_mode kw = .ok "emf") (hg1 : g ≠ .str "v23.7+") (hg2 : g ≠ .str "legacy") :
    files_solve w f c S (kw.set "gran_logic" g) ≠ .ok r := by
  intro h
  simp only [files_solve, bind_ok_iff] at h
  obtain ⟨⟨cv, totals, ks⟩, -, tts, -, _, -, mode, hm, h⟩ := h
  rw [solve_mode_set g (by decide), hmode] at hm
  simp only [Except.ok.injEq] at hm
  subst hm
  simp only [solve_dispatch, if_true, emf_opts_solve, bind_ok_iff] at h
  obtain ⟨⟨o, d⟩, ho, sr, hsr, -⟩ := h
  have hgl : o.gran_logic ≠ "v23.7+" ∧ o.gran_logic ≠ "legacy" := by
    simp only [emf_opts, bind_ok_iff, pure_ok, Except.ok.injEq, Prod.mk.injEq, argVal,
      Dict.get?_set_self, Option.getD_some] at ho
    obtain ⟨_, -, _, -, _, -, _, -, _, -, ho, -⟩ := ho
    subst ho
    simp only
    cases g with
    | str s =>
      simp only [ne_eq, Val.str.injEq] at hg1 hg2
      exact ⟨hg1, hg2⟩
    | _ => exact ⟨(by decide : ("" : String) ≠ _), (by decide : ("" : String) ≠ _)⟩
  rw [solve_emf] at hsr
  simp only [bind_ok_iff] at hsr
  obtain ⟨gg, hgg, -⟩ := hsr
  simp only [gran_guesses, gran_alkalinity, bind_ok_iff] at hgg
  obtain ⟨_, ⟨_, -, u, hu, -⟩, -⟩ := hgg
  simp only [gran_used, if_neg hgl.1, if_neg hgl.2] at hu
  simp at hu

/-! ## C34 -/

/-- C34: modes equal up to letter case behave identically. -/
theorem C34_case (w : World) (f : String) (x S : Flt) (kw : Dict Val) (s s' : String)
    (h : lowerS s = lowerS s') :
    files_solve w f x S (kw.set "solve_mode" (.str s))
      = files_solve w f x S (kw.set "solve_mode" (.str s')) ∧
    files_calibrate w f x S (kw.set "solve_mode" (.str s))
      = files_calibrate w f x S (kw.set "solve_mode" (.str s')) := by
  have hl := fun v => load_set (w := w) (f := f) (S := S) (kw := kw) v
    (show "solve_mode" ∉ keys_read_dat by decide) (show "solve_mode" ∉ keys_cau by decide)
    (show "solve_mode" ∉ keys_totals_ks by decide) (show "solve_mode" ≠ "file_path" by decide)
  have hm : solve_mode (kw.set "solve_mode" (.str s)) = solve_mode (kw.set "solve_mode" (.str s')) := by
    simp only [solve_mode, argVal, Dict.get?_set_self, Option.getD_some, Val.lower, h]
  have hd := fun mode cv totals ks v => solve_dispatch_set (w := w) (mode := mode) (cv := cv) (c := x)
    (totals := totals) (ks := ks) (kw := kw) v (show "solve_mode" ∉ keys_solve_emf by decide)
    (show "solve_mode" ∉ keys_solve_pH by decide) (show "solve_mode" ∉ keys_solve_pH_gran by decide)
  have hc := fun mode cv ks v => calibrate_dispatch_set (w := w) (mode := mode) (cv := cv)
    (cert := x) (ks := ks) (kw := kw) v (show "solve_mode" ∉ keys_calibrate_emf by decide)
    (show "solve_mode" ∉ keys_calibrate_pH by decide)
    (show "solve_mode" ∉ keys_calibrate_pH_gran by decide)
  constructor
  · simp only [files_solve, hl, hm, hd,
      titrant_totals_set _ _ (show "solve_mode" ∉ keys_titrant_totals by decide)]
  · simp only [files_calibrate, hl, hm, hc]


theorem lower_documented (s : String) :
    lowerS s ∈ modes ↔ ∃ d ∈ documentedModes, lowerS s = lowerS d := by
  have h : documentedModes.map lowerS = modes := by
    decide
  constructor
  · intro hs
    rw [← h] at hs
    obtain ⟨d, hd, he⟩ := List.mem_map.mp hs
    exact ⟨d, hd, he.symm⟩
  · rintro ⟨d, hd, he⟩
    rw [he, ← h]
    exact List.mem_map.mpr ⟨d, hd, rfl⟩

/-- C34: any other string raises (after the file has been read): `Exception`, unless something
before it had already raised. -/
theorem C34_closed (w : World) (f : String) (x S : Flt) (kw : Dict Val) (s : String)
    (hs : ∀ d ∈ documentedModes, lowerS s ≠ lowerS d) :
    (∀ r, files_solve w f x S (kw.set "solve_mode" (.str s)) ≠ .ok r) ∧
    (∀ r, files_calibrate w f x S (kw.set "solve_mode" (.str s)) ≠ .ok r) ∧
    (∀ y, load w f S kw = .ok y →
      files_calibrate w f x S (kw.set "solve_mode" (.str s)) = .error .Exception ∧
      (titrant_totals kw = .ok [] →
        files_solve w f x S (kw.set "solve_mode" (.str s)) = .error .Exception)) := by
  have hn : lowerS s ∉ modes := by
    rw [lower_documented]; push Not; exact hs
  simp only [modes, List.mem_cons, List.not_mem_nil, or_false, not_or] at hn
  obtain ⟨h1, h2, h3, h4⟩ := hn
  have hm : solve_mode (kw.set "solve_mode" (.str s)) = .ok (lowerS s) := by
    simp only [solve_mode, argVal, Dict.get?_set_self, Option.getD_some, Val.lower]
  have hd : ∀ cv totals ks kw', solve_dispatch w (lowerS s) cv x totals ks kw' = .error .Exception := by
    intro cv totals ks kw'
    simp only [solve_dispatch, if_neg h1, if_neg h2, if_neg h3, if_neg h4]
  have hc : ∀ cv ks kw' st, (calibrate_dispatch w (lowerS s) cv x ks kw' st).1 = .error .Exception := by
    intro cv ks kw' st
    simp only [calibrate_dispatch, if_neg h1, if_neg h2, if_neg h3, if_neg h4, PyS.raise_apply]
  have hl := load_set (w := w) (f := f) (S := S) (kw := kw) (.str s)
    (show "solve_mode" ∉ keys_read_dat by decide) (show "solve_mode" ∉ keys_cau by decide)
    (show "solve_mode" ∉ keys_totals_ks by decide) (show "solve_mode" ≠ "file_path" by decide)
  refine ⟨?_, ?_, ?_⟩
  · intro r h
    simp only [files_solve, hm, hd, bind_ok_iff] at h
    obtain ⟨_, -, _, -, _, -, m, hm', h⟩ := h
    simp only [Except.ok.injEq] at hm'
    subst hm'
    rw [hd] at h
    simp at h
  · intro r h
    simp only [files_calibrate, hm, bind_ok_iff, Except.ok.injEq] at h
    obtain ⟨_, -, _, rfl, h⟩ := h
    rw [hc] at h
    simp at h
  · rintro ⟨cv, totals, ks⟩ hy
    refine ⟨by simp only [files_calibrate, hl, hy, hm, bind_ok, hc], ?_⟩
    intro htt
    simp only [files_solve, hl, hy, hm, bind_ok, hd,
      titrant_totals_set kw (.str s) (show "solve_mode" ∉ keys_titrant_totals by decide), htt,
      add_titrant_totals, PyS.pure_apply]

example : ∀ d ∈ documentedModes, lowerS "volts" ≠ lowerS d := by decide
example : lowerS "PH_Adjust" = lowerS "pH_adjust" := by decide

/-! ## C35 -/

/-- C35: in pH_adjust mode an `emf0_init` setting has no effect, for solving and for calibrating. -/
theorem C35_emf0_init_ignored (w : World) (f : String) (x S : Flt) (kw : Dict Val) (v : Val)
    (hm : solve_mode kw = .ok "ph_adjust") :
    files_solve w f x S (kw.set "emf0_init" v) = files_solve w f x S kw ∧
    files_calibrate w f x S (kw.set "emf0_init" v) = files_calibrate w f x S kw := by
  have hset : ∀ keys : List String, "emf0_init" ∈ keys → ∀ k,
      ((get_kwargs_for keys (kw.set "emf0_init" v) none).set "emf0_init" (.num (fin 0))).get? k
        = ((get_kwargs_for keys kw none).set "emf0_init" (.num (fin 0))).get? k := by
    intro keys hk k
    rw [Dict.get?_set, Dict.get?_set, C31_no_row, C31_no_row]
    by_cases h : k = "emf0_init"
    · simp [h]
    · simp only [h, if_false, Dict.get?_set_ne _ _ _ _ h]
  have hopts : ∀ keys : List String, "emf0_init" ∈ keys →
      emf_opts ((get_kwargs_for keys (kw.set "emf0_init" v) none).set "emf0_init" (.num (fin 0)))
        = emf_opts ((get_kwargs_for keys kw none).set "emf0_init" (.num (fin 0))) := by
    intro keys hk
    simp only [emf_opts, argOpt, argNum, argVal, hset keys hk]
  have hl := load_set (w := w) (f := f) (S := S) (kw := kw) v
    (show "emf0_init" ∉ keys_read_dat by decide) (show "emf0_init" ∉ keys_cau by decide)
    (show "emf0_init" ∉ keys_totals_ks by decide) (show "emf0_init" ≠ "file_path" by decide)
  have hmo := solve_mode_set (kw := kw) v (show "emf0_init" ≠ "solve_mode" by decide)
  have hne : ("ph_adjust" : String) ≠ "emf" := by decide
  constructor
  · simp only [files_solve, hl, hmo, hm, bind_ok,
      titrant_totals_set _ _ (show "emf0_init" ∉ keys_titrant_totals by decide), solve_dispatch,
      if_neg hne, if_true, hopts keys_solve_emf (by decide)]
  · have ht := titrant_totals_kwargs (keys := keys_calibrate_emf) kw (by decide)
    have ht' := titrant_totals_kwargs (keys := keys_calibrate_emf) (kw.set "emf0_init" v) (by decide)
    rw [titrant_totals_set _ _ (show "emf0_init" ∉ keys_titrant_totals by decide)] at ht'
    have hc := argNum_kwargs (keys := keys_calibrate_emf) (kw := kw)
      (k := "titrant_molinity_init") (x := fin 0.1) (by decide)
    have hc' := argNum_kwargs (keys := keys_calibrate_emf) (kw := kw.set "emf0_init" v)
      (k := "titrant_molinity_init") (x := fin 0.1) (by decide)
    rw [argNum_set _ _ _ (show "titrant_molinity_init" ≠ "emf0_init" by decide)] at hc'
    simp only [files_calibrate, hl, hmo, hm, bind_ok, calibrate_dispatch, if_neg hne, if_true,
      hopts keys_calibrate_emf (by decide),
      titrant_totals_set _ _ (show "emf0_init" ∉ keys_titrant_totals by decide), ht, ht',
      argNum_set _ _ _ (show "titrant_molinity_init" ≠ "emf0_init" by decide), hc, hc']

/-- C35: the EMFs made from the measured pH values give those pH values back at EMF0 = 0. -/
theorem C35_round_trip (pH T : List ℝ) (hT : ∀ t ∈ T, -273.15 < t) (hlen : pH.length = T.length) :
    ∃ emf, pH_to_emf_arr (pH.map fin) (T.map fin) = .ok emf ∧
      emf_to_pH_arr emf (fin 0) (T.map fin) = pH.map fin := by
  refine ⟨List.zipWith (fun p t => pH_to_emf p (fin 0) t) (pH.map fin) (T.map fin), ?_, ?_⟩
  · simp [pH_to_emf_arr, sameShape2, hlen, bind_ok, pure_ok]
  · simp only [emf_to_pH_arr]
    apply List.ext_getElem
    · simp [hlen]
    · intro i h1 h2
      simp only [List.length_zipWith, List.length_map] at h1
      simp only [List.getElem_zipWith, List.getElem_map]
      exact C01_pH_emf_pH _ _ _ (hT _ (List.getElem_mem _))

/-- C35: so the first guesses are the measured values: in a single-pass solve the points used are
exactly those whose measured pH is in the window. -/
theorem C35_window (w : World) (f : String) (c S : Flt) (kw : Dict Val) (cv : Converted)
    (totals ks : Dict NpVal) (pH T : List ℝ) (hT : ∀ t ∈ T, -273.15 < t) (lo hi : ℝ)
    (hl : load w f S kw = .ok (cv, totals, ks)) (hm : solve_mode kw = .ok "ph_adjust")
    (hcv : cv.measurement = pH.map fin) (hcT : cv.temperature = T.map fin)
    (hlo : argNum kw "pH_min" (fin 3) = .ok (fin lo)) (hhi : argNum kw "pH_max" (fin 4) = .ok (fin hi))
    (hd : argVal kw "double" (.bool true) = .bool false) (r : SolveRes)
    (hr : files_solve w f c S kw = .ok r) :
    ∃ sr, r = .emf sr (T.map fin) ∧ sr.used = pH.map fun p => decide (lo ≤ p) && decide (p ≤ hi) := by
  simp only [files_solve, hl, bind_ok, hm] at hr
  simp only [bind_ok_iff] at hr
  obtain ⟨tts, -, _, -, hr⟩ := hr
  simp only [solve_dispatch, if_neg (show ("ph_adjust" : String) ≠ "emf" by decide), if_true,
    bind_ok_iff, pure_ok, Except.ok.injEq] at hr
  obtain ⟨⟨o, d⟩, ho, emf, hemf, sr, hsr, hr⟩ := hr
  rw [emf_opts_set] at ho
  rw [argOpt_kwargs (by decide), argNum_kwargs (by decide), argNum_kwargs (by decide),
    argNum_kwargs (by decide), argVal_kwargs (by decide), argVal_kwargs (by decide), hlo, hhi, hd]
    at ho
  simp only [bind_ok_iff, pure_ok, Except.ok.injEq, Prod.mk.injEq] at ho
  obtain ⟨a, -, lo', rfl, hi', rfl, n, -, rfl, hdd⟩ := ho
  simp only [Val.truthy] at hdd
  subst hdd
  have hlen : pH.length = T.length := by
    simp only [pH_to_emf_arr, sameShape2, hcv, hcT, List.length_map, bind_ok_iff] at hemf
    obtain ⟨_, h, -⟩ := hemf
    by_contra hne
    simp [hne] at h
  obtain ⟨emf', he1, he2⟩ := C35_round_trip pH T hT hlen
  rw [hcv, hcT, he1] at hemf
  simp only [Except.ok.injEq] at hemf
  subst hemf
  rw [hcT] at hsr hr
  refine ⟨sr, hr.symm, ?_⟩
  obtain ⟨g, opt, hg, -, hk, hf, hf', hopt, rfl⟩ := solve_emf_false_iff.mp hsr
  simp only [emfResult, emfStart, he2, pH_used_fin]
  rfl

/-! ## C36 -/

/-- C36: a keyword argument that no stage recognises changes nothing in `files.solve` ... -/
theorem C36_solve (w : World) (f : String) (c S : Flt) (kw : Dict Val) (k : String) (v : Val)
    (hk : k ∉ keys_solve) : files_solve w f c S (kw.set k v) = files_solve w f c S kw := by
  simp only [keys_solve, List.foldl_cons, List.foldl_nil, mem_setUnion, not_or] at hk
  obtain ⟨⟨⟨⟨⟨⟨⟨h1, h2⟩, h3⟩, h4⟩, h5⟩, h6⟩, h7⟩, h8⟩ := hk
  simp only [List.mem_cons, List.not_mem_nil, or_false, not_or] at h8
  simp only [files_solve, load_set v h1 h2 h3 h8.2, titrant_totals_set _ v h4,
    solve_mode_set v h8.1, solve_dispatch_set v h5 h6 h7]

/-- C36: ... nor in `files.calibrate`, ... -/
theorem C36_calibrate (w : World) (f : String) (cert S : Flt) (kw : Dict Val) (k : String) (v : Val)
    (hk : k ∉ keys_calibrate) :
    files_calibrate w f cert S (kw.set k v) = files_calibrate w f cert S kw := by
  simp only [keys_calibrate, List.foldl_cons, List.foldl_nil, mem_setUnion, not_or] at hk
  obtain ⟨⟨⟨⟨⟨⟨h1, h2⟩, h3⟩, h4⟩, h5⟩, h6⟩, h7⟩ := hk
  simp only [List.mem_cons, List.not_mem_nil, or_false, not_or] at h7
  simp only [files_calibrate, load_set v h1 h2 h3 h7.2, solve_mode_set v h7.1,
    calibrate_dispatch_set v h4 h5 h6]

/-- C36: ... which warns about exactly those. -/
theorem C36_warning (kw : Dict Val) (k : String) :
    k ∈ calibrate_ignored kw ↔ k ∈ kw.keys ∧ k ∉ keys_calibrate := by
  simp only [calibrate_ignored, List.mem_filter]
  constructor
  · rintro ⟨⟨h1, -⟩, h2⟩
    exact ⟨h1, by simpa using h2⟩
  · rintro ⟨h1, h2⟩
    refine ⟨⟨h1, ?_⟩, by simpa using h2⟩
    have : k ≠ "solve_mode" := by rintro rfl; exact h2 (by decide)
    simpa using this

example : "pH_range" ∉ keys_solve ∧ "pH_range" ∉ keys_calibrate := by decide
/-- `titrant_molinity_init` is for calibration only -/
example : "titrant_molinity_init" ∉ keys_solve ∧ "titrant_molinity_init" ∈ keys_calibrate := by decide

end Calk
