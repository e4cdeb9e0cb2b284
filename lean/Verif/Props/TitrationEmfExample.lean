import Verif.Props.TitrationMade

/-! # A concrete EMF `Titration`, to which C87 and C88 apply -/

namespace Calk
open Flt Spec

theorem tSys_total : SysTotal tSys := by
  intro s
  refine ⟨_, rfl, ?_, ?_, ?_, ?_, ?_⟩ <;> simp

/-- the keyword argument: solve as an EMF titration -/
def eArg : Dict Val := [("solve_mode", .str "emf")]

noncomputable def eRow : Series := (tRow (some (.num (fin 1)))).set "solve_mode" (.str "emf")

theorem e_row : titrationRow (tRow (some (.num (fin 1)))) eArg = .ok eRow := by with_unfolding_all rfl

noncomputable def eKw : Dict Val :=
  [("file_path", .str "data"), ("analyte_mass", .num (fin 1)), ("analyte_volume", .num (fin 100)),
    ("titrant_amount_unit", .str "kg"), ("solve_mode", .str "emf")]

theorem e_load : load tW "a.dat" (fin 35) eKw = .ok (tCv (fin 1), tTotals (fin 1), tKs) := by
  rw [← t_load .given 1]
  have h1 : get_kwargs_for keys_cau eKw none = get_kwargs_for keys_cau (tKw (some (.num (fin 1))) 1) none := by
    simp [get_kwargs_for, eKw, tKw, keys_cau]
  have h2 : get_kwargs_for keys_totals_ks eKw none
      = get_kwargs_for keys_totals_ks (tKw (some (.num (fin 1))) 1) none := by
    simp [get_kwargs_for, eKw, tKw, keys_totals_ks]
  have h3 : full_name "a.dat" eKw = full_name "a.dat" (tKw (some (.num (fin 1))) 1) := by
    with_unfolding_all rfl
  unfold load
  rw [h1, h2, h3]
  rfl

theorem e_gran : ∃ g, gran_guesses [fin 0, fin 1] [fin 8, fin 3.5] [fin 25, fin 25] (fin 1) (fin 0.1)
    (fin 1) "v23.7+" = .ok g := by
  let pts : List (ℝ × ℝ × ℝ) := [(0, 8, 25), (1, 3.5, 25)]
  have hg := gran_gfunc pts 1 (by intro p hp; simp [pts] at hp; rcases hp with rfl | rfl <;> norm_num)
  obtain ⟨k, mx, hmx, hle, ⟨hk, hk'⟩, hlt, hu⟩ := gran_used_default (gs := pts.map (Spec.gran 1)) (by simp [pts])
    (by
      intro g hg
      simp only [pts, List.map_cons, List.map_nil, List.mem_cons, List.not_mem_nil, or_false] at hg
      rcases hg with rfl | rfl <;> simp only [Spec.gran] <;> positivity)
  set g0 := Spec.gran 1 (0, 8, 25) with hg0
  set g1 := Spec.gran 1 (1, 3.5, 25) with hg1
  have hpts : pts.map (Spec.gran 1) = [g0, g1] := rfl
  simp only [hpts] at hmx hlt hu hk
  have hp0 : 0 < g0 := by simp only [hg0, Spec.gran]; positivity
  have h10 : g1 < 10 * g0 := by
    simp only [hg0, hg1, Spec.gran]
    have : Real.exp (3.5 * 96.4853365 / (8.3144621 * (25 + 273.15)))
        ≤ Real.exp (8 * 96.4853365 / (8.3144621 * (25 + 273.15))) := by
      apply Real.exp_le_exp.mpr; norm_num
    have hp := Real.exp_pos (8 * 96.4853365 / (8.3144621 * (25 + 273.15)))
    linarith
  have hk0 : k = 0 := by
    by_contra hc
    have := hlt 0 (by simp) (Nat.pos_of_ne_zero hc)
    simp only [List.getElem_cons_zero] at this
    simp only [List.mem_cons, List.not_mem_nil, or_false] at hmx
    rcases hmx with rfl | rfl <;> linarith
  subst hk0
  obtain ⟨lr, hlr, -⟩ := linregress_exact (xs := [0, 1]) (g1 - g0) g0
    (by exact ⟨0, by simp, 1, by simp, by norm_num⟩)
  have e1 : List.map (fun x => fin ((g1 - g0) * x + g0)) [0, 1] = [fin g0, fin g1] := by simp
  rw [e1] at hlr
  unfold gran_guesses gran_alkalinity
  have hz : zip3With (fun m e t => gran_function m e t (fin 1)) [fin 0, fin 1] [fin 8, fin 3.5]
      [fin 25, fin 25] = [fin g0, fin g1] := hg
  have hu' : gran_used [fin g0, fin g1] "v23.7+" = .ok [true, true] := hu
  have hm : ∀ a b : Flt, mask [true, true] [a, b] = [a, b] := fun _ _ => rfl
  have hl' : linregress [fin 0, fin 1] [fin g0, fin g1] = .ok lr := hlr
  simp only [sameShape3, List.length_cons, List.length_nil, and_self, if_true, bind_ok, hz, hu', hm, hl']
  exact ⟨_, rfl⟩

theorem e_once (o : EmfOpts) (h1 : o.gran_logic = "v23.7+") (h2 : o.pH_min = fin 3) (h3 : o.pH_max = fin 4)
    (h4 : o.titrant_normality = fin 1) : ∃ sr, solve_emf tW.ls (fin 0.1) [fin 0, fin 1] [fin 8, fin 3.5]
      [fin 25, fin 25] (fin 1) (tTotals (fin 1)) tKs o false = .ok sr := by
  obtain ⟨g, hg⟩ := e_gran
  exact ⟨_, solve_emf_false_iff.mpr ⟨g, _, by rw [h1, h4]; exact hg, by rw [h2, h3]; simp [Flt.lt]; norm_num,
    t_hasKs _, by with_unfolding_all rfl, by with_unfolding_all rfl, rfl, rfl⟩⟩

theorem e_twice : ∃ sr, solve_emf tW.ls (fin 0.1) [fin 0, fin 1] [fin 8, fin 3.5]
      [fin 25, fin 25] (fin 1) (tTotals (fin 1)) tKs {} true = .ok sr := by
  obtain ⟨s1, h1⟩ := e_once {} rfl rfl rfl rfl
  obtain ⟨s2, h2⟩ := e_once { alkalinity_init := some s1.alkalinity, emf0_init := some s1.emf0 } rfl rfl rfl rfl
  exact ⟨s2, by rw [solve_emf_true_eq, h1, bind_ok]; exact h2⟩

theorem e_solve : ∃ sr, titration_solve tW eRow = .ok
    { sr := .emf sr [fin 25, fin 25], cv := tCv (fin 1), emf := [fin 8, fin 3.5], totals := tTotals (fin 1),
      ks := tKs } := by
  obtain ⟨sr, hs⟩ := e_twice
  refine ⟨sr, ?_⟩
  have h0 : titration_solve tW eRow = files_solve_all tW "a.dat" (fin 0.1) (fin 35) eKw := by
    with_unfolding_all rfl
  have h1 : titrant_totals eKw = .ok [] := by with_unfolding_all rfl
  have h2 : solve_mode eKw = .ok "emf" := by with_unfolding_all rfl
  have h3 : emf_opts (get_kwargs_for keys_solve_emf eKw none) = .ok ({}, true) := by with_unfolding_all rfl
  have h4 : solve_dispatch tW "emf" (tCv (fin 1)) (fin 0.1) (tTotals (fin 1)) tKs eKw
      = .ok (.emf sr [fin 25, fin 25]) := by
    unfold solve_dispatch
    rw [if_pos rfl, h3]
    simp only [bind_ok]
    unfold tCv
    simp only [hs, bind_ok]
    rfl
  have h5 : add_titrant_totals (tCv (fin 1)).titrant_mass (tCv (fin 1)).analyte_mass (fin 0.1) (fin 0)
      [] (tTotals (fin 1)) = (.ok (), tTotals (fin 1)) := rfl
  rw [h0]
  unfold files_solve_all
  simp only [e_load, bind_ok, h1, h2, h5, h4]
  with_unfolding_all rfl

theorem e_nodup : eArg.keys.Nodup ∧ (nestedArgs eArg).keys.Nodup := by
  constructor
  · simp [eArg, Dict.keys]
  · simp [eArg, nestedArgs, Dict.get?, Dict.keys]

theorem e_made : ∃ tt sr, Titration_init tW tSys (tRow (some (.num (fin 1)))) eArg = .ok tt ∧
    tt.sr.sr = .emf sr [fin 25, fin 25] ∧ tt.sr.cv = tCv (fin 1) ∧ tt.sr.emf = [fin 8, fin 3.5] := by
  obtain ⟨sr, hs⟩ := e_solve
  have hm : titrationSetting eArg (tRow (some (.num (fin 1)))).dict "analyte_mass" = some (.num (fin 1)) := by
    rw [← C64_settings _ _ _ e_nodup.1 e_nodup.2 e_row]; with_unfolding_all rfl
  obtain ⟨tt, ht, ho⟩ := C88_made tW tSys tSys_total _ _ _ e_nodup.1 e_nodup.2 _ e_row hs (by simp [tCv])
    (by simp [tCv]) (by
      intro k xs h
      have h' := Dict.mem_of_get? h
      simp [tKs] at h') (fin 1) _ hm rfl
  exact ⟨tt, sr, ht, by rw [ho], by rw [ho], by rw [ho]⟩

/-- C87 applies to EMF and to pH titrations -/
example : ∃ tt sr, Titration_init tW tSys (tRow (some (.num (fin 1)))) eArg = .ok tt ∧
    tt.sr.sr = .emf sr [fin 25, fin 25] ∧ tt.t.nums.get? "titrant_mass" = some [fin 0, fin 1] ∧
    tt.t.nums.get? "emf" = some [fin 8, fin 3.5] ∧
    ∃ gfunc, tt.t.nums.get? "gran_func" = some gfunc ∧ gfunc[1]? = some (fin (Spec.gran 1 (1, 3.5, 25))) := by
  obtain ⟨tt, sr, h, hs, hcv, hemf⟩ := e_made
  obtain ⟨p1, -⟩ := C87_points _ _ _ _ _ e_nodup.1 e_nodup.2 h
  obtain ⟨emf, pH, gfunc, gemf0, gpH, used, gused, E0, GE0, GA, n, lr, h1, -, h3, -, -, -, -, -, -, -, -, he, -, -, -,
    -, -, hg, -⟩ := C87_emf _ _ _ _ _ e_nodup.1 e_nodup.2 h _ _ hs
  rw [hcv] at p1
  refine ⟨tt, sr, h, hs, p1, by rw [h1, he, hemf], gfunc, h3, ?_⟩
  exact hg 1 1 1 3.5 25 (by rw [hcv]; rfl) (by rw [hcv]; rfl) (by rw [he, hemf]; rfl) (by rw [hcv]; rfl)
    (by norm_num)

example : ∃ tt, Titration_init tW tSys (tRow (some (.num (fin 1)))) (tArg 1) = .ok tt ∧
    tt.t.nums.get? "pH" = some [fin 8, fin 3.5] ∧ tt.t.bools.get? "used" = some [false, true] ∧
    tt.row.dict.get? "alkalinity_npts" = some (.num (fin 1)) := by
  obtain ⟨tt, h, hs⟩ := t_given1
  have hk : (tArg 1).keys.Nodup := by simp [tArg, Dict.keys]
  have hn : (nestedArgs (tArg 1)).keys.Nodup := by simp [tArg, nestedArgs, Dict.get?, Dict.keys]
  obtain ⟨used, lo, hi, h1, -, h2, h3, h4, h5, h6⟩ := C87_pH _ _ _ _ _ hk hn h
    (by rw [hs]; intro s T hc; cases hc)
  have e1 : titrationSetting (tArg 1) (tRow (some (.num (fin 1)))).dict "pH_min" = none := by
    rw [t_set .given]; with_unfolding_all rfl
  have e2 : titrationSetting (tArg 1) (tRow (some (.num (fin 1)))).dict "pH_max" = none := by
    rw [t_set .given]; with_unfolding_all rfl
  rw [e1] at h3
  rw [e2] at h4
  simp only [true_and, reduceCtorEq, false_and, exists_false, or_false] at h3 h4
  subst h3 h4
  have hcv : tt.sr.cv.measurement = [fin 8, fin 3.5] := by rw [hs]; rfl
  rw [hcv] at h1 h5
  obtain ⟨hl, hw⟩ := h5
  have w0 := hw 0 _ rfl
  have w1 := hw 1 _ rfl
  rcases used with _ | ⟨a, _ | ⟨b, _ | _⟩⟩ <;> simp at hl w0 w1
  have ha : a = false := by rw [w0]; norm_num
  have hb : b = true := by rw [w1]; norm_num
  subst ha hb
  refine ⟨tt, h, h1, h2, ?_⟩
  rw [h6]
  norm_num

/-! ## A Gran plot of pH readings -/

noncomputable def pgArg : Dict Val := [("solve_mode", .str "pH_gran"), ("pH_max", .num (fin 9))]

noncomputable def pgRow : Series :=
  ((tRow (some (.num (fin 1)))).set "solve_mode" (.str "pH_gran")).set "pH_max" (.num (fin 9))

noncomputable def pgKw : Dict Val :=
  [("file_path", .str "data"), ("analyte_mass", .num (fin 1)), ("analyte_volume", .num (fin 100)),
    ("titrant_amount_unit", .str "kg"), ("solve_mode", .str "pH_gran"), ("pH_max", .num (fin 9))]

theorem pg_load : load tW "a.dat" (fin 35) pgKw = .ok (tCv (fin 1), tTotals (fin 1), tKs) := by
  rw [← t_load .given 1]
  have h1 : get_kwargs_for keys_cau pgKw none = get_kwargs_for keys_cau (tKw (some (.num (fin 1))) 1) none := by
    simp [get_kwargs_for, pgKw, tKw, keys_cau]
  have h2 : get_kwargs_for keys_totals_ks pgKw none
      = get_kwargs_for keys_totals_ks (tKw (some (.num (fin 1))) 1) none := by
    simp [get_kwargs_for, pgKw, tKw, keys_totals_ks]
  have h3 : full_name "a.dat" pgKw = full_name "a.dat" (tKw (some (.num (fin 1))) 1) := by
    with_unfolding_all rfl
  unfold load
  rw [h1, h2, h3]
  rfl

theorem pg_once : ∃ sr, solve_pH_gran (fin 0.1) [fin 0, fin 1] [fin 8, fin 3.5] (fin 1)
    { pH_min := fin 3, pH_max := fin 9, titrant_normality := fin 1 } = .ok sr := by
  set g0 : ℝ := (10 : ℝ) ^ (-8 : ℝ) with hg0
  set g1 : ℝ := (1 + 1) * (10 : ℝ) ^ (-3.5 : ℝ) with hg1
  obtain ⟨lr, hlr, -⟩ := linregress_exact (xs := [0, 1]) (g1 - g0) g0 ⟨0, by simp, 1, by simp, by norm_num⟩
  have e1 : List.map (fun x => fin ((g1 - g0) * x + g0)) [0, 1] = [fin g0, fin g1] := by simp
  rw [e1] at hlr
  have hu : pH_used [fin 8, fin 3.5] (fin 3) (fin 9) = [true, true] := by
    simp [pH_used]; norm_num
  have hz : List.zipWith (fun m p => (m + fin 1) * Flt.pow10 (-p)) [fin 0, fin 1] [fin 8, fin 3.5]
      = [fin g0, fin g1] := by simp [hg0, hg1]
  have hm : ∀ a b : Flt, mask [true, true] [a, b] = [a, b] := fun _ _ => rfl
  have hl' : linregress [fin 0, fin 1] [fin g0, fin g1] = .ok lr := hlr
  have hw : pyAssert ((fin 3 : Flt).lt (fin 9)) = .ok () := by
    simp only [pyAssert, lt_fin]; norm_num
  unfold solve_pH_gran
  simp only [hw, hu, hz, hm, hl', bind_ok, sameShape2, List.length_cons, List.length_nil, if_true]
  exact ⟨_, rfl⟩

theorem pg_solve : ∃ sr, titration_solve tW pgRow = .ok
    { sr := .pH_gran sr [fin 8, fin 3.5] [fin 25, fin 25], cv := tCv (fin 1), emf := [fin 8, fin 3.5],
      totals := tTotals (fin 1), ks := tKs } := by
  obtain ⟨sr, hs⟩ := pg_once
  refine ⟨sr, ?_⟩
  have h0 : titration_solve tW pgRow = files_solve_all tW "a.dat" (fin 0.1) (fin 35) pgKw := by
    with_unfolding_all rfl
  have h1 : titrant_totals pgKw = .ok [] := by with_unfolding_all rfl
  have h2 : solve_mode pgKw = .ok "ph_gran" := by with_unfolding_all rfl
  have h3 : ph_opts (get_kwargs_for keys_solve_pH_gran pgKw none)
      = .ok { pH_min := fin 3, pH_max := fin 9, titrant_normality := fin 1 } := by with_unfolding_all rfl
  have h4 : solve_dispatch tW "ph_gran" (tCv (fin 1)) (fin 0.1) (tTotals (fin 1)) tKs pgKw
      = .ok (.pH_gran sr [fin 8, fin 3.5] [fin 25, fin 25]) := by
    unfold solve_dispatch
    rw [if_neg (by decide), if_neg (by decide), if_neg (by decide), if_pos rfl, h3]
    simp only [bind_ok]
    unfold tCv
    simp only [hs, bind_ok]
    rfl
  have h5 : add_titrant_totals (tCv (fin 1)).titrant_mass (tCv (fin 1)).analyte_mass (fin 0.1) (fin 0)
      [] (tTotals (fin 1)) = (.ok (), tTotals (fin 1)) := rfl
  rw [h0]
  unfold files_solve_all
  simp only [pg_load, bind_ok, h1, h2, h5, h4]
  with_unfolding_all rfl

example : ∃ tt s, Titration_init tW tSys (tRow (some (.num (fin 1)))) pgArg = .ok tt ∧
    tt.sr.sr = .pH_gran s [fin 8, fin 3.5] [fin 25, fin 25] ∧
    ∃ gfunc, tt.t.nums.get? "gran_func" = some gfunc ∧ gfunc[1]? = some (fin ((1 + 1) * (10 : ℝ) ^ (-3.5 : ℝ))) := by
  obtain ⟨sr, hs⟩ := pg_solve
  have hk : pgArg.keys.Nodup := by simp [pgArg, Dict.keys]
  have hn : (nestedArgs pgArg).keys.Nodup := by simp [pgArg, nestedArgs, Dict.get?, Dict.keys]
  have hr : titrationRow (tRow (some (.num (fin 1)))) pgArg = .ok pgRow := by with_unfolding_all rfl
  have hm : titrationSetting pgArg (tRow (some (.num (fin 1)))).dict "analyte_mass" = some (.num (fin 1)) := by
    rw [← C64_settings _ _ _ hk hn hr]; with_unfolding_all rfl
  obtain ⟨tt, ht, ho⟩ := C88_made tW tSys tSys_total _ _ _ hk hn _ hr hs (by simp [tCv])
    (by simp [tCv]) (by
      intro k xs h
      have h' := Dict.mem_of_get? h
      simp [tKs] at h') (fin 1) _ hm rfl
  have hsr : tt.sr.sr = .pH_gran sr [fin 8, fin 3.5] [fin 25, fin 25] := by rw [ho]
  obtain ⟨gfunc, used, A, c, n, lr, h1, -, -, -, -, -, hg, -⟩ := C87_pH_gran _ _ _ _ _ hk hn ht _ _ _ hsr
  exact ⟨tt, sr, ht, hsr, gfunc, h1, hg 1 1 1 3.5 (by rw [ho]; rfl) (by rw [ho]; rfl) (by rw [ho]; rfl)⟩

end Calk
