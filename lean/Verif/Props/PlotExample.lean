import Verif.Props.Plot

/-! # Plots of concrete Titrations, to which C99–C102 and C106 apply -/

namespace Calk
open Flt Spec

theorem t_nodup (n : ℝ) : (tArg n).keys.Nodup ∧ (nestedArgs (tArg n)).keys.Nodup :=
  ⟨by simp [tArg, Dict.keys], by simp [tArg, nestedArgs, Dict.get?, Dict.keys]⟩

/-- two flags from a window -/
theorem inWindow_two {lo hi a b : Flt} {u : List Bool} (h : InWindow lo hi [a, b] u) :
    u = [lo.le a && a.le hi, lo.le b && b.le hi] := by
  obtain ⟨hl, hw⟩ := h
  have w0 := hw 0 _ rfl
  have w1 := hw 1 _ rfl
  rcases u with _ | ⟨x, _ | ⟨y, _ | _⟩⟩ <;> simp at hl w0 w1
  rw [w0, w1]

/-- C99 and C101 apply: the pH plot of a pH titration, one point in the range -/
example : ∃ tt, Titration_init tW tSys (tRow (some (.num (fin 1)))) (tArg 1) = .ok tt ∧
    plot_pH tt true = .ok { artists := [
      .points (some "Final, unused") false [(fin 0 * fin 1e3, fin 8)],
      .points (some "Final, used") true [(fin 1 * fin 1e3, fin 3.5)], .band (fin 3) (fin 4)] } ∧
    plot_emf tt = .error (.AttributeError "emf") := by
  obtain ⟨tt, h, hs⟩ := t_given1
  obtain ⟨hk, hn⟩ := t_nodup 1
  have hne : ∀ s T, tt.sr.sr ≠ .emf s T := by rw [hs]; intro s T hc; cases hc
  obtain ⟨u, p, lo, hi, guess, -, hp, -, -, h3, h4, hplot, hg, -⟩ := C101_pH _ _ _ _ _ hk hn h true
  obtain ⟨_, _, _, hp', -⟩ := C87_pH _ _ _ _ _ hk hn h hne
  rw [hp] at hp'
  have hp' : p = [fin 8, fin 3.5] := by rw [Option.some.inj hp', hs]; rfl
  have e1 : titrationSetting (tArg 1) (tRow (some (.num (fin 1)))).dict "pH_min" = none := by
    rw [t_set .given]; with_unfolding_all rfl
  have e2 : titrationSetting (tArg 1) (tRow (some (.num (fin 1)))).dict "pH_max" = none := by
    rw [t_set .given]; with_unfolding_all rfl
  obtain rfl := LimitIs.unique h3 (.inl ⟨e1, rfl⟩)
  obtain rfl := LimitIs.unique h4 (.inl ⟨e2, rfl⟩)
  obtain ⟨rfl, hw⟩ := hg hne
  rw [hp'] at hw hplot
  have hu : u = [false, true] := by
    rw [inWindow_two hw]
    simp only [le_fin]
    norm_num
  refine ⟨tt, h, ?_, (C99_emf _ _ _ _ _ hk hn h).2 hne⟩
  rw [hplot, hu, hs]
  rfl

/-- C99 and C100 apply: one used point, so `alkalinity_std` is 0 and the title has NaN -/
example : ∃ tt fig A, Titration_init tW tSys (tRow (some (.num (fin 1)))) (tArg 1) = .ok tt ∧
    plot_alkalinity tt = .ok fig ∧ fig.title = [A, nan, fin 1] ∧
    tt.row.dict.get? "alkalinity_std" = some (.num (fin 0)) := by
  obtain ⟨tt, h, hs⟩ := t_given1
  obtain ⟨hk, hn⟩ := t_nodup 1
  obtain ⟨all, ha⟩ := t_alks (fin 1) 1
  rw [← hs] at ha
  obtain ⟨u, A, pm, h1, -, h2, -, -, h3⟩ := C100_spread tW tSys tSys_agrees _ _ tt hk hn h _ _ _ _
    (t_real hs) all ha
  have hu : u = [false, true] := by
    have e1 : titrationSetting (tArg 1) (tRow (some (.num (fin 1)))).dict "pH_min" = none := by
      rw [t_set .given]; with_unfolding_all rfl
    have e2 : titrationSetting (tArg 1) (tRow (some (.num (fin 1)))).dict "pH_max" = none := by
      rw [t_set .given]; with_unfolding_all rfl
    obtain ⟨u', lo, hi, -, -, q1, q2, q3, q4, -⟩ := C87_pH _ _ _ _ _ hk hn h
      (by rw [hs]; intro s T hc; cases hc)
    rw [h1] at q1
    rw [LimitIs.unique q2 (.inl ⟨e1, rfl⟩), LimitIs.unique q3 (.inl ⟨e2, rfl⟩),
      ← Option.some.inj q1] at q4
    have : tt.sr.cv.measurement = [fin 8, fin 3.5] := by rw [hs]; rfl
    rw [this] at q4
    rw [inWindow_two q4]
    simp only [le_fin]
    norm_num
  subst hu
  obtain ⟨h4, rfl⟩ := h3 rfl
  exact ⟨tt, _, A, h, h2, by simp, h4⟩

/-! ## Two used points -/

noncomputable def p2Arg : Dict Val := [("pH_max", .num (fin 9))]

noncomputable def p2Row : Series := (tRow (some (.num (fin 1)))).set "pH_max" (.num (fin 9))

noncomputable def p2Kw : Dict Val :=
  [("file_path", .str "data"), ("analyte_mass", .num (fin 1)), ("analyte_volume", .num (fin 100)),
    ("titrant_amount_unit", .str "kg"), ("solve_mode", .str "pH"), ("pH_max", .num (fin 9))]

theorem p2_load : load tW "a.dat" (fin 35) p2Kw = .ok (tCv (fin 1), tTotals (fin 1), tKs) := by
  rw [← t_load .given 1]
  have h1 : get_kwargs_for keys_cau p2Kw none = get_kwargs_for keys_cau (tKw (some (.num (fin 1))) 1) none := by
    simp [get_kwargs_for, p2Kw, tKw, keys_cau]
  have h2 : get_kwargs_for keys_totals_ks p2Kw none
      = get_kwargs_for keys_totals_ks (tKw (some (.num (fin 1))) 1) none := by
    simp [get_kwargs_for, p2Kw, tKw, keys_totals_ks]
  have h3 : full_name "a.dat" p2Kw = full_name "a.dat" (tKw (some (.num (fin 1))) 1) := by
    with_unfolding_all rfl
  unfold load
  rw [h1, h2, h3]
  rfl

noncomputable def p2Res : SolvePH :=
  phRes (fin 0.1) [fin 0, fin 1] [fin 8, fin 3.5] (fin 1) (tTotals (fin 1)) tKs
    { pH_min := fin 3, pH_max := fin 9, titrant_normality := fin 1 }

noncomputable def p2Out : SolveOut where
  sr := .pH p2Res [fin 8, fin 3.5] [fin 25, fin 25]
  cv := tCv (fin 1)
  emf := [fin 8, fin 3.5]
  totals := tTotals (fin 1)
  ks := tKs

theorem p2_solve : titration_solve tW p2Row = .ok p2Out := by
  have h0 : titration_solve tW p2Row = files_solve_all tW "a.dat" (fin 0.1) (fin 35) p2Kw := by
    with_unfolding_all rfl
  have h1 : titrant_totals p2Kw = .ok [] := by with_unfolding_all rfl
  have h2 : solve_mode p2Kw = .ok "ph" := by with_unfolding_all rfl
  have h3 : ph_opts (get_kwargs_for keys_solve_pH p2Kw none)
      = .ok { pH_min := fin 3, pH_max := fin 9, titrant_normality := fin 1 } := by with_unfolding_all rfl
  have h4 : solve_dispatch tW "ph" (tCv (fin 1)) (fin 0.1) (tTotals (fin 1)) tKs p2Kw
      = .ok p2Out.sr := by
    unfold solve_dispatch
    rw [if_neg (by decide), if_neg (by decide), if_pos rfl, h3]
    simp only [bind_ok]
    unfold tCv
    simp only
    have h := solve_pH_eq (c := fin 0.1) (tm := [fin 0, fin 1]) (pH := [fin 8, fin 3.5]) (M := fin 1)
      (totals := tTotals (fin 1)) (ks := tKs)
      (o := { pH_min := fin 3, pH_max := fin 9, titrant_normality := fin 1 })
      (by simp [Flt.lt]; norm_num) (t_hasKs (fin 1)) (by with_unfolding_all rfl)
      (by with_unfolding_all rfl) rfl
    simp only [h, bind_ok]
    rfl
  have h5 : add_titrant_totals (tCv (fin 1)).titrant_mass (tCv (fin 1)).analyte_mass (fin 0.1) (fin 0)
      [] (tTotals (fin 1)) = (.ok (), tTotals (fin 1)) := rfl
  rw [h0]
  unfold files_solve_all
  simp only [p2_load, bind_ok, h1, h2, h5, h4]
  with_unfolding_all rfl

theorem p2_nodup : p2Arg.keys.Nodup ∧ (nestedArgs p2Arg).keys.Nodup :=
  ⟨by simp [p2Arg, Dict.keys], by simp [p2Arg, nestedArgs, Dict.get?, Dict.keys]⟩

theorem p2_row : titrationRow (tRow (some (.num (fin 1)))) p2Arg = .ok p2Row := by with_unfolding_all rfl

theorem p2_set (k : String) : titrationSetting p2Arg (tRow (some (.num (fin 1)))).dict k
    = p2Row.dict.get? k := (C64_settings _ _ _ p2_nodup.1 p2_nodup.2 p2_row k).symm

theorem p2_made : ∃ tt, Titration_init tW tSys (tRow (some (.num (fin 1)))) p2Arg = .ok tt ∧
    tt.sr = p2Out := by
  have hm : titrationSetting p2Arg (tRow (some (.num (fin 1)))).dict "analyte_mass" = some (.num (fin 1)) := by
    rw [p2_set]; with_unfolding_all rfl
  exact C88_made tW tSys tSys_total _ _ _ p2_nodup.1 p2_nodup.2 _ p2_row p2_solve (by simp [tCv, p2Out])
    (by simp [tCv, p2Out]) (by
      intro k xs h
      have h' := Dict.mem_of_get? h
      simp [tKs, p2Out] at h') (fin 1) _ hm rfl

theorem p2_real {tt : Titration} (h : tt.sr = p2Out) :
    RealTitration p2Arg (tRow (some (.num (fin 1)))).dict tt [0, 1] [8, 3.5] 1 0.1 1 where
  mass := by rw [p2_set]; with_unfolding_all rfl
  mass_pos := one_pos
  molinity := by rw [p2_set]; with_unfolding_all rfl
  normality := by right; rw [p2_set]; exact ⟨by with_unfolding_all rfl, rfl⟩
  titrant := by rw [h]; rfl
  titrant_pos := by intro m hm; simp at hm; rcases hm with rfl | rfl <;> norm_num
  pHs := by rw [h]; rfl
  valid := by rw [h]; exact t_valid
  water := by rw [h]; with_unfolding_all rfl

/-- C100 applies: for two points the title has √2 times the `alkalinity_std` of the row -/
example : ∃ tt fig A, ∃ σ : ℝ, Titration_init tW tSys (tRow (some (.num (fin 1)))) p2Arg = .ok tt ∧
    plot_alkalinity tt = .ok fig ∧ fig.title = [A, fin (σ * Real.sqrt (2 / (2 - 1))), fin 2] ∧
    tt.row.dict.get? "alkalinity_std" = some (.num (fin σ)) := by
  obtain ⟨tt, h, hs⟩ := p2_made
  have ha : tt.sr.sr.alks = some p2Res.alkalinity_all := by rw [hs]; rfl
  obtain ⟨u, A, pm, h1, -, h2, -, h3, -⟩ := C100_spread tW tSys tSys_agrees _ _ tt p2_nodup.1 p2_nodup.2 h
    _ _ _ _ (p2_real hs) _ ha
  have hu : u = [true, true] := by
    have := (titration_table h).2.2.1
    rw [h1] at this
    rw [Option.some.inj this, hs]
    simp only [p2Out, SolveRes.useds, p2Res, phRes, pH_used, List.map_cons, List.map_nil, le_fin]
    norm_num
  subst hu
  obtain ⟨σ, h4, rfl⟩ := h3 (by decide)
  exact ⟨tt, _, A, σ, h, h2, by simp, h4⟩

/-! ## Gran plots -/

/-- C99, C101 and C102 apply to EMF titrations -/
example : ∃ tt sr, Titration_init tW tSys (tRow (some (.num (fin 1)))) eArg = .ok tt ∧
    tt.sr.sr = .emf sr [fin 25, fin 25] ∧
    plot_emf tt = .ok { artists := [.points none true
      [(fin 0 * fin 1e3, fin 8), (fin 1 * fin 1e3, fin 3.5)]] } ∧
    (∃ fig, plot_emf0_gran tt = .ok fig) ∧ (∃ fig, plot_alkalinity_gran tt = .ok fig) ∧
    ∃ fig, plot_pH tt true = .ok fig ∧ fig.artists.length = 5 := by
  obtain ⟨tt, sr, h, hs, hcv, hemf⟩ := e_made
  have hp := (C99_emf _ _ _ _ _ e_nodup.1 e_nodup.2 h).1 _ _ hs
  obtain ⟨_, _, _, -, -, -, h1, -⟩ := C102_emf0 _ _ _ _ _ e_nodup.1 e_nodup.2 h _ _ hs
  obtain ⟨_, _, _, _, _, _, -, -, -, h2, -⟩ := C102_alkalinity _ _ _ _ _ e_nodup.1 e_nodup.2 h _ _ hs
  obtain ⟨u, p, lo, hi, guess, -, -, -, -, -, -, h3, -, -, hg⟩ :=
    C101_pH _ _ _ _ _ e_nodup.1 e_nodup.2 h true
  obtain ⟨gu, gp, -, -, rfl⟩ := (hg _ _ hs).2 rfl
  refine ⟨tt, sr, h, hs, ?_, ⟨_, h1⟩, ⟨_, h2⟩, _, h3, rfl⟩
  rw [hp, hcv, hemf]
  rfl

theorem pg_made : ∃ tt s, Titration_init tW tSys (tRow (some (.num (fin 1)))) pgArg = .ok tt ∧
    tt.sr.sr = .pH_gran s [fin 8, fin 3.5] [fin 25, fin 25] ∧ tt.sr.cv = tCv (fin 1) ∧
    s.used = [true, true] ∧ s.gfunc = [fin ((10 : ℝ) ^ (-8 : ℝ)), fin ((1 + 1) * (10 : ℝ) ^ (-3.5 : ℝ))] := by
  obtain ⟨sr, hs⟩ := pg_solve
  have hk : pgArg.keys.Nodup := by simp [pgArg, Dict.keys]
  have hn : (nestedArgs pgArg).keys.Nodup := by simp [pgArg, nestedArgs, Dict.get?, Dict.keys]
  have hr : titrationRow (tRow (some (.num (fin 1)))) pgArg = .ok pgRow := by with_unfolding_all rfl
  have hm : titrationSetting pgArg (tRow (some (.num (fin 1)))).dict "analyte_mass" = some (.num (fin 1)) := by
    rw [← C64_settings _ _ _ hk hn hr]; with_unfolding_all rfl
  have hmn : titrationSetting pgArg (tRow (some (.num (fin 1)))).dict "pH_min" = none := by
    rw [← C64_settings _ _ _ hk hn hr]; with_unfolding_all rfl
  have hmx : titrationSetting pgArg (tRow (some (.num (fin 1)))).dict "pH_max" = some (.num (fin 9)) := by
    rw [← C64_settings _ _ _ hk hn hr]; with_unfolding_all rfl
  obtain ⟨tt, ht, ho⟩ := C88_made tW tSys tSys_total _ _ _ hk hn _ hr hs (by simp [tCv])
    (by simp [tCv]) (by
      intro k xs h
      have h' := Dict.mem_of_get? h
      simp [tKs] at h') (fin 1) _ hm rfl
  have hsr : tt.sr.sr = .pH_gran sr [fin 8, fin 3.5] [fin 25, fin 25] := by rw [ho]
  refine ⟨tt, sr, ht, hsr, by rw [ho], ?_, ?_⟩
  · obtain ⟨u', lo, hi, -, -, q1, q2, q3, q4, -⟩ := C87_pH _ _ _ _ _ hk hn ht
      (by rw [hsr]; intro s T hc; cases hc)
    rw [(titration_table ht).2.2.1] at q1
    rw [LimitIs.unique q2 (.inl ⟨hmn, rfl⟩), LimitIs.unique q3 (.inr ⟨_, hmx, rfl⟩),
      ← Option.some.inj q1, hsr] at q4
    have : tt.sr.cv.measurement = [fin 8, fin 3.5] := by rw [ho]; rfl
    rw [this] at q4
    have e := inWindow_two q4
    simp only [SolveRes.useds] at e
    rw [e]
    simp only [le_fin]
    norm_num
  · obtain ⟨g, -, -, -, -, -, h1, -, -, -, -, -, hg, -⟩ := C87_pH_gran _ _ _ _ _ hk hn ht _ _ _ hsr
    have e1 := (early_column hk hn ht "gran_func" (by decide) (by decide) (by decide)).1 sr.gfunc
      (by unfold numColumns; rw [hsr]; rfl)
    rw [h1] at e1
    have hl := (titration_table ht).1 _ _ h1
    rw [ho] at hl
    have g0 := hg 0 1 0 8 (by rw [ho]; rfl) (by rw [ho]; rfl) (by rw [ho]; rfl)
    have g1 := hg 1 1 1 3.5 (by rw [ho]; rfl) (by rw [ho]; rfl) (by rw [ho]; rfl)
    rw [← Option.some.inj e1]
    rcases g with _ | ⟨x, _ | ⟨y, _ | _⟩⟩ <;> simp [tCv] at hl g0 g1
    rw [g0, g1]
    simp

/-- C102 applies to a Gran plot of pH readings: the line goes through both points -/
example : ∃ tt s fig A v ends, ∃ a b : ℝ, Titration_init tW tSys (tRow (some (.num (fin 1)))) pgArg = .ok tt ∧
    tt.sr.sr = .pH_gran s [fin 8, fin 3.5] [fin 25, fin 25] ∧
    plot_alkalinity_gran tt = .ok fig ∧ fig.title = [A] ∧
    fig.artists.drop 2 = [.hline (fin 0), .line (some "Fit") ends, .vline v] ∧ a ≠ 0 ∧
    GranLine a b [0, 1] ends v := by
  obtain ⟨tt, s, h, hs, hcv, hu, hg⟩ := pg_made
  have hk : pgArg.keys.Nodup := by simp [pgArg, Dict.keys]
  have hn : (nestedArgs pgArg).keys.Nodup := by simp [pgArg, nestedArgs, Dict.get?, Dict.keys]
  obtain ⟨u, g, A, v, ends, lr, q1, q2, -, q3, q4, q5⟩ := C102_pH_gran _ _ _ _ _ hk hn h _ _ _ hs
  have e1 := (early_column hk hn h "gran_func" (by decide) (by decide) (by decide)).1 s.gfunc
    (by unfold numColumns; rw [hs]; rfl)
  have e2 := the_flag h "gran_used" s.used (by unfold boolColumns; rw [hs]; rfl)
  rw [q2] at e1
  rw [q1] at e2
  obtain rfl := Option.some.inj e1
  obtain rfl := Option.some.inj e2
  set g0 : ℝ := (10 : ℝ) ^ (-8 : ℝ) with hg0
  set g1 : ℝ := (1 + 1) * (10 : ℝ) ^ (-3.5 : ℝ) with hg1
  obtain ⟨lr', hlr, hsl, hic⟩ := linregress_exact (xs := [0, 1]) (g1 - g0) g0
    ⟨0, by simp, 1, by simp, by norm_num⟩
  have e3 : List.map (fun x => fin ((g1 - g0) * x + g0)) [0, 1] = [fin g0, fin g1] := by simp
  rw [e3] at hlr
  have e4 : linregress [fin 0, fin 1] [fin g0, fin g1] = .ok lr := by
    rw [hu, hg, hcv] at q4; exact q4
  have e5 : linregress [fin 0, fin 1] [fin g0, fin g1] = .ok lr' := hlr
  rw [e4] at e5
  obtain rfl := Except.ok.inj e5
  have hlt : g0 < g1 := by
    have : (10 : ℝ) ^ (-8 : ℝ) < (10 : ℝ) ^ (-3.5 : ℝ) :=
      Real.rpow_lt_rpow_of_exponent_lt (by norm_num) (by norm_num)
    have := Real.rpow_pos_of_pos (show (0 : ℝ) < 10 by norm_num) (-3.5)
    rw [hg1]; linarith
  have hne : g1 - g0 ≠ 0 := by linarith
  exact ⟨tt, s, _, A, v, ends, g1 - g0, g0, h, hs, q3, rfl, rfl, hne,
    (q5 _ _ [0, 1] hsl hic hne (by rw [hcv]; rfl)).1⟩

/-- C102 applies: the plots that are missing -/
example : ∃ tt, Titration_init tW tSys (tRow (some (.num (fin 1)))) (tArg 1) = .ok tt ∧
    plot_emf0_gran tt = .error (.AttributeError "gran_used") := by
  obtain ⟨tt, h, hs⟩ := t_given1
  obtain ⟨hk, hn⟩ := t_nodup 1
  exact ⟨tt, h, ((C102_missing _ _ _ _ _ hk hn h).1 _ _ _ (by rw [hs]; rfl)).1⟩

/-- C106 applies to an ordinary Titration -/
example : ∃ tt a, Titration_init tW tSys (tRow (some (.num (fin 1)))) (tArg 1) = .ok tt ∧
    plot_loss tt = .error (.AttributeError a) := by
  obtain ⟨tt, h, hs⟩ := t_given1
  obtain ⟨hk, hn⟩ := t_nodup 1
  have hrow := (C64_row _ _ _ _ _ hk hn h).1
  obtain ⟨a, ha⟩ := C106_error tt (by rw [hrow _ (by decide), t_set .given]; with_unfolding_all rfl)
    (by rw [hrow _ (by decide), t_set .given]; with_unfolding_all rfl)
  exact ⟨tt, a, h, ha⟩

end Calk
