import Verif.Lemmas.Plot
import Verif.Props.TitrationEmfExample

/-! # C99–C102, C106: what the plots of a Titration show -/

namespace Calk
open Flt Spec

/-! ## C99: the points -/

/-- **C99**: the filled and the unfilled points together are all points, each exactly once. -/
theorem C99_once (u : List Bool) (x y : List Flt) (hx : x.length = u.length)
    (hy : y.length = u.length) :
    (drawnAt u true x y ++ drawnAt u false x y).Perm
      ((x.zip y).map fun p => (p.1 * fin 1e3, p.2)) := by
  induction u generalizing x y with
  | nil =>
    obtain rfl : x = [] := by simpa using hx
    obtain rfl : y = [] := by simpa using hy
    simp [drawnAt]
  | cons f u ih =>
    cases x with
    | nil => simp at hx
    | cons x xs =>
      cases y with
      | nil => simp at hy
      | cons y ys =>
        have ih := ih xs ys (by simpa using hx) (by simpa using hy)
        rw [drawnAt_cons, drawnAt_cons, List.zip_cons_cons, List.map_cons]
        cases f
        · simp only [Bool.false_eq_true, if_false, List.nil_append, if_true, List.singleton_append]
          exact List.perm_middle.trans (ih.cons _)
        · simp only [if_true, List.singleton_append, List.cons_append, Bool.true_eq_false, if_false,
            List.nil_append]
          exact ih.cons _

/-- **C99**: `plot_emf` shows the EMF readings against the titrant mass in grams, for the titrations
solved from EMF; for the others it raises `AttributeError`. -/
theorem C99_emf (w : World) (sys : SysIn → Py SysOut) (row : Series) (kw : Dict Val)
    (tt : Titration) (hk : kw.keys.Nodup) (hn : (nestedArgs kw).keys.Nodup)
    (h : Titration_init w sys row kw = .ok tt) :
    (∀ s T, tt.sr.sr = .emf s T → plot_emf tt = .ok { artists := [.points none true
      ((tt.sr.cv.titrant_mass.zip tt.sr.emf).map fun p => (p.1 * fin 1e3, p.2))] }) ∧
    ((∀ s T, tt.sr.sr ≠ .emf s T) → plot_emf tt = .error (.AttributeError "emf")) := by
  have htm := Table.attr_eq (C87_points w sys row kw tt hk hn h).1
  constructor
  · intro s T hs
    have he := Table.attr_eq (emf_gran hk hn h hs).1
    simp only [plot_emf, htm, he, bind_ok, grams, List.zip_map_left]
    rfl
  · intro hs
    obtain ⟨_, _, _, -, he, -⟩ := C87_pH w sys row kw tt hk hn h hs
    have he : tt.t.attr "emf" = .error (.AttributeError "emf") := by simp [Table.attr, he]
    simp only [plot_emf, htm, he, bind_ok]
    rfl

/-- **C99**: for every Titration, `plot_alkalinity` shows the `alkalinity_estimate` column in µmol/kg,
filled where the point was used, and a line at the alkalinity in the row; the title has that
alkalinity and the number of points that the row has. -/
theorem C99_alkalinity (w : World) (sys : SysIn → Py SysOut) (row : Series) (kw : Dict Val)
    (tt : Titration) (hk : kw.keys.Nodup) (hn : (nestedArgs kw).keys.Nodup)
    (h : Titration_init w sys row kw = .ok tt) :
    ∃ (u : List Bool) (est : List Flt) (A s n : Flt),
      tt.t.bools.get? "used" = some u ∧ tt.t.nums.get? "alkalinity_estimate" = some est ∧
      tt.row.dict.get? "alkalinity" = some (.num A) ∧
      tt.row.dict.get? "alkalinity_npts" = some (.num n) ∧
      u.length = tt.sr.cv.titrant_mass.length ∧ est.length = tt.sr.cv.titrant_mass.length ∧
      plot_alkalinity tt = .ok { title := [A, s, n], artists := [
        .points (some "Unused") false
          (drawnAt u false tt.sr.cv.titrant_mass (est.map fun x => x * fin 1e6)),
        .points (some "Used") true
          (drawnAt u true tt.sr.cv.titrant_mass (est.map fun x => x * fin 1e6)),
        .hline A] } := by
  obtain ⟨t1, t2, t3, t4, -⟩ := titration_table h
  have htm := (C87_points w sys row kw tt hk hn h).1
  obtain ⟨est, he⟩ := Option.isSome_iff_exists.mp t4
  have hl := t1 _ _ he
  have hu := (t2 _ _ t3).2
  have hA := (C64_row w sys row kw tt hk hn h).2
  refine ⟨_, est, _, pdStd (mask tt.sr.sr.useds est) * fin 1e6, _, t3, he, hA,
    (Titration_results h).1, hu, hl, ?_⟩
  simp only [plot_alkalinity, Table.attr_eq htm, Table.flag_eq t3, Table.attr_eq he, numAttr_eq hA,
    bind_ok]
  rw [usedScatters_eq _ _ _ _ _ (by rw [hu]) (by rw [List.length_map, hl, hu]), countUsed_eq]
  rfl

/-! ## C100: the alkalinity plot -/

/-- sample standard deviation (`n - 1`) -/
noncomputable def sampleStd (xs : List ℝ) : ℝ :=
  Real.sqrt ((xs.map fun x => (x - xs.sum / xs.length) ^ 2).sum / ((xs.length : ℝ) - 1))

theorem filter_fin (xs : List ℝ) : (xs.map fin).filter (fun x => !x.isNaN) = xs.map fin := by
  rw [List.filter_eq_self]
  intro a ha
  obtain ⟨x, -, rfl⟩ := List.mem_map.mp ha
  rfl

theorem pdStd_fin (xs : List ℝ) (h : 2 ≤ xs.length) :
    pdStd (xs.map fin) = fin (sampleStd xs) := by
  have hne : xs ≠ [] := by rintro rfl; simp at h
  have h2 : (2 : ℝ) ≤ xs.length := by exact_mod_cast h
  unfold pdStd
  simp only [filter_fin, npMean_map_fin xs hne, List.length_map, List.map_map]
  rw [if_neg (by omega)]
  have : ((fun y => Flt.sq (y - fin (rmean xs))) ∘ fin) = fin ∘ fun x => (x - rmean xs) ^ 2 := by
    funext x; simp
  rw [this, ← List.map_map, npSum_map_fin, div_fin _ _ (by linarith), sqrt_fin]
  · rfl
  · apply div_nonneg _ (by linarith)
    apply List.sum_nonneg
    intro y hy
    obtain ⟨x, -, rfl⟩ := List.mem_map.mp hy
    positivity

theorem pdStd_few (xs : List ℝ) (h : xs.length < 2) : pdStd (xs.map fin) = nan := by
  unfold pdStd
  simp only [filter_fin, List.length_map]
  rw [if_pos h]

theorem sampleStd_scale (xs : List ℝ) (k : ℝ) (hk : 0 ≤ k) :
    sampleStd (xs.map fun x => x * k) = sampleStd xs * k := by
  have h1 : (xs.map fun x => x * k).sum = xs.sum * k := by
    simpa using List.sum_map_mul_right (l := xs) (f := fun x => x) (r := k)
  unfold sampleStd
  simp only [List.length_map, List.map_map, h1]
  have : ((fun x => (x - xs.sum * k / (xs.length : ℝ)) ^ 2) ∘ fun x => x * k)
      = fun x => (x - xs.sum / (xs.length : ℝ)) ^ 2 * k ^ 2 := by
    funext x; simp only [Function.comp]; ring
  rw [this, List.sum_map_mul_right, mul_div_right_comm, Real.sqrt_mul' _ (by positivity),
    Real.sqrt_sq hk]

theorem sampleStd_eq (xs : List ℝ) (h : 2 ≤ xs.length) :
    sampleStd xs = rstd xs * Real.sqrt ((xs.length : ℝ) / ((xs.length : ℝ) - 1)) := by
  have h2 : (2 : ℝ) ≤ xs.length := by exact_mod_cast h
  unfold sampleStd rstd
  rw [← Real.sqrt_mul' _ (by apply div_nonneg <;> linarith)]
  congr 1
  simp only [rmean, List.length_map]
  have h3 : (xs.length : ℝ) - 1 ≠ 0 := by linarith
  have h4 : (xs.length : ℝ) ≠ 0 := by linarith
  rw [div_mul_div_comm, mul_comm (xs.length : ℝ) ((xs.length : ℝ) - 1), mul_div_mul_right _ _ h4]

theorem mask_count {α : Type} (u : List Bool) (xs : List α) (h : xs.length = u.length) :
    (mask u xs).length = u.count true := by
  induction u generalizing xs with
  | nil => simp
  | cons b u ih =>
    cases xs with
    | nil => simp at h
    | cons x xs => cases b <;> simp [ih xs (by simpa using h)]

theorem rstd_one (x : ℝ) : rstd [x] = 0 := by simp [rstd, rmean]

/-- **C100**: for a titrant of normality 1, whose points the solver found the alkalinities `all` for
(so in EMF and pH mode): these are the heights shown. The line and the title have the alkalinity of the
row; in pH mode it is the mean height of the filled points. The number after ± in the title is not the
`alkalinity_std` of the row: for `n` used points it is √(n/(n-1)) times that, and NaN for one point,
where the row has 0. -/
theorem C100_spread (w : World) (sys : SysIn → Py SysOut) (hsys : SysAgrees sys) (row : Series)
    (kw : Dict Val) (tt : Titration) (hk : kw.keys.Nodup) (hn : (nestedArgs kw).keys.Nodup)
    (h : Titration_init w sys row kw = .ok tt) (tm pH : List ℝ) (M c : ℝ)
    (hr : RealTitration kw row.dict tt tm pH M c 1) (all : List Flt)
    (ha : tt.sr.sr.alks = some all) :
    ∃ (u : List Bool) (A pm : Flt),
      tt.t.bools.get? "used" = some u ∧ tt.row.dict.get? "alkalinity" = some (.num A) ∧
      plot_alkalinity tt = .ok { title := [A, pm, fin (u.count true : ℕ)], artists := [
        .points (some "Unused") false (drawnAt u false (tm.map fin) all),
        .points (some "Used") true (drawnAt u true (tm.map fin) all), .hline A] } ∧
      (∀ s p T, tt.sr.sr = .pH s p T →
        A = npMean ((drawnAt u true (tm.map fin) all).map Prod.snd)) ∧
      (2 ≤ u.count true → ∃ σ : ℝ, tt.row.dict.get? "alkalinity_std" = some (.num (fin σ)) ∧
        pm = fin (σ * Real.sqrt ((u.count true : ℕ) / ((u.count true : ℕ) - 1)))) ∧
      (u.count true = 1 → tt.row.dict.get? "alkalinity_std" = some (.num (fin 0)) ∧ pm = nan) := by
  obtain ⟨t1, t2, t3, -⟩ := titration_table h
  have htm := (C87_points w sys row kw tt hk hn h).1
  have hest := C63_equal w sys hsys row kw tt hk hn h tm pH M c hr all ha
  obtain ⟨est, he, -, hall, hval⟩ := C63_estimate w sys hsys row kw tt hk hn h tm pH M c 1 hr all ha
  have hA := (C64_row w sys row kw tt hk hn h).2
  have hstd := Titration_std h ha
  have hu := (t2 _ _ t3).2
  rw [hr.titrant] at htm hu
  rw [List.length_map] at hu
  obtain ⟨xs, rfl⟩ : ∃ xs : List ℝ, all = xs.map fin := by
    refine ⟨all.map fun v => match v with | fin x => x | _ => 0, ?_⟩
    rw [List.map_map]
    apply List.ext_getElem (by simp)
    intro i h1 h2
    have hi : i < tm.length := by omega
    obtain ⟨x, hx, -⟩ := hval i _ (List.getElem?_eq_getElem hi)
    rw [List.getElem?_eq_getElem h1] at hx
    simp [Option.some.inj hx]
  rw [List.length_map] at hall
  have e6 : (((xs.map fin).map fun x => x * fin 1e-6).map fun x => x * fin 1e6) = xs.map fin := by
    simp only [List.map_map]
    apply List.map_congr_left
    intro x _
    simp only [Function.comp, mul_fin]
    congr 1
    norm_num [mul_assoc]
  have em : mask tt.sr.sr.useds ((xs.map fin).map fun x => x * fin 1e-6)
      = ((mask tt.sr.sr.useds xs).map fun x => x * 1e-6).map fin := by
    rw [mask_map, mask_map, List.map_map, List.map_map]
    apply List.map_congr_left
    intro x _
    simp
  have hc : (mask tt.sr.sr.useds xs).length = tt.sr.sr.useds.count true :=
    mask_count _ _ (by omega)
  refine ⟨_, _, pdStd (mask tt.sr.sr.useds ((xs.map fin).map fun x => x * fin 1e-6)) * fin 1e6, t3, hA,
    ?_, ?_, ?_, ?_⟩
  · simp only [plot_alkalinity, Table.attr_eq htm, Table.flag_eq t3, Table.attr_eq hest, numAttr_eq hA,
      bind_ok]
    rw [e6, usedScatters_eq _ _ _ _ _ (by simp [hu]) (by simp [hu, hall]), countUsed_eq]
    rfl
  · intro s p T hs
    rw [← drawn_used _ _ _ (by simp [hu]) (by simp [hu, hall]), List.map_snd_zip (by
      rw [grams, List.length_map, mask_map, mask_map, List.length_map, List.length_map,
        mask_length_eq (xs := tm) (ys := xs) (by omega)])]
    obtain ⟨f, c', S, kws, hs', -⟩ := C64_call w sys row kw tt hk hn h
    obtain ⟨totals0, tts, mode, -, -, -, -, hd, -⟩ := files_solve_all_ok hs'
    rcases dispatch_cases hd with ⟨_, _, _, -, e, -⟩ | ⟨s', o, -, e, -, hsol⟩ | ⟨_, _, -, e, -⟩
    · rw [hs] at e; cases e
    · rw [hs] at e
      cases e
      obtain ⟨-, -, -, -, -, rfl⟩ := solve_pH_ok hsol
      rw [hs] at ha
      have ha := Option.some.inj ha
      rw [hs, ← ha]
      rfl
    · rw [hs] at e; cases e
  · intro h2
    rw [← hc] at h2 ⊢
    have hne : mask tt.sr.sr.useds xs ≠ [] := by intro e; simp [e] at h2
    rw [mask_map, npStd_map_fin _ hne] at hstd
    refine ⟨_, hstd, ?_⟩
    rw [em, pdStd_fin _ (by rwa [List.length_map]), sampleStd_scale _ _ (by norm_num), sampleStd_eq _ h2]
    simp only [mul_fin]
    congr 1
    ring
  · intro h1
    rw [← hc] at h1
    obtain ⟨x, hx⟩ := List.length_eq_one_iff.mp h1
    rw [mask_map, npStd_map_fin _ (by rw [hx]; simp), hx, rstd_one] at hstd
    refine ⟨hstd, ?_⟩
    rw [em, pdStd_few _ (by rw [List.length_map]; omega)]
    rfl

/-! ## C101: the pH plot -/

/-- Specification: the limit `k` of the pH range of a Titration: the setting, or the default -/
def LimitIs (kw row : Dict Val) (k : String) (d x : Flt) : Prop :=
  titrationSetting kw row k = none ∧ x = d ∨
    ∃ v, titrationSetting kw row k = some v ∧ v.toFlt = .ok x

theorem LimitIs.unique {kw row : Dict Val} {k : String} {d x y : Flt} (h1 : LimitIs kw row k d x)
    (h2 : LimitIs kw row k d y) : x = y := by
  rcases h1 with ⟨h1, rfl⟩ | ⟨v, h1, h3⟩ <;> rcases h2 with ⟨h2, rfl⟩ | ⟨v', h2, h4⟩
  · rfl
  · rw [h1] at h2; cases h2
  · rw [h1] at h2; cases h2
  · rw [h1] at h2
    obtain rfl := Option.some.inj h2
    rw [h3] at h4; exact Except.ok.inj h4

theorem limit_of_arg {w : World} {sys : SysIn → Py SysOut} {row : Series} {kw : Dict Val}
    {tt : Titration} (hk : kw.keys.Nodup) (hn : (nestedArgs kw).keys.Nodup)
    (h : Titration_init w sys row kw = .ok tt) {kws : Dict Val} {k : String} {d x : Flt}
    (hkws : kws.get? k = titrationSetting kw row.dict k) (hr : k ∉ resultNames)
    (ha : argNum kws k d = .ok x) : LimitIs kw row.dict k d x ∧ attrOr tt.row k d = .ok x := by
  have hrow := (C64_row w sys row kw tt hk hn h).1 k hr
  unfold argNum at ha
  rw [hkws] at ha
  unfold LimitIs attrOr Series.hasattr
  rw [hrow]
  cases hv : titrationSetting kw row.dict k with
  | none =>
    rw [hv] at ha
    obtain rfl := Except.ok.inj ha
    exact ⟨.inl ⟨rfl, rfl⟩, rfl⟩
  | some v =>
    rw [hv] at ha
    refine ⟨.inr ⟨v, rfl, ha⟩, ?_⟩
    rw [hv] at hrow
    simp only [Option.isSome_some, if_true, numAttr, Series.getattr, hrow, bind_ok]
    exact ha

/-- the first guess: for EMF titrations only -/
theorem guess_emf {w : World} {sys : SysIn → Py SysOut} {row : Series} {kw : Dict Val}
    {tt : Titration} (hk : kw.keys.Nodup) (hn : (nestedArgs kw).keys.Nodup)
    (h : Titration_init w sys row kw = .ok tt) {s : SolveEmf} {T : List Flt}
    (hs : tt.sr.sr = .emf s T) :
    pH_guess_artists tt true = .ok [
      .points (some "First guess, unused") false
        (drawnAt s.ggr.ga.used false tt.sr.cv.titrant_mass s.ggr.pH),
      .points (some "First guess, used") true
        (drawnAt s.ggr.ga.used true tt.sr.cv.titrant_mass s.ggr.pH)] := by
  have htm := (C87_points w sys row kw tt hk hn h).1
  obtain ⟨-, -, -, g1, g2, -⟩ := emf_gran hk hn h hs
  obtain ⟨t1, t2, -⟩ := titration_table h
  have hu := (t2 _ _ g2).2
  simp only [pH_guess_artists, pH_first_guess, Table.attr_eq htm, Table.flag_eq g2, Table.attr_eq g1,
    bind_ok]
  rw [usedScatters_eq _ _ _ _ _ (by rw [hu]) (by rw [t1 _ _ g1, hu])]
  rfl

theorem guess_pH {w : World} {sys : SysIn → Py SysOut} {row : Series} {kw : Dict Val}
    {tt : Titration} (hk : kw.keys.Nodup) (hn : (nestedArgs kw).keys.Nodup)
    (h : Titration_init w sys row kw = .ok tt) (hs : ∀ s T, tt.sr.sr ≠ .emf s T) :
    pH_guess_artists tt true = .ok [] := by
  have htm := (C87_points w sys row kw tt hk hn h).1
  have hg : tt.t.attr "gran_pH" = .error (.AttributeError "gran_pH") := by
    have : tt.t.nums.get? "gran_pH" = none := by
      apply (early_column hk hn h "gran_pH" (by decide) (by decide) (by decide)).2
      unfold numColumns
      cases hsr : tt.sr.sr with
      | emf s T => exact absurd hsr (hs s T)
      | pH s p T => rfl
      | pH_gran s p T => rfl
    simp [Table.attr, this]
  simp only [pH_guess_artists, pH_first_guess, Table.attr_eq htm, bind_ok]
  cases hf : tt.t.flag "gran_used" with
  | error e =>
    unfold Table.flag at hf
    split at hf
    · cases hf
    · cases hf; rfl
  | ok u => simp only [bind_ok, hg]; rfl

/-- **C101**: `plot_pH` succeeds for every Titration. It shows the `pH` column, filled where the point was
used, and shades the pH range that the titration was solved with. For EMF titrations it also shows the
pH of the first guess, filled where the Gran plot used the point, unless `show_gran=False`. For pH
titrations the filled points are exactly those in the shaded range; for EMF titrations they are those
that were in it with the EMF0 that the solver started from. -/
theorem C101_pH (w : World) (sys : SysIn → Py SysOut) (row : Series) (kw : Dict Val)
    (tt : Titration) (hk : kw.keys.Nodup) (hn : (nestedArgs kw).keys.Nodup)
    (h : Titration_init w sys row kw = .ok tt) (show_gran : Bool) :
    ∃ (u : List Bool) (p : List Flt) (lo hi : Flt) (guess : List Artist),
      tt.t.bools.get? "used" = some u ∧ tt.t.nums.get? "pH" = some p ∧
      u.length = tt.sr.cv.titrant_mass.length ∧ p.length = tt.sr.cv.titrant_mass.length ∧
      LimitIs kw row.dict "pH_min" (fin 3) lo ∧ LimitIs kw row.dict "pH_max" (fin 4) hi ∧
      plot_pH tt show_gran = .ok { artists := guess ++ [
        .points (some "Final, unused") false (drawnAt u false tt.sr.cv.titrant_mass p),
        .points (some "Final, used") true (drawnAt u true tt.sr.cv.titrant_mass p), .band lo hi] } ∧
      ((∀ s T, tt.sr.sr ≠ .emf s T) → guess = [] ∧ InWindow lo hi p u) ∧
      (show_gran = false → guess = []) ∧
      ∀ s T, tt.sr.sr = .emf s T →
        (∃ E p', NernstColumn E tt.sr.emf tt.sr.cv.temperature p' ∧ InWindow lo hi p' u) ∧
        (show_gran = true → ∃ gu gp, tt.t.bools.get? "gran_used" = some gu ∧
          tt.t.nums.get? "gran_pH" = some gp ∧ guess = [
          .points (some "First guess, unused") false (drawnAt gu false tt.sr.cv.titrant_mass gp),
          .points (some "First guess, used") true (drawnAt gu true tt.sr.cv.titrant_mass gp)]) := by
  obtain ⟨t1, t2, t3, -, sin, r, -, hp, -⟩ := titration_table h
  have htm := (C87_points w sys row kw tt hk hn h).1
  have hu := (t2 _ _ t3).2
  have hpl := t1 _ _ hp
  obtain ⟨f, c, S, kws, hs', -, -, -, -, hkws⟩ := C64_call w sys row kw tt hk hn h
  obtain ⟨totals0, tts, mode, -, -, -, -, hd, hemf⟩ := files_solve_all_ok hs'
  obtain ⟨lo, hi, hlo, hhi⟩ := window_numbers hd
  obtain ⟨l1, l2⟩ := limit_of_arg hk hn h (by rw [hkws, if_neg (by decide)]) (by decide) hlo
  obtain ⟨l3, l4⟩ := limit_of_arg hk hn h (by rw [hkws, if_neg (by decide)]) (by decide) hhi
  have hplot : ∀ guess, pH_guess_artists tt show_gran = .ok guess →
      plot_pH tt show_gran = .ok { artists := guess ++ [
        .points (some "Final, unused") false (drawnAt tt.sr.sr.useds false tt.sr.cv.titrant_mass sin.pH),
        .points (some "Final, used") true (drawnAt tt.sr.sr.useds true tt.sr.cv.titrant_mass sin.pH),
        .band lo hi] } := by
    intro guess hg
    simp only [plot_pH, hg, Table.attr_eq htm, Table.flag_eq t3, Table.attr_eq hp, l2, l4, bind_ok]
    rw [usedScatters_eq _ _ _ _ _ (by rw [hu]) (by rw [hpl, hu]), List.append_assoc]
    rfl
  by_cases he : ∃ s T, tt.sr.sr = .emf s T
  · obtain ⟨s, T, hs⟩ := he
    have hw : ∃ E p', NernstColumn E tt.sr.emf tt.sr.cv.temperature p' ∧
        InWindow lo hi p' tt.sr.sr.useds := by
      rw [hs] at hd
      obtain ⟨o, d, o1, o2, hsol⟩ := dispatch_window hd
      rw [hlo] at o1
      rw [hhi] at o2
      obtain ⟨o', p1, p2, -, hlast⟩ := solve_emf_last hsol
      obtain ⟨g, opt, hg, -, -, -, -, -, rfl⟩ := solve_emf_false_iff.mp hlast
      rw [hs, hemf, Except.ok.inj o1, Except.ok.inj o2, ← p1, ← p2]
      exact ⟨_, _, nernst_arr _ _ _, emfStart_window o' g _ _ (gran_guesses_ok hg).2.2⟩
    obtain ⟨-, -, -, g1, g2, -⟩ := emf_gran hk hn h hs
    cases show_gran with
    | true =>
      refine ⟨_, _, lo, hi, _, t3, hp, hu, hpl, l1, l3, hplot _ (guess_emf hk hn h hs),
        fun hne => absurd hs (hne s T), fun e => (by cases e), fun s' T' hs2 => ⟨hw, fun _ => ?_⟩⟩
      exact ⟨_, _, g2, g1, rfl⟩
    | false =>
      exact ⟨_, _, lo, hi, [], t3, hp, hu, hpl, l1, l3, hplot [] rfl,
        fun hne => absurd hs (hne s T), fun _ => rfl, fun s' T' hs2 => ⟨hw, fun e => by cases e⟩⟩
  · have hne : ∀ s T, tt.sr.sr ≠ .emf s T := fun s T e => he ⟨s, T, e⟩
    obtain ⟨u', lo', hi', q1, -, q2, q3, q4, q5, -⟩ := C87_pH w sys row kw tt hk hn h hne
    rw [hp] at q1
    rw [t3] at q2
    have hwin : InWindow lo hi sin.pH tt.sr.sr.useds := by
      rw [Option.some.inj q1, Option.some.inj q2, LimitIs.unique l1 q3, LimitIs.unique l3 q4]
      exact q5
    have hg : pH_guess_artists tt show_gran = .ok [] := by
      cases show_gran with
      | true => exact guess_pH hk hn h hne
      | false => rfl
    exact ⟨_, _, lo, hi, [], t3, hp, hu, hpl, l1, l3, hplot [] hg, fun _ => ⟨rfl, hwin⟩, fun _ => rfl,
      fun s T hs => absurd hs (hne s T)⟩

/-! ## C102: the Gran plots -/

/-- **C102**: for EMF titrations `plot_emf0_gran` shows the estimate of EMF0 from each point, filled where
the Gran plot used it. The line and the title have the `gran_emf0` of the row, which is the mean
height of the filled points. -/
theorem C102_emf0 (w : World) (sys : SysIn → Py SysOut) (row : Series) (kw : Dict Val)
    (tt : Titration) (hk : kw.keys.Nodup) (hn : (nestedArgs kw).keys.Nodup)
    (h : Titration_init w sys row kw = .ok tt) (s : SolveEmf) (T : List Flt)
    (hs : tt.sr.sr = .emf s T) :
    ∃ (u : List Bool) (e : List Flt) (E : Flt),
      tt.t.bools.get? "gran_used" = some u ∧ tt.t.nums.get? "gran_emf0" = some e ∧
      tt.row.dict.get? "gran_emf0" = some (.num E) ∧
      plot_emf0_gran tt = .ok { title := [E], artists := [
        .points (some "Unused") false (drawnAt u false tt.sr.cv.titrant_mass e),
        .points (some "Used") true (drawnAt u true tt.sr.cv.titrant_mass e), .hline E] } ∧
      E = npMean ((drawnAt u true tt.sr.cv.titrant_mass e).map Prod.snd) := by
  have htm := (C87_points w sys row kw tt hk hn h).1
  obtain ⟨-, -, g1, -, g2, g3, -⟩ := emf_gran hk hn h hs
  obtain ⟨t1, t2, -⟩ := titration_table h
  have hu := (t2 _ _ g2).2
  have he := t1 _ _ g1
  have hE := ((Titration_results h).2 s T hs).2.2
  refine ⟨_, _, _, g2, g1, hE, ?_, ?_⟩
  · simp only [plot_emf0_gran, Table.attr_eq htm, Table.flag_eq g2, Table.attr_eq g1, numAttr_eq hE,
      bind_ok]
    rw [usedScatters_eq _ _ _ _ _ (by rw [hu]) (by rw [he, hu])]
    rfl
  · rw [← drawn_used _ _ _ (by rw [hu]) (by rw [he, hu]), List.map_snd_zip (by
      rw [grams, List.length_map, mask_length_eq (xs := tt.sr.cv.titrant_mass)
        (ys := s.ggr.emf0s) (by rw [he])])]
    exact g3

theorem no_gran_used {w : World} {sys : SysIn → Py SysOut} {row : Series} {kw : Dict Val}
    {tt : Titration} (h : Titration_init w sys row kw = .ok tt) {s : SolvePH} {p T : List Flt}
    (hs : tt.sr.sr = .pH s p T) : tt.t.flag "gran_used" = .error (.AttributeError "gran_used") := by
  have := no_flag h "gran_used" (by unfold boolColumns; rw [hs]; rfl)
  simp [Table.flag, this]

/-- **C102**: the other titrations have no such plot: `AttributeError`, and those solved from all their
pH readings have no Gran plot at all. -/
theorem C102_missing (w : World) (sys : SysIn → Py SysOut) (row : Series) (kw : Dict Val)
    (tt : Titration) (hk : kw.keys.Nodup) (hn : (nestedArgs kw).keys.Nodup)
    (h : Titration_init w sys row kw = .ok tt) :
    (∀ s p T, tt.sr.sr = .pH s p T →
      plot_emf0_gran tt = .error (.AttributeError "gran_used") ∧
      plot_alkalinity_gran tt = .error (.AttributeError "gran_used")) ∧
    (∀ s p T, tt.sr.sr = .pH_gran s p T →
      plot_emf0_gran tt = .error (.AttributeError "gran_emf0")) := by
  have htm := (C87_points w sys row kw tt hk hn h).1
  constructor
  · intro s p T hs
    have hf := no_gran_used h hs
    constructor
    · simp only [plot_emf0_gran, Table.attr_eq htm, hf, bind_ok]; rfl
    · simp only [plot_alkalinity_gran, Table.attr_eq htm, hf, bind_ok]; rfl
  · intro s p T hs
    have hu : tt.t.bools.get? "gran_used" = some s.used := by
      apply the_flag h; unfold boolColumns; rw [hs]; rfl
    have hg : tt.t.attr "gran_emf0" = .error (.AttributeError "gran_emf0") := by
      have : tt.t.nums.get? "gran_emf0" = none := by
        apply (early_column hk hn h "gran_emf0" (by decide) (by decide) (by decide)).2
        unfold numColumns; rw [hs]; rfl
      simp [Table.attr, this]
    simp only [plot_emf0_gran, Table.attr_eq htm, Table.flag_eq hu, hg, bind_ok]; rfl

theorem pdMax_fin (xs : List ℝ) (mx : ℝ) (h1 : mx ∈ xs) (h2 : ∀ x ∈ xs, x ≤ mx) :
    pdMax (xs.map fin) = fin mx := by
  unfold pdMax
  rw [filter_fin]
  cases xs with
  | nil => simp at h1
  | cons x xs =>
    obtain ⟨m, k1, k2, e⟩ := foldl_fmax x xs
    simp only [List.map_cons, e]
    rw [le_antisymm (h2 m k1) (k2 mx h1)]

/-- Specification: the picture of a straight line `y = slope x + intercept` in a Gran plot over the
masses `tm` (kg, shown in g): from the zero `x0` of the line to the largest mass, a vertical line
through the zero -/
def GranLine (slope intercept : ℝ) (tm : List ℝ) (ends : List (Flt × Flt)) (v : Flt) : Prop :=
  ∃ x0 : ℝ, slope * x0 + intercept = 0 ∧ v = fin (x0 * 1e3) ∧
    ∀ mx ∈ tm, (∀ m ∈ tm, m ≤ mx) →
      ends = [(fin (x0 * 1e3), fin 0), (fin (mx * 1e3), fin (slope * mx + intercept))]

theorem granLine_of (lr : LinRegress) (tm : List ℝ) (a b : ℝ) (ha : lr.slope = fin a)
    (hb : lr.intercept = fin b) (h0 : a ≠ 0) :
    GranLine a b tm [linePoint lr (-lr.intercept / lr.slope), linePoint lr (pdMax (tm.map fin))]
      (-lr.intercept / lr.slope * fin 1e3) := by
  have hx : -lr.intercept / lr.slope = fin (-b / a) := by
    rw [ha, hb, neg_fin, div_fin _ _ h0]
  refine ⟨-b / a, by field_simp; ring, by rw [hx, mul_fin], fun mx h1 h2 => ?_⟩
  rw [hx, pdMax_fin tm mx h1 h2]
  simp only [linePoint, ha, hb, mul_fin, add_fin]
  have : -b / a * a + b = 0 := by field_simp; ring
  rw [this, mul_comm a mx]

/-- **C102**: for EMF titrations `plot_alkalinity_gran` shows the Gran function, filled where it was
used, the regression line through the filled points and where it is zero. The title has the
`gran_alkalinity` of the row: the acid added up to that zero, per kg of analyte. -/
theorem C102_alkalinity (w : World) (sys : SysIn → Py SysOut) (row : Series) (kw : Dict Val)
    (tt : Titration) (hk : kw.keys.Nodup) (hn : (nestedArgs kw).keys.Nodup)
    (h : Titration_init w sys row kw = .ok tt) (s : SolveEmf) (T : List Flt)
    (hs : tt.sr.sr = .emf s T) :
    ∃ (u : List Bool) (g : List Flt) (A v : Flt) (ends : List (Flt × Flt)) (lr : LinRegress),
      tt.t.bools.get? "gran_used" = some u ∧ tt.t.nums.get? "gran_func" = some g ∧
      tt.row.dict.get? "gran_alkalinity" = some (.num A) ∧
      plot_alkalinity_gran tt = .ok { title := [A], artists := [
        .points (some "Unused") false (drawnAt u false tt.sr.cv.titrant_mass g),
        .points (some "Used") true (drawnAt u true tt.sr.cv.titrant_mass g), .hline (fin 0),
        .line (some "Fit") ends, .vline v] } ∧
      linregress (mask u tt.sr.cv.titrant_mass) (mask u g) = .ok lr ∧
      ∀ (a b : ℝ) (tm : List ℝ), lr.slope = fin a → lr.intercept = fin b → a ≠ 0 →
        tt.sr.cv.titrant_mass = tm.map fin → GranLine a b tm ends v ∧
        ∀ (M c n : ℝ), tt.sr.cv.analyte_mass = fin M → M ≠ 0 →
          titrationSetting kw row.dict "titrant_molinity" = some (.num (fin c)) →
          (titrationSetting kw row.dict "titrant_normality" = some (.num (fin n)) ∨
            titrationSetting kw row.dict "titrant_normality" = none ∧ n = 1) →
          ∃ x0 : ℝ, v = fin (x0 * 1e3) ∧ A = fin (1e6 * (x0 * c * n) / M) := by
  have htm := (C87_points w sys row kw tt hk hn h).1
  obtain ⟨-, g1, -, -, g2, -, g3⟩ := emf_gran hk hn h hs
  obtain ⟨t1, t2, -⟩ := titration_table h
  have hu := (t2 _ _ g2).2
  have he := t1 _ _ g1
  have hA := ((Titration_results h).2 s T hs).2.1
  refine ⟨_, _, _, -s.ggr.ga.lr.intercept / s.ggr.ga.lr.slope * fin 1e3,
    [linePoint s.ggr.ga.lr (-s.ggr.ga.lr.intercept / s.ggr.ga.lr.slope),
      linePoint s.ggr.ga.lr (pdMax tt.sr.cv.titrant_mass)], _, g2, g1, hA, ?_, g3, ?_⟩
  · simp only [plot_alkalinity_gran, Table.attr_eq htm, Table.flag_eq g2, Table.attr_eq g1, gran_fit, hs,
      numAttr_eq hA, bind_ok, pure_ok]
    rw [usedScatters_eq _ _ _ _ _ (by rw [hu]) (by rw [he, hu])]
    rfl
  · intro a b tm ha hb h0 htm'
    rw [htm']
    refine ⟨granLine_of _ tm a b ha hb h0, fun M c n hM hM0 hc hnn => ?_⟩
    obtain ⟨_, _, g', _, _, _, u', _, _, GA, n', lr', -, -, q1, -, -, -, q2, -, -, q3, -, -, -, q4, -, -, -, -, -, q5,
      ⟨v, q6⟩, c', ⟨vc, q7, q8⟩, q9⟩ := C87_emf w sys row kw tt hk hn h s T hs
    rw [g1] at q1
    rw [hA] at q3
    rw [q4, ← Option.some.inj q1, g3] at q5
    obtain rfl := Except.ok.inj q5
    have hc' : c' = fin c := by
      rw [hc] at q7
      rw [← Option.some.inj q7] at q8
      exact (Except.ok.inj q8).symm
    have hn' : n' = fin n := by
      rcases hnn with hnn | ⟨hnn, rfl⟩ <;> rw [hnn] at q6
      · rcases q6 with ⟨-, q6⟩ | ⟨q6, q6'⟩
        · cases q6
        · rw [← Option.some.inj q6] at q6'
          exact (Except.ok.inj q6').symm
      · rcases q6 with ⟨q6, -⟩ | ⟨q6, -⟩
        · exact q6
        · cases q6
    have hx : -s.ggr.ga.lr.intercept / s.ggr.ga.lr.slope = fin (-b / a) := by
      rw [ha, hb, neg_fin, div_fin _ _ h0]
    refine ⟨-b / a, by rw [hx, mul_fin], ?_⟩
    have q3 := Val.num.inj (Option.some.inj q3)
    rw [q3, q9, hx, hc', hn', hM]
    simp only [mul_fin, div_fin _ _ hM0]
    congr 1
    ring

/-- **C102**: likewise for pH titrations solved by a Gran plot, with the `alkalinity` of the row. -/
theorem C102_pH_gran (w : World) (sys : SysIn → Py SysOut) (row : Series) (kw : Dict Val)
    (tt : Titration) (hk : kw.keys.Nodup) (hn : (nestedArgs kw).keys.Nodup)
    (h : Titration_init w sys row kw = .ok tt) (s : SolvePHGran) (p T : List Flt)
    (hs : tt.sr.sr = .pH_gran s p T) :
    ∃ (u : List Bool) (g : List Flt) (A v : Flt) (ends : List (Flt × Flt)) (lr : LinRegress),
      tt.t.bools.get? "gran_used" = some u ∧ tt.t.nums.get? "gran_func" = some g ∧
      tt.row.dict.get? "alkalinity" = some (.num A) ∧
      plot_alkalinity_gran tt = .ok { title := [A], artists := [
        .points (some "Unused") false (drawnAt u false tt.sr.cv.titrant_mass g),
        .points (some "Used") true (drawnAt u true tt.sr.cv.titrant_mass g), .hline (fin 0),
        .line (some "Fit") ends, .vline v] } ∧
      linregress (mask u tt.sr.cv.titrant_mass) (mask u g) = .ok lr ∧
      ∀ (a b : ℝ) (tm : List ℝ), lr.slope = fin a → lr.intercept = fin b → a ≠ 0 →
        tt.sr.cv.titrant_mass = tm.map fin → GranLine a b tm ends v ∧
        ∀ (M c n : ℝ), tt.sr.cv.analyte_mass = fin M → M ≠ 0 →
          titrationSetting kw row.dict "titrant_molinity" = some (.num (fin c)) →
          (titrationSetting kw row.dict "titrant_normality" = some (.num (fin n)) ∨
            titrationSetting kw row.dict "titrant_normality" = none ∧ n = 1) →
          ∃ x0 : ℝ, v = fin (x0 * 1e3) ∧ A = fin (1e6 * (x0 * c * n) / M) := by
  have htm := (C87_points w sys row kw tt hk hn h).1
  obtain ⟨t1, t2, -⟩ := titration_table h
  obtain ⟨g, u, A, c', n', lr, g1, -, g2, hA, ⟨vc, q7, q8⟩, q6, -, g3, q9⟩ :=
    C87_pH_gran w sys row kw tt hk hn h s p T hs
  have hu := (t2 _ _ g2).2
  have he := t1 _ _ g1
  have hlr : s.lr = lr := by
    have hc : (numColumns tt.sr).get? "gran_func" = some (.arr s.gfunc) := by
      unfold numColumns; rw [hs]; rfl
    have e1 := (early_column hk hn h "gran_func" (by decide) (by decide) (by decide)).1 _ hc
    have hb : (boolColumns tt.sr).get? "gran_used" = some s.used := by
      unfold boolColumns; rw [hs]; rfl
    have e2 := the_flag h _ _ hb
    rw [g1] at e1
    rw [g2] at e2
    rw [Option.some.inj e1, Option.some.inj e2] at g3
    obtain ⟨f, c, S, kws, hs', -⟩ := C64_call w sys row kw tt hk hn h
    obtain ⟨totals0, tts, mode, -, -, -, -, hd, hemf⟩ := files_solve_all_ok hs'
    rcases dispatch_cases hd with ⟨_, _, _, -, e, -⟩ | ⟨_, _, -, e, -⟩ | ⟨s', o, -, e, -, hsol⟩
    · rw [hs] at e; cases e
    · rw [hs] at e; cases e
    · rw [hs] at e
      cases e
      unfold solve_pH_gran at hsol
      simp only [bind_ok_iff] at hsol
      obtain ⟨_, -, _, -, lr', hlr, hsol⟩ := hsol
      obtain rfl := Except.ok.inj hsol
      rw [hlr] at g3
      exact Except.ok.inj g3
  refine ⟨u, g, A, -lr.intercept / lr.slope * fin 1e3, [linePoint lr (-lr.intercept / lr.slope),
      linePoint lr (pdMax tt.sr.cv.titrant_mass)], lr, g2, g1, hA, ?_, g3, ?_⟩
  · simp only [plot_alkalinity_gran, Table.attr_eq htm, Table.flag_eq g2, Table.attr_eq g1, gran_fit, hs,
      numAttr_eq hA, bind_ok, pure_ok]
    rw [usedScatters_eq _ _ _ _ _ (by rw [hu]) (by rw [he, hu]), hlr]
    rfl
  · intro a b tm ha hb h0 htm'
    rw [htm']
    refine ⟨granLine_of _ tm a b ha hb h0, fun M c n hM hM0 hc hnn => ?_⟩
    have hc' : c' = fin c := by
      rw [hc] at q7
      rw [← Option.some.inj q7] at q8
      exact (Except.ok.inj q8).symm
    have hn' : n' = fin n := by
      rcases hnn with hnn | ⟨hnn, rfl⟩ <;> rw [hnn] at q6
      · rcases q6 with ⟨q6, -⟩ | ⟨v, q6, q6'⟩
        · cases q6
        · rw [← Option.some.inj q6] at q6'
          exact (Except.ok.inj q6').symm
      · rcases q6 with ⟨-, q6⟩ | ⟨v, q6, -⟩
        · exact q6
        · cases q6
    have hx : -lr.intercept / lr.slope = fin (-b / a) := by
      rw [ha, hb, neg_fin, div_fin _ _ h0]
    refine ⟨-b / a, by rw [hx, mul_fin], ?_⟩
    rw [q9, hx, hc', hn', hM]
    simp only [mul_fin, div_fin _ _ hM0]
    congr 1
    ring

/-! ## C106: the loss plots -/

/-- **C106**: `plot.titration.dic_loss` and `fCO2_loss` draw no figure for any Titration: they call
methods that a Titration does not have. -/
theorem C106_never (tt : Titration) (fig : Figure) : plot_loss tt ≠ .ok fig := by
  intro h
  unfold plot_loss at h
  obtain ⟨_, h1, -⟩ := bind_ok_iff.mp h
  have hcall : ∀ k u, callAttr tt.row k ≠ .ok u := by
    intro k u hk
    unfold callAttr at hk
    obtain ⟨_, -, hk⟩ := bind_ok_iff.mp hk
    cases hk
  unfold loss_hires at h1
  split at h1
  · exact hcall _ _ h1
  · obtain ⟨_, h2, -⟩ := bind_ok_iff.mp h1
    exact hcall _ _ h2

/-- **C106**: with a row that has no columns of these names, the error is an `AttributeError`. -/
theorem C106_error (tt : Titration) (h1 : tt.row.dict.get? "get_dic_loss" = none)
    (h2 : tt.row.dict.get? "_get_dic_loss_hires" = none) :
    ∃ a, plot_loss tt = .error (.AttributeError a) := by
  unfold plot_loss loss_hires callAttr Series.getattr
  rw [h1, h2]
  split
  · exact ⟨_, rfl⟩
  · exact ⟨_, rfl⟩

end Calk
