import Verif.Props.DatasetResults

/-!
# Property C87: what the table of a `Titration` holds
-/

namespace Calk
open Flt Spec

/-! ## From the first table to the last -/

/-- columns that are computed after the table is made -/
def lateColumns : List String :=
  ["alkalinity_from_acid", "dilution_factor", "alkalinity_from_pH", "k_CO2", "HCO3", "CO3", "BOH4",
    "PO4", "HPO4", "H3PO4", "HSO4", "HF", "H3SiO4", "NH3", "HS", "OH", "H", "alk_alpha", "alk_beta",
    "alkalinity_estimate"]

theorem put_bools {t t' : Table} {c : String} {xs : List Flt} (h : t.put c xs = .ok t') :
    t'.bools = t.bools := by
  unfold Table.put at h
  split at h
  · rw [← Except.ok.inj h]
  · cases h

theorem putAll_bools {l : List (String × List Flt)} {t t' : Table} (h : t.putAll l = .ok t') :
    t'.bools = t.bools := by
  induction l generalizing t with
  | nil => rw [← Except.ok.inj h]
  | cons e l ih =>
    simp only [Table.putAll, bind_ok_iff] at h
    obtain ⟨t1, h1, h⟩ := h
    rw [ih h, put_bools h1]

theorem acid_bools {row : Series} {t t' : Table} (h : get_alkalinity_from_acid row t = .ok t') :
    t'.bools = t.bools := by
  unfold get_alkalinity_from_acid at h
  simp only [bind_ok_iff] at h
  obtain ⟨A, -, M, -, tm, -, c, -, h⟩ := h
  exact put_bools h

theorem co2sys_more {sys : SysIn → Py SysOut} {row : Series} {t t' : Table}
    (h : do_CO2SYS sys row t = .ok t') :
    t'.bools = t.bools ∧ ∃ pH, t.nums.get? "pH" = some pH ∧
      t'.nums.get? "H" = some (pH.map fun p => Flt.pow10 (-p)) := by
  unfold do_CO2SYS at h
  simp only [bind_ok_iff] at h
  obtain ⟨tm, h1, M, h2, t1, h3, dic, h4, pH, h5, S, h6, T, h7, r, h8, t2, h9, c, h10, h⟩ := h
  refine ⟨by rw [put_bools h, putAll_bools h9, put_bools h3], pH, ?_, ?_⟩
  · have := attr_ok h5
    rwa [(put_ok h3).2.2, if_neg (by decide)] at this
  · rw [(put_ok h).2.2, if_neg (by decide)]
    refine (putAll_ok h9).2.2.2 ?_ ("H", pH.map fun p => Flt.pow10 (-p)) (by simp)
    have : (List.map Prod.fst ([("alkalinity_from_pH", micro r.alkalinity), ("k_CO2", r.k_CO2)] ++
      (sysComps.map fun c => (c, micro (r.comps c))) ++
      [("H", pH.map fun p => Flt.pow10 (-p)), ("alk_alpha", micro r.alkalinity_alpha),
        ("alk_beta", micro r.alkalinity_beta)])) = ["alkalinity_from_pH", "k_CO2", "HCO3", "CO3",
        "BOH4", "PO4", "HPO4", "H3PO4", "HSO4", "HF", "H3SiO4", "NH3", "HS", "OH", "H", "alk_alpha",
        "alk_beta"] := by simp [sysComps]
    rw [this]
    decide

theorem table_keeps {w : World} {sys : SysIn → Py SysOut} {row : Series} {kw : Dict Val}
    {tt : Titration} (h : Titration_init w sys row kw = .ok tt) :
    ∃ t0, makeTable tt.sr = .ok t0 ∧ tt.t.bools = t0.bools ∧
      (∀ k ∉ lateColumns, tt.t.nums.get? k = t0.nums.get? k) ∧
      ∃ pH, t0.nums.get? "pH" = some pH ∧
        tt.t.nums.get? "H" = some (pH.map fun p => Flt.pow10 (-p)) := by
  obtain ⟨row', t0, t1, h1, h2, h3, h4, h5, h6⟩ := Titration_ok h
  obtain ⟨A, M1, tm1, c1, a1, a2, a3, a4, a5, a6, a7⟩ := acid_ok h5
  obtain ⟨tm2, M2, t2, dic, pH2, T, S, r, c2, b1, b2, b3, b4, b5, b6, b7, b8, b9, b10, b11, b12, b13⟩
    := co2sys_ok h6
  obtain ⟨m1, pH, m2, m3⟩ := co2sys_more h6
  refine ⟨t0, h4, by rw [m1, acid_bools h5], ?_, pH, ?_, m3⟩
  · intro k hk
    simp only [lateColumns, List.mem_cons, List.not_mem_nil, or_false, not_or] at hk
    rw [b11 k (by simp only [List.mem_cons, List.not_mem_nil, or_false, not_or]; tauto), b5,
      if_neg hk.2.1, a7, if_neg hk.1]
  · rwa [a7, if_neg (by decide)] at m2

theorem makeTable_bools {o : SolveOut} {t : Table} (h : makeTable o = .ok t) (k : String)
    {u : List Bool} (hk : (boolColumns o).get? k = some u) :
    t.bools.get? k = some u ∧ u.length = o.cv.titrant_mass.length := by
  unfold makeTable at h
  simp only [bind_ok_iff] at h
  obtain ⟨nums, -, bools, h2, h⟩ := h
  have h := Except.ok.inj h
  subst h
  rcases mapValsM_get? _ _ _ h2 k with ⟨h3, -⟩ | ⟨v, u', h3, h4, h5⟩
  · rw [hk] at h3; cases h3
  · rw [hk] at h3
    obtain rfl := Option.some.inj h3
    unfold checkBools at h4
    split at h4
    · rename_i hl
      obtain rfl := Except.ok.inj h4
      exact ⟨h5, hl⟩
    · cases h4

/-! ## The row -/

/-- results of a solve as cells of the row that a Titration keeps -/
theorem Titration_results {w : World} {sys : SysIn → Py SysOut} {row : Series} {kw : Dict Val}
    {tt : Titration} (h : Titration_init w sys row kw = .ok tt) :
    tt.row.dict.get? "alkalinity_npts" = some (.num (fin (tt.sr.sr.useds.count true : ℕ))) ∧
    ∀ sr T, tt.sr.sr = .emf sr T →
      tt.row.dict.get? "emf0" = some (.num sr.emf0) ∧
      tt.row.dict.get? "gran_alkalinity" = some (.num (sr.ggr.ga.alkalinity * fin 1e6)) ∧
      tt.row.dict.get? "gran_emf0" = some (.num sr.ggr.emf0) := by
  obtain ⟨row', t0, t1, -, -, h3, -⟩ := Titration_ok h
  unfold resultRow at h3
  rcases hx : add_solve_results tt.sr.sr row'.val with ⟨r, val⟩
  rw [hx] at h3
  cases r with
  | error e => cases h3
  | ok u =>
    have h3 := Except.ok.inj h3
    rw [← h3]
    have hv : ∀ k v, k ∈ resultLabels tt.sr.sr → val k = v →
        (Series.mk ((resultLabels tt.sr.sr).foldl addCol row'.labels) val).dict.get? k = some v := by
      intro k v hk he
      rw [Series.dict_get?]
      simp only [mem_foldl_addCol, he]
      rw [if_pos (.inr hk)]
    cases hs : tt.sr.sr with
    | emf sr T =>
      rw [hs] at hx hv
      have hval : val "alkalinity_npts" = .num (fin (sr.used.count true : ℕ)) ∧
          val "emf0" = .num sr.emf0 ∧ val "gran_alkalinity" = .num (sr.ggr.ga.alkalinity * fin 1e6) ∧
          val "gran_emf0" = .num sr.ggr.emf0 := by
        have e : val = (add_solve_results (.emf sr T) row'.val).2 := by rw [hx]
        rw [e]
        rcases hp : sr.pH with _ | ⟨p, ps⟩ <;> rcases T with _ | ⟨t, ts⟩ <;>
        simp [add_solve_results, putNum, putFirst, hp, PyS.bind_apply, PyS.modify, PyS.raise, Row.put,
          countUsed_eq]
      refine ⟨hv _ _ (by simp [resultLabels]) hval.1, ?_⟩
      rintro sr' T' e
      cases e
      exact ⟨hv _ _ (by simp [resultLabels]) hval.2.1, hv _ _ (by simp [resultLabels]) hval.2.2.1,
        hv _ _ (by simp [resultLabels]) hval.2.2.2⟩
    | pH sr ph T =>
      rw [hs] at hx hv
      refine ⟨hv _ _ (by simp [resultLabels]) ?_, fun _ _ e => by cases e⟩
      have e : val = (add_solve_results (.pH sr ph T) row'.val).2 := by rw [hx]
      rw [e]
      rcases ph with _ | ⟨p, ps⟩ <;> rcases T with _ | ⟨t, ts⟩ <;>
      simp [add_solve_results, putNum, putFirst, PyS.bind_apply, PyS.modify, PyS.raise, Row.put,
        countUsed_eq, SolveRes.useds]
    | pH_gran sr ph T =>
      rw [hs] at hx hv
      refine ⟨hv _ _ (by simp [resultLabels]) ?_, fun _ _ e => by cases e⟩
      have e : val = (add_solve_results (.pH_gran sr ph T) row'.val).2 := by rw [hx]
      rw [e]
      rcases ph with _ | ⟨p, ps⟩ <;> rcases T with _ | ⟨t, ts⟩ <;>
      simp [add_solve_results, putNum, putFirst, PyS.bind_apply, PyS.modify, PyS.raise, Row.put,
        countUsed_eq, SolveRes.useds]

/-! ## C87 -/

/-- the pH values `p` correspond to the readings `e` of an ideal electrode with the given EMF0 -/
def NernstColumn (E0 : Flt) (emf T pH : List Flt) : Prop :=
  ∀ (i : ℕ) (e0 e t : ℝ), E0 = fin e0 → emf[i]? = some (fin e) → T[i]? = some (fin t) → -273.15 < t →
    ∃ p : ℝ, pH[i]? = some (fin p) ∧ e = nernst e0 t ((10 : ℝ) ^ (-p))

theorem nernst_arr (E0 : Flt) (emf T : List Flt) : NernstColumn E0 emf T (emf_to_pH_arr emf E0 T) := by
  rintro i e0 e t rfl he ht h
  refine ⟨-((e - e0) / (nslope t * Real.log 10)), ?_, ?_⟩
  · rw [emf_to_pH_arr, List.getElem?_zipWith, he, ht]
    simp only [emf_to_pH_fin h]
  · have h0 : 8.3144621 * (t + 273.15) / 96.4853365 = nslope t := by
      simp [nslope, ideal_gas, faraday, absolute_zero]
    have := nslope_pos h
    have := log10_pos
    rw [nernst, h0, Real.log_rpow (by norm_num)]
    field_simp
    ring

/-- the `used` points: readings in the pH window -/
def InWindow (lo hi : Flt) (pH : List Flt) (u : List Bool) : Prop :=
  u.length = pH.length ∧ ∀ (i : ℕ) (p : Flt), pH[i]? = some p →
    u[i]? = some (lo.le p && p.le hi)

theorem inWindow_used (pH : List Flt) (lo hi : Flt) : InWindow lo hi pH (pH_used pH lo hi) := by
  refine ⟨by simp [pH_used], fun i p hp => ?_⟩
  simp [pH_used, hp]

/-- what `files.solve` found, taken apart -/
theorem dispatch_cases {w : World} {mode : String} {cv : Converted} {c : Flt}
    {totals ks : Dict NpVal} {kw : Dict Val} {sr : SolveRes}
    (h : solve_dispatch w mode cv c totals ks kw = .ok sr) :
    (∃ s o d, (mode = "emf" ∨ mode = "ph_adjust") ∧ sr = .emf s cv.temperature ∧
      argNum kw "titrant_normality" (fin 1) = .ok o.titrant_normality ∧
      solve_emf w.ls c cv.titrant_mass (echoed_emf mode cv) cv.temperature cv.analyte_mass totals ks
        o d = .ok s) ∨
    (∃ s o, mode = "ph" ∧ sr = .pH s cv.measurement cv.temperature ∧
      ph_opts (get_kwargs_for keys_solve_pH kw none) = .ok o ∧
      solve_pH c cv.titrant_mass cv.measurement cv.analyte_mass totals ks o = .ok s) ∨
    (∃ s o, mode = "ph_gran" ∧ sr = .pH_gran s cv.measurement cv.temperature ∧
      ph_opts (get_kwargs_for keys_solve_pH_gran kw none) = .ok o ∧
      solve_pH_gran c cv.titrant_mass cv.measurement cv.analyte_mass o = .ok s) := by
  unfold solve_dispatch at h
  split at h
  · rename_i hm
    simp only [bind_ok_iff] at h
    obtain ⟨⟨o, d⟩, ho, s, hs, h⟩ := h
    have hn := emf_opts_normality ho
    rw [argNum_kwargs (by decide)] at hn
    refine .inl ⟨s, o, d, .inl hm, (Except.ok.inj h).symm, hn, ?_⟩
    unfold echoed_emf
    rw [if_neg (by rw [hm]; decide)]
    exact hs
  · split at h
    · rename_i hm
      simp only [bind_ok_iff] at h
      obtain ⟨⟨o, d⟩, ho, emf, he, s, hs, h⟩ := h
      have hn := emf_opts_normality ho
      rw [argNum_set _ _ _ (by decide), argNum_kwargs (by decide)] at hn
      refine .inl ⟨s, o, d, .inr hm, (Except.ok.inj h).symm, hn, ?_⟩
      unfold pH_to_emf_arr at he
      obtain ⟨_, -, he⟩ := bind_ok_iff.mp he
      unfold echoed_emf
      rw [if_pos hm, Except.ok.inj he]
      exact hs
    · split at h
      · rename_i hm
        simp only [bind_ok_iff] at h
        obtain ⟨o, ho, s, hs, h⟩ := h
        exact .inr (.inl ⟨s, o, hm, (Except.ok.inj h).symm, ho, hs⟩)
      · split at h
        · rename_i hm
          simp only [bind_ok_iff] at h
          obtain ⟨o, ho, s, hs, h⟩ := h
          exact .inr (.inr ⟨s, o, hm, (Except.ok.inj h).symm, ho, hs⟩)
        · cases h

/-- **C87**: the first columns of the table are the titrant masses and temperatures of the titration;
`H` is ten to the power of minus the `pH` column. -/
theorem C87_points (w : World) (sys : SysIn → Py SysOut) (row : Series) (kw : Dict Val)
    (tt : Titration) (hk : kw.keys.Nodup) (hn : (nestedArgs kw).keys.Nodup)
    (h : Titration_init w sys row kw = .ok tt) :
    tt.t.nums.get? "titrant_mass" = some tt.sr.cv.titrant_mass ∧
    tt.t.nums.get? "temperature" = some tt.sr.cv.temperature ∧
    ∃ pH H, tt.t.nums.get? "pH" = some pH ∧ tt.t.nums.get? "H" = some H ∧
      ∀ (i : ℕ) (p : ℝ), pH[i]? = some (fin p) → H[i]? = some (fin ((10 : ℝ) ^ (-p))) := by
  obtain ⟨f, c, S, kws, hs, -⟩ := C64_call w sys row kw tt hk hn h
  have hnm := names_of_solve hs
  obtain ⟨t0, ht0, -, hnum, pH, hp, hH⟩ := table_keeps h
  obtain ⟨e1, e2, e3⟩ := numColumns_get tt.sr
  have hT : tt.sr.sr.temperatures = tt.sr.cv.temperature := by
    obtain ⟨totals0, tts, mode, -, -, -, -, hd, -⟩ := files_solve_all_ok hs
    rcases dispatch_cases hd with ⟨s, o, d, -, e, -, -⟩ | ⟨s, o, -, e, -⟩ | ⟨s, o, -, e, -⟩ <;>
    rw [e] <;> rfl
  refine ⟨?_, ?_, pH, _, ?_, hH, ?_⟩
  · rw [hnum _ (by decide), (column_of_num hnm ht0 (by decide) (by decide) e1).1]
  · rw [hnum _ (by decide), (column_of_num hnm ht0 (by decide) (by decide) e2).1, hT]
  · rw [hnum _ (by decide), hp]
  · intro i p hi
    rw [List.getElem?_map, hi]
    simp

/-- **C87**: for EMF titrations the table has the readings, and the pH that they mean with the EMF0 in
the row; also the Gran plot: its function, and per point its EMF0, whose mean over the points marked
`gran_used` is the `gran_emf0` in the row; the fitted line through those points gives the row's
`gran_alkalinity`. The row counts the points marked `used`. -/
theorem C87_emf (w : World) (sys : SysIn → Py SysOut) (row : Series) (kw : Dict Val)
    (tt : Titration) (hk : kw.keys.Nodup) (hn : (nestedArgs kw).keys.Nodup)
    (h : Titration_init w sys row kw = .ok tt) (s : SolveEmf) (T : List Flt)
    (hs : tt.sr.sr = .emf s T) :
    ∃ (emf pH gfunc gemf0 gpH : List Flt) (used gused : List Bool) (E0 GE0 GA n : Flt) (lr : LinRegress),
      tt.t.nums.get? "emf" = some emf ∧ tt.t.nums.get? "pH" = some pH ∧
      tt.t.nums.get? "gran_func" = some gfunc ∧ tt.t.nums.get? "gran_emf0" = some gemf0 ∧
      tt.t.nums.get? "gran_pH" = some gpH ∧ tt.t.bools.get? "used" = some used ∧
      tt.t.bools.get? "gran_used" = some gused ∧
      tt.row.dict.get? "emf0" = some (.num E0) ∧ tt.row.dict.get? "gran_emf0" = some (.num GE0) ∧
      tt.row.dict.get? "gran_alkalinity" = some (.num GA) ∧
      tt.row.dict.get? "alkalinity_npts" = some (.num (fin (used.count true : ℕ))) ∧
      emf = tt.sr.emf ∧ used = s.used ∧ gused = s.ggr.ga.used ∧ used.length = tt.sr.cv.titrant_mass.length ∧
      NernstColumn E0 emf tt.sr.cv.temperature pH ∧ NernstColumn GE0 emf tt.sr.cv.temperature gpH ∧
      (∀ (i : ℕ) (M m e t : ℝ), tt.sr.cv.analyte_mass = fin M → tt.sr.cv.titrant_mass[i]? = some (fin m) →
        emf[i]? = some (fin e) → tt.sr.cv.temperature[i]? = some (fin t) → -273.15 < t →
        gfunc[i]? = some (fin (Spec.gran M (m, e, t)))) ∧
      GE0 = npMean (mask gused gemf0) ∧
      linregress (mask gused tt.sr.cv.titrant_mass) (mask gused gfunc) = .ok lr ∧
      (∃ v, n = fin 1 ∧ titrationSetting kw row.dict "titrant_normality" = none ∨
        titrationSetting kw row.dict "titrant_normality" = some v ∧ v.toFlt = .ok n) ∧
      ∃ c, (∃ v, titrationSetting kw row.dict "titrant_molinity" = some v ∧ v.toFlt = .ok c) ∧
        GA = -lr.intercept / lr.slope * c * n / tt.sr.cv.analyte_mass * fin 1e6 := by
  obtain ⟨f, c, S, kws, hs', -, -, hc, -, hkws⟩ := C64_call w sys row kw tt hk hn h
  have hnm := names_of_solve hs'
  obtain ⟨t0, ht0, hb, hnum, -⟩ := table_keeps h
  obtain ⟨hnpts, hres⟩ := Titration_results h
  obtain ⟨r1, r2, r3⟩ := hres s T hs
  obtain ⟨totals0, tts, mode, -, -, -, -, hd, hemf⟩ := files_solve_all_ok hs'
  rcases dispatch_cases hd with ⟨s', o, d, -, e, hno, hsol⟩ | ⟨s, o, -, e, -⟩ | ⟨s, o, -, e, -⟩
  · rw [hs] at e
    cases e
    have col : ∀ (k : String) (xs : List Flt), k ∈ ["emf", "pH", "gran_func", "gran_emf0", "gran_pH"] →
        (numColumns tt.sr).get? k = some (.arr xs) → tt.t.nums.get? k = some xs := by
      intro k xs hkk hx
      have h1 : ∀ k ∈ ["emf", "pH", "gran_func", "gran_emf0", "gran_pH"], k ∉ lateColumns ∧
        isConstant k = false ∧ k ∉ totalNames := by decide
      obtain ⟨g1, g2, g3⟩ := h1 k hkk
      rw [hnum k g1, (column_of_num hnm ht0 g2 g3 hx).1]
    have hnc : numColumns tt.sr = [ ("titrant_mass", .arr tt.sr.cv.titrant_mass),
      ("temperature", .arr tt.sr.cv.temperature), ("pH", .arr s.pH), ("emf", .arr tt.sr.emf),
      ("gran_func", .arr s.ggr.ga.gfunc), ("gran_emf0", .arr s.ggr.emf0s),
      ("gran_pH", .arr s.ggr.pH) ] := by
      unfold numColumns
      simp only [hs, SolveRes.temperatures, SolveRes.pHs, List.cons_append, List.nil_append]
    have hbc : boolColumns tt.sr = [("used", s.used), ("gran_used", s.ggr.ga.used)] := by
      unfold boolColumns
      simp only [hs, SolveRes.useds, List.cons_append, List.nil_append]
    obtain ⟨u1, u2⟩ := makeTable_bools ht0 "used" (u := s.used) (by rw [hbc]; rfl)
    obtain ⟨u3, u4⟩ := makeTable_bools ht0 "gran_used" (u := s.ggr.ga.used) (by rw [hbc]; rfl)
    rw [← hemf] at hsol
    obtain ⟨o', -, -, hn', hlast⟩ := solve_emf_last hsol
    obtain ⟨g, opt, hg, -, -, -, -, -, rfl⟩ := solve_emf_false_iff.mp hlast
    have hgp := (gran_guesses_ok hg).2.2
    simp only [emfResult] at *
    unfold gran_guesses at hg
    simp only [bind_ok_iff] at hg
    obtain ⟨ga, hga, hg⟩ := hg
    obtain rfl := Except.ok.inj hg
    unfold gran_alkalinity at hga
    simp only [bind_ok_iff] at hga
    obtain ⟨_, -, gu, hgu, lr, hlr, hga⟩ := hga
    obtain rfl := Except.ok.inj hga
    refine ⟨_, _, _, _, _, _, _, _, _, _, o'.titrant_normality, lr, col "emf" _ (by decide) (by rw [hnc]; rfl),
      col "pH" _ (by decide) (by rw [hnc]; rfl), col "gran_func" _ (by decide) (by rw [hnc]; rfl),
      col "gran_emf0" _ (by decide) (by rw [hnc]; rfl), col "gran_pH" _ (by decide) (by rw [hnc]; rfl),
      by rw [hb]; exact u1, by rw [hb]; exact u3, r1, r3, r2, ?_, rfl, rfl, rfl, u2, nernst_arr _ _ _, ?_, ?_, rfl,
      hlr, ?_, c,
      hc, rfl⟩
    · rw [hnpts, hs]; rfl
    · exact nernst_arr _ _ _
    · intro i M m e t hM hm he ht hpos
      rw [zip3With, List.getElem?_zipWith, hm, hM]
      have : (tt.sr.emf.zip tt.sr.cv.temperature)[i]? = some (fin e, fin t) := by
        rw [List.getElem?_zip_eq_some]; exact ⟨he, ht⟩
      rw [this]
      exact congrArg some (gran_function_fin hpos)
    · unfold argNum at hno
      rw [hkws, if_neg (by decide)] at hno
      rw [hn']
      cases hv : titrationSetting kw row.dict "titrant_normality" with
      | none =>
        rw [hv] at hno
        exact ⟨.none, .inl ⟨(Except.ok.inj hno).symm, rfl⟩⟩
      | some v =>
        rw [hv] at hno
        exact ⟨v, .inr ⟨rfl, hno⟩⟩
  · rw [hs] at e; cases e
  · rw [hs] at e; cases e

/-- **C87**: for pH titrations the `pH` column holds the readings, `used` marks those in the pH window
and the row counts them. -/
theorem C87_pH (w : World) (sys : SysIn → Py SysOut) (row : Series) (kw : Dict Val)
    (tt : Titration) (hk : kw.keys.Nodup) (hn : (nestedArgs kw).keys.Nodup)
    (h : Titration_init w sys row kw = .ok tt) (hs : ∀ s T, tt.sr.sr ≠ .emf s T) :
    ∃ (used : List Bool) (lo hi : Flt),
      tt.t.nums.get? "pH" = some tt.sr.cv.measurement ∧ tt.t.nums.get? "emf" = none ∧
      tt.t.bools.get? "used" = some used ∧
      (titrationSetting kw row.dict "pH_min" = none ∧ lo = fin 3 ∨
        ∃ v, titrationSetting kw row.dict "pH_min" = some v ∧ v.toFlt = .ok lo) ∧
      (titrationSetting kw row.dict "pH_max" = none ∧ hi = fin 4 ∨
        ∃ v, titrationSetting kw row.dict "pH_max" = some v ∧ v.toFlt = .ok hi) ∧
      InWindow lo hi tt.sr.cv.measurement used ∧
      tt.row.dict.get? "alkalinity_npts" = some (.num (fin (used.count true : ℕ))) := by
  obtain ⟨f, c, S, kws, hs', -, -, -, -, hkws⟩ := C64_call w sys row kw tt hk hn h
  have hnm := names_of_solve hs'
  obtain ⟨t0, ht0, hb, hnum, -⟩ := table_keeps h
  obtain ⟨hnpts, -⟩ := Titration_results h
  obtain ⟨totals0, tts, mode, -, -, -, -, hd, hemf⟩ := files_solve_all_ok hs'
  have hemf' : (numColumns tt.sr).get? "emf" = none := by
    unfold numColumns
    cases hc : tt.sr.sr with
    | emf s T => exact absurd hc (hs s T)
    | pH s p T => rfl
    | pH_gran s p T => rfl
  have hbool : (boolColumns tt.sr).get? "used" = some tt.sr.sr.useds := by
    unfold boolColumns
    cases hc : tt.sr.sr <;> rfl
  have arg : ∀ (k : String) (d x : Flt), k ∉ ["file_name", "titrant_molinity", "salinity"] →
      argNum kws k d = .ok x → titrationSetting kw row.dict k = none ∧ x = d ∨
        ∃ v, titrationSetting kw row.dict k = some v ∧ v.toFlt = .ok x := by
    intro k d x hk hx
    unfold argNum at hx
    rw [hkws, if_neg hk] at hx
    cases hv : titrationSetting kw row.dict k with
    | none => rw [hv] at hx; exact .inl ⟨rfl, (Except.ok.inj hx).symm⟩
    | some v => rw [hv] at hx; exact .inr ⟨v, rfl, hx⟩
  have opts : ∀ (keys : List String) (o : PHOpts), "pH_min" ∈ keys → "pH_max" ∈ keys →
      ph_opts (get_kwargs_for keys kws none) = .ok o →
      argNum kws "pH_min" (fin 3) = .ok o.pH_min ∧ argNum kws "pH_max" (fin 4) = .ok o.pH_max := by
    intro keys o h1 h2 ho
    unfold ph_opts at ho
    simp only [bind_ok_iff] at ho
    obtain ⟨c1, hc1, c2, hc2, n, -, ho⟩ := ho
    rw [argNum_kwargs h1] at hc1
    rw [argNum_kwargs h2] at hc2
    rw [← Except.ok.inj ho]
    exact ⟨hc1, hc2⟩
  obtain ⟨e1, e2, e3⟩ := numColumns_get tt.sr
  obtain ⟨u1, -⟩ := makeTable_bools ht0 "used" hbool
  have hpc : tt.t.nums.get? "pH" = some tt.sr.sr.pHs := by
    rw [hnum _ (by decide), (column_of_num hnm ht0 (by decide) (by decide) e3).1]
  have hne : tt.t.nums.get? "emf" = none := by
    rw [hnum _ (by decide)]
    rcases (makeTable_ok ht0).2 "emf" with ⟨-, h2⟩ | ⟨v, xs, h2, -, -⟩
    · exact h2
    · rw [allColumns_num hnm (by decide) (by decide), hemf'] at h2; cases h2
  rcases dispatch_cases hd with ⟨s, o, d, -, e, -, -⟩ | ⟨s, o, -, e, ho, hsol⟩ | ⟨s, o, -, e, ho, hsol⟩
  · exact absurd e (hs _ _)
  · obtain ⟨o1, o2⟩ := opts _ o (by decide) (by decide) ho
    rw [e] at hpc u1 hnpts
    refine ⟨s.used, o.pH_min, o.pH_max, hpc, hne, by rw [hb]; exact u1, arg _ _ _ (by decide) o1,
      arg _ _ _ (by decide) o2, ?_, hnpts⟩
    rw [(solve_pH_ok hsol).2.2.2.2.2]
    exact inWindow_used _ _ _
  · obtain ⟨o1, o2⟩ := opts _ o (by decide) (by decide) ho
    rw [e] at hpc u1 hnpts
    refine ⟨s.used, o.pH_min, o.pH_max, hpc, hne, by rw [hb]; exact u1, arg _ _ _ (by decide) o1,
      arg _ _ _ (by decide) o2, ?_, hnpts⟩
    have : s.used = pH_used tt.sr.cv.measurement o.pH_min o.pH_max := by
      unfold solve_pH_gran at hsol
      simp only [bind_ok_iff] at hsol
      obtain ⟨_, -, _, -, lr, -, hsol⟩ := hsol
      rw [← Except.ok.inj hsol]
    rw [this]
    exact inWindow_used _ _ _

/-- **C87**: for pH titrations solved by a Gran plot the table has the plot: its function is the mass of
the mixture times ten to the power of minus the pH reading; the line through the points marked
`gran_used`, which are those marked `used`, gives the alkalinity in the row. -/
theorem C87_pH_gran (w : World) (sys : SysIn → Py SysOut) (row : Series) (kw : Dict Val)
    (tt : Titration) (hk : kw.keys.Nodup) (hn : (nestedArgs kw).keys.Nodup)
    (h : Titration_init w sys row kw = .ok tt) (s : SolvePHGran) (p T : List Flt)
    (hs : tt.sr.sr = .pH_gran s p T) :
    ∃ (gfunc : List Flt) (used : List Bool) (A c n : Flt) (lr : LinRegress),
      tt.t.nums.get? "gran_func" = some gfunc ∧ tt.t.bools.get? "used" = some used ∧
      tt.t.bools.get? "gran_used" = some used ∧ tt.row.dict.get? "alkalinity" = some (.num A) ∧
      (∃ v, titrationSetting kw row.dict "titrant_molinity" = some v ∧ v.toFlt = .ok c) ∧
      (titrationSetting kw row.dict "titrant_normality" = none ∧ n = fin 1 ∨
        ∃ v, titrationSetting kw row.dict "titrant_normality" = some v ∧ v.toFlt = .ok n) ∧
      (∀ (i : ℕ) (M m x : ℝ), tt.sr.cv.analyte_mass = fin M → tt.sr.cv.titrant_mass[i]? = some (fin m) →
        tt.sr.cv.measurement[i]? = some (fin x) → gfunc[i]? = some (fin ((m + M) * (10 : ℝ) ^ (-x)))) ∧
      linregress (mask used tt.sr.cv.titrant_mass) (mask used gfunc) = .ok lr ∧
      A = fin 1e6 * (-lr.intercept / lr.slope * c * n / tt.sr.cv.analyte_mass) := by
  obtain ⟨f, c, S, kws, hs', -, -, hc, -, hkws⟩ := C64_call w sys row kw tt hk hn h
  have hnm := names_of_solve hs'
  obtain ⟨t0, ht0, hb, hnum, -⟩ := table_keeps h
  obtain ⟨row', _, _, -, -, hrow, -⟩ := Titration_ok h
  have hA := (resultRow_ok hrow).2
  obtain ⟨totals0, tts, mode, -, -, -, -, hd, -⟩ := files_solve_all_ok hs'
  rcases dispatch_cases hd with ⟨_, _, _, -, e, -, -⟩ | ⟨_, _, -, e, -, -⟩ | ⟨s', o, -, e, ho, hsol⟩
  · rw [hs] at e; cases e
  · rw [hs] at e; cases e
  · rw [hs] at e
    cases e
    have hg : (numColumns tt.sr).get? "gran_func" = some (.arr s.gfunc) := by
      unfold numColumns; simp only [hs]; rfl
    have hu : (boolColumns tt.sr).get? "used" = some s.used := by
      unfold boolColumns; simp only [hs]; rfl
    have hgu : (boolColumns tt.sr).get? "gran_used" = some s.used := by
      unfold boolColumns; simp only [hs]; rfl
    have hn : argNum kws "titrant_normality" (fin 1) = .ok o.titrant_normality := by
      unfold ph_opts at ho
      simp only [bind_ok_iff] at ho
      obtain ⟨c1, -, c2, -, n, hn, ho⟩ := ho
      rw [argNum_kwargs (by decide)] at hn
      rw [hn, ← Except.ok.inj ho]
    unfold solve_pH_gran at hsol
    simp only [bind_ok_iff] at hsol
    obtain ⟨_, -, _, -, lr, hlr, hsol⟩ := hsol
    have hsol := Except.ok.inj hsol
    refine ⟨s.gfunc, s.used, s.alkalinity, c, o.titrant_normality, lr, ?_, ?_, ?_, ?_, hc, ?_, ?_, ?_, ?_⟩
    · rw [hnum _ (by decide), (column_of_num hnm ht0 (by decide) (by decide) hg).1]
    · rw [hb]; exact (makeTable_bools ht0 _ hu).1
    · rw [hb]; exact (makeTable_bools ht0 _ hgu).1
    · rw [hA, hs]; rfl
    · unfold argNum at hn
      rw [hkws, if_neg (by decide)] at hn
      cases hv : titrationSetting kw row.dict "titrant_normality" with
      | none => rw [hv] at hn; exact .inl ⟨rfl, (Except.ok.inj hn).symm⟩
      | some v => rw [hv] at hn; exact .inr ⟨v, rfl, hn⟩
    · intro i M m x hM hm hx
      rw [← hsol]
      simp only [List.getElem?_zipWith, hm, hx, hM]
      simp
    · rw [← hsol]; exact hlr
    · rw [← hsol]

/-- **C87**: the table has one column for each total and each constant that the alkalinity was solved
with, holding its value at each point; it has no other columns of these names. -/
theorem C87_totals (w : World) (sys : SysIn → Py SysOut) (row : Series) (kw : Dict Val)
    (tt : Titration) (hk : kw.keys.Nodup) (hn : (nestedArgs kw).keys.Nodup)
    (h : Titration_init w sys row kw = .ok tt) :
    (∀ k ∈ totalNames, (tt.t.nums.get? k).isSome = (tt.sr.totals.get? k).isSome ∧
      ∀ i < tt.sr.cv.titrant_mass.length,
        (tt.t.nums.get? k).map (fun xs => xs.getD i nan) = (rowAt tt.sr.totals i).get? k) ∧
    (∀ k ∈ calk_to_pyco2_ks.map Prod.fst, (tt.t.nums.get? k).isSome = (tt.sr.ks.get? k).isSome ∧
      ∀ i < tt.sr.cv.titrant_mass.length,
        (tt.t.nums.get? k).map (fun xs => xs.getD i nan) = (rowAt tt.sr.ks i).get? k) := by
  obtain ⟨f, c, S, kws, hs', -⟩ := C64_call w sys row kw tt hk hn h
  have hnm := names_of_solve hs'
  obtain ⟨t0, ht0, -, hnum, -⟩ := table_keeps h
  have late : ∀ k, k ∈ totalNames ∨ k ∈ calk_to_pyco2_ks.map Prod.fst → k ∉ lateColumns := by
    have : ∀ k ∈ lateColumns, ¬ (k ∈ totalNames ∨ k ∈ calk_to_pyco2_ks.map Prod.fst) := by decide
    exact fun k h1 h2 => this k h2 h1
  have some_ : ∀ k, (t0.nums.get? k).isSome = ((allColumns tt.sr).get? k).isSome := by
    intro k
    rcases (makeTable_ok ht0).2 k with ⟨h1, h2⟩ | ⟨v, xs, h1, -, h2⟩ <;> simp [h1, h2]
  refine ⟨fun k hk => ⟨?_, fun i hi => ?_⟩, fun k hk => ⟨?_, fun i hi => ?_⟩⟩
  · rw [hnum k (late k (.inl hk)), some_, allColumns_total hnm hk]
  · rw [hnum k (late k (.inl hk)), table_at ht0 k hi, allColumns_total hnm hk, rowAt_get?]
  · rw [hnum k (late k (.inr hk)), some_, allColumns_const hnm (isConstant_names.1 k hk)]
  · rw [hnum k (late k (.inr hk)), table_at ht0 k hi, allColumns_const hnm (isConstant_names.1 k hk),
      rowAt_get?]

end Calk
