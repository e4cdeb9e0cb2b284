import Verif.Model.Plot
import Verif.Props.TitrationMade

/-! # Lemmas about plots -/

namespace Calk
open Flt

/-! ## Columns of the table of a Titration -/

/-- every column has a value for every row -/
def Table.Sized (t : Table) : Prop := ∀ k xs, t.nums.get? k = some xs → xs.length = t.rows

theorem put_sized {t t' : Table} {c : String} {xs : List Flt} (hs : t.Sized)
    (h : t.put c xs = .ok t') : t'.Sized := by
  obtain ⟨h1, h2, h3⟩ := put_ok h
  intro k ys hk
  rw [h3] at hk
  by_cases hkc : k = c
  · rw [if_pos hkc] at hk; rw [← Option.some.inj hk, h1, h2]
  · rw [if_neg hkc] at hk; rw [hs k ys hk, h2]

theorem putAll_sized {l : List (String × List Flt)} {t t' : Table} (hs : t.Sized)
    (h : t.putAll l = .ok t') : t'.Sized := by
  induction l generalizing t with
  | nil => rw [← Except.ok.inj h]; exact hs
  | cons e l ih =>
    simp only [Table.putAll, bind_ok_iff] at h
    obtain ⟨t1, h1, h⟩ := h
    exact ih (put_sized hs h1) h

theorem makeTable_sized {o : SolveOut} {t : Table} (h : makeTable o = .ok t) : t.Sized := by
  obtain ⟨h1, h2⟩ := makeTable_ok h
  intro k xs hk
  rcases h2 k with ⟨-, h3⟩ | ⟨v, ys, -, h4, h5⟩
  · rw [h3] at hk; cases hk
  · rw [h5] at hk
    rw [← Option.some.inj hk, h1]
    cases v with
    | scalar x => rw [← Except.ok.inj h4]; simp
    | arr zs =>
      simp only [NpVal.column] at h4
      split at h4
      · rename_i hl; rw [← Except.ok.inj h4]; exact hl
      · cases h4

theorem co2sys_columns {sys : SysIn → Py SysOut} {row : Series} {t t' : Table}
    (hs : t.Sized) (h : do_CO2SYS sys row t = .ok t') :
    t'.Sized ∧ t'.rows = t.rows ∧ (t'.nums.get? "alkalinity_estimate").isSome = true ∧
    ∃ (s : SysIn) (r : SysOut), sys s = .ok r ∧ t.nums.get? "pH" = some s.pH ∧
      (∀ c ∈ sysComps, t'.nums.get? c = some (micro (r.comps c))) ∧
      t'.nums.get? "alkalinity_from_pH" = some (micro r.alkalinity) ∧
      t'.nums.get? "H" = some (s.pH.map fun p => Flt.pow10 (-p)) ∧
      t'.nums.get? "alk_alpha" = some (micro r.alkalinity_alpha) ∧
      t'.nums.get? "alk_beta" = some (micro r.alkalinity_beta) := by
  unfold do_CO2SYS at h
  simp only [bind_ok_iff] at h
  obtain ⟨tm, h1, M, h2, t1, h3, dic, h4, pH, h5, S, h6, T, h7, r, h8, t2, h9, c, h10, h⟩ := h
  have hpH := attr_ok h5
  rw [(put_ok h3).2.2, if_neg (by decide)] at hpH
  have hnd : (List.map Prod.fst ([("alkalinity_from_pH", micro r.alkalinity), ("k_CO2", r.k_CO2)] ++
      (sysComps.map fun c => (c, micro (r.comps c))) ++
      [("H", pH.map fun p => Flt.pow10 (-p)), ("alk_alpha", micro r.alkalinity_alpha),
        ("alk_beta", micro r.alkalinity_beta)])).Nodup := by
    have : (List.map Prod.fst ([("alkalinity_from_pH", micro r.alkalinity), ("k_CO2", r.k_CO2)] ++
      (sysComps.map fun c => (c, micro (r.comps c))) ++
      [("H", pH.map fun p => Flt.pow10 (-p)), ("alk_alpha", micro r.alkalinity_alpha),
        ("alk_beta", micro r.alkalinity_beta)])) = ["alkalinity_from_pH", "k_CO2", "HCO3", "CO3",
        "BOH4", "PO4", "HPO4", "H3PO4", "HSO4", "HF", "H3SiO4", "NH3", "HS", "OH", "H", "alk_alpha",
        "alk_beta"] := by simp [sysComps]
    rw [this]
    decide
  have hput := (putAll_ok h9).2.2.2 hnd
  have hrows : t'.rows = t.rows := by
    rw [(put_ok h).2.1, (putAll_ok h9).2.1, (put_ok h3).2.1]
  refine ⟨put_sized (putAll_sized (put_sized hs h3) h9) h, hrows,
    by rw [(put_ok h).2.2, if_pos rfl]; rfl, _, r, h8, hpH, ?_, ?_, ?_, ?_, ?_⟩
  · intro c hc
    have hne : c ≠ "alkalinity_estimate" := by rintro rfl; exact absurd hc (by decide)
    rw [(put_ok h).2.2, if_neg hne]
    exact hput (c, micro (r.comps c)) (List.mem_append_left _ (List.mem_append_right _
      (List.mem_map.mpr ⟨c, hc, rfl⟩)))
  · rw [(put_ok h).2.2, if_neg (by decide)]
    exact hput ("alkalinity_from_pH", micro r.alkalinity) (by simp)
  · rw [(put_ok h).2.2, if_neg (by decide)]
    exact hput ("H", pH.map fun p => Flt.pow10 (-p)) (by simp)
  · rw [(put_ok h).2.2, if_neg (by decide)]
    exact hput ("alk_alpha", micro r.alkalinity_alpha) (by simp)
  · rw [(put_ok h).2.2, if_neg (by decide)]
    exact hput ("alk_beta", micro r.alkalinity_beta) (by simp)

theorem makeTable_flags {o : SolveOut} {t : Table} (h : makeTable o = .ok t) (k : String)
    (u : List Bool) (hk : t.bools.get? k = some u) :
    (boolColumns o).get? k = some u ∧ u.length = o.cv.titrant_mass.length := by
  unfold makeTable at h
  simp only [bind_ok_iff] at h
  obtain ⟨nums, -, bools, h2, h⟩ := h
  have h := Except.ok.inj h
  subst h
  rcases mapValsM_get? _ _ _ h2 k with ⟨-, h3⟩ | ⟨v, u', h3, h4, h5⟩
  · simp only at hk; rw [h3] at hk; cases hk
  · simp only at hk
    rw [h5] at hk
    obtain rfl := Option.some.inj hk
    unfold checkBools at h4
    split at h4
    · rename_i hl
      obtain rfl := Except.ok.inj h4
      exact ⟨h3, hl⟩
    · cases h4

/-- the table of a Titration -/
theorem titration_table {w : World} {sys : SysIn → Py SysOut} {row : Series} {kw : Dict Val}
    {tt : Titration} (h : Titration_init w sys row kw = .ok tt) :
    (∀ k xs, tt.t.nums.get? k = some xs → xs.length = tt.sr.cv.titrant_mass.length) ∧
    (∀ k u, tt.t.bools.get? k = some u →
      (boolColumns tt.sr).get? k = some u ∧ u.length = tt.sr.cv.titrant_mass.length) ∧
    tt.t.bools.get? "used" = some tt.sr.sr.useds ∧
    (tt.t.nums.get? "alkalinity_estimate").isSome = true ∧
    ∃ (s : SysIn) (r : SysOut), sys s = .ok r ∧ tt.t.nums.get? "pH" = some s.pH ∧
      (∀ c ∈ sysComps, tt.t.nums.get? c = some (micro (r.comps c))) ∧
      tt.t.nums.get? "alkalinity_from_pH" = some (micro r.alkalinity) ∧
      tt.t.nums.get? "H" = some (s.pH.map fun p => Flt.pow10 (-p)) ∧
      tt.t.nums.get? "alk_alpha" = some (micro r.alkalinity_alpha) ∧
      tt.t.nums.get? "alk_beta" = some (micro r.alkalinity_beta) := by
  obtain ⟨t0', k1, k2, k3, -⟩ := table_keeps h
  obtain ⟨row', t0, t1, h1, h2, h3, h4, h5, h6⟩ := Titration_ok h
  rw [h4] at k1
  obtain rfl := Except.ok.inj k1
  have hs1 : t1.Sized := by
    have h5' := h5
    unfold get_alkalinity_from_acid at h5'
    simp only [bind_ok_iff] at h5'
    obtain ⟨A, -, M, -, tm, -, c, -, h5'⟩ := h5'
    exact put_sized (makeTable_sized h4) h5'
  obtain ⟨A, M, tm, c, a1, a2, a3, a4, a5, a6, a7⟩ := acid_ok h5
  obtain ⟨c1, c2, c3, s, r, c4, c5, c6, c7, c8, c9, c10⟩ := co2sys_columns hs1 h6
  refine ⟨fun k xs hk => ?_, fun k u hk => ?_, ?_, c3, s, r, c4, ?_, c6, c7, c8, c9, c10⟩
  · rw [c1 k xs hk, c2, a5, (makeTable_ok h4).1]
  · rw [k2] at hk; exact makeTable_flags h4 k u hk
  · rw [k2]; exact (makeTable_bools h4 "used" rfl).1
  · rw [k3 _ (by decide)]
    rwa [a7, if_neg (by decide)] at c5

/-! ## Points -/

/-- Specification: the points `(1000 x, y)` whose flag is `b`, in order -/
noncomputable def drawnAt (u : List Bool) (b : Bool) (x y : List Flt) : List (Flt × Flt) :=
  ((List.range x.length).filter fun i => u[i]? == some b).map fun i =>
    (x.getD i nan * fin 1e3, y.getD i nan)

theorem filter_range_succ (n : ℕ) (p : ℕ → Bool) :
    (List.range (n + 1)).filter p
      = (if p 0 then [0] else []) ++ ((List.range n).filter fun i => p (i + 1)).map (· + 1) := by
  rw [List.range_succ_eq_map, List.filter_cons, List.filter_map]
  split <;> simp [Function.comp_def]

theorem drawnAt_cons (f : Bool) (u : List Bool) (b : Bool) (x y : Flt) (xs ys : List Flt) :
    drawnAt (f :: u) b (x :: xs) (y :: ys)
      = (if f = b then [(x * fin 1e3, y)] else []) ++ drawnAt u b xs ys := by
  unfold drawnAt
  rw [List.length_cons, filter_range_succ, List.map_append, List.map_map]
  congr 1
  · by_cases h : f = b <;> simp [h]

theorem drawn_used (u : List Bool) (x y : List Flt) (hx : x.length = u.length)
    (hy : y.length = u.length) :
    (grams (mask u x)).zip (mask u y) = drawnAt u true x y := by
  induction u generalizing x y with
  | nil =>
    obtain rfl : x = [] := by simpa using hx
    obtain rfl : y = [] := by simpa using hy
    simp [drawnAt, grams]
  | cons f u ih =>
    cases x with
    | nil => simp at hx
    | cons x xs =>
      cases y with
      | nil => simp at hy
      | cons y ys =>
        rw [drawnAt_cons, ← ih xs ys (by simpa using hx) (by simpa using hy)]
        cases f <;> simp [grams]

theorem drawn_unused (u : List Bool) (x y : List Flt) (hx : x.length = u.length)
    (hy : y.length = u.length) :
    (grams (mask (u.map not) x)).zip (mask (u.map not) y) = drawnAt u false x y := by
  induction u generalizing x y with
  | nil =>
    obtain rfl : x = [] := by simpa using hx
    obtain rfl : y = [] := by simpa using hy
    simp [drawnAt, grams]
  | cons f u ih =>
    cases x with
    | nil => simp at hx
    | cons x xs =>
      cases y with
      | nil => simp at hy
      | cons y ys =>
        rw [drawnAt_cons, ← ih xs ys (by simpa using hx) (by simpa using hy)]
        cases f <;> simp [grams]

theorem usedScatters_eq (a b : Option String) (u : List Bool) (x y : List Flt)
    (hx : x.length = u.length) (hy : y.length = u.length) :
    usedScatters a b u x y = [.points a false (drawnAt u false x y),
      .points b true (drawnAt u true x y)] := by
  rw [usedScatters, drawn_used u x y hx hy, drawn_unused u x y hx hy]

theorem Table.attr_eq {t : Table} {c : String} {xs : List Flt} (h : t.nums.get? c = some xs) :
    t.attr c = .ok xs := by simp [Table.attr, h]

theorem Table.flag_eq {t : Table} {c : String} {u : List Bool} (h : t.bools.get? c = some u) :
    t.flag c = .ok u := by simp [Table.flag, h]

theorem numAttr_eq {row : Series} {k : String} {x : Flt} (h : row.dict.get? k = some (.num x)) :
    numAttr row k = .ok x := by
  simp [numAttr, Series.getattr, h, bind_ok, Val.toFlt]

/-! ## Columns by mode -/

/-- a column that is not computed later: the one of `numColumns`, or none -/
theorem early_column {w : World} {sys : SysIn → Py SysOut} {row : Series} {kw : Dict Val}
    {tt : Titration} (hk : kw.keys.Nodup) (hn : (nestedArgs kw).keys.Nodup)
    (h : Titration_init w sys row kw = .ok tt) (k : String) (h1 : k ∉ lateColumns)
    (h2 : isConstant k = false) (h3 : k ∉ totalNames) :
    (∀ xs, (numColumns tt.sr).get? k = some (.arr xs) → tt.t.nums.get? k = some xs) ∧
    ((numColumns tt.sr).get? k = none → tt.t.nums.get? k = none) := by
  obtain ⟨f, c, S, kws, hs', -⟩ := C64_call w sys row kw tt hk hn h
  have hnm := names_of_solve hs'
  obtain ⟨t0, ht0, -, hnum, -⟩ := table_keeps h
  refine ⟨fun xs hx => ?_, fun hx => ?_⟩
  · rw [hnum k h1, (column_of_num hnm ht0 h2 h3 hx).1]
  · rw [hnum k h1]
    rcases (makeTable_ok ht0).2 k with ⟨-, h4⟩ | ⟨v, xs, h4, -, -⟩
    · exact h4
    · rw [allColumns_num hnm h2 h3, hx] at h4; cases h4

theorem no_flag {w : World} {sys : SysIn → Py SysOut} {row : Series} {kw : Dict Val}
    {tt : Titration} (h : Titration_init w sys row kw = .ok tt) (k : String)
    (hb : (boolColumns tt.sr).get? k = none) : tt.t.bools.get? k = none := by
  cases hg : tt.t.bools.get? k with
  | none => rfl
  | some u => rw [((titration_table h).2.1 k u hg).1] at hb; cases hb

theorem the_flag {w : World} {sys : SysIn → Py SysOut} {row : Series} {kw : Dict Val}
    {tt : Titration} (h : Titration_init w sys row kw = .ok tt) (k : String) (u : List Bool)
    (hb : (boolColumns tt.sr).get? k = some u) : tt.t.bools.get? k = some u := by
  obtain ⟨t0, ht0, hb', -⟩ := table_keeps h
  rw [hb']; exact (makeTable_bools ht0 k hb).1

/-- the Gran plot of an EMF titration -/
theorem emf_gran {w : World} {sys : SysIn → Py SysOut} {row : Series} {kw : Dict Val}
    {tt : Titration} (hk : kw.keys.Nodup) (hn : (nestedArgs kw).keys.Nodup)
    (h : Titration_init w sys row kw = .ok tt) {s : SolveEmf} {T : List Flt}
    (hs : tt.sr.sr = .emf s T) :
    tt.t.nums.get? "emf" = some tt.sr.emf ∧ tt.t.nums.get? "gran_func" = some s.ggr.ga.gfunc ∧
    tt.t.nums.get? "gran_emf0" = some s.ggr.emf0s ∧ tt.t.nums.get? "gran_pH" = some s.ggr.pH ∧
    tt.t.bools.get? "gran_used" = some s.ggr.ga.used ∧
    s.ggr.emf0 = npMean (mask s.ggr.ga.used s.ggr.emf0s) ∧
    linregress (mask s.ggr.ga.used tt.sr.cv.titrant_mass) (mask s.ggr.ga.used s.ggr.ga.gfunc)
      = .ok s.ggr.ga.lr := by
  have col : ∀ (k : String) (xs : List Flt), k ∈ ["emf", "gran_func", "gran_emf0", "gran_pH"] →
      (numColumns tt.sr).get? k = some (.arr xs) → tt.t.nums.get? k = some xs := by
    intro k xs hkk hx
    have h1 : ∀ k ∈ ["emf", "gran_func", "gran_emf0", "gran_pH"], k ∉ lateColumns ∧
      isConstant k = false ∧ k ∉ totalNames := by decide
    obtain ⟨g1, g2, g3⟩ := h1 k hkk
    exact (early_column hk hn h k g1 g2 g3).1 xs hx
  have hnc : numColumns tt.sr = [ ("titrant_mass", .arr tt.sr.cv.titrant_mass),
      ("temperature", .arr tt.sr.sr.temperatures), ("pH", .arr s.pH), ("emf", .arr tt.sr.emf),
      ("gran_func", .arr s.ggr.ga.gfunc), ("gran_emf0", .arr s.ggr.emf0s),
      ("gran_pH", .arr s.ggr.pH) ] := by
    unfold numColumns
    simp only [hs, SolveRes.temperatures, SolveRes.pHs, List.cons_append, List.nil_append]
  have hbc : boolColumns tt.sr = [("used", s.used), ("gran_used", s.ggr.ga.used)] := by
    unfold boolColumns
    simp only [hs, SolveRes.useds, List.cons_append, List.nil_append]
  refine ⟨col "emf" _ (by decide) (by rw [hnc]; rfl), col "gran_func" _ (by decide) (by rw [hnc]; rfl),
    col "gran_emf0" _ (by decide) (by rw [hnc]; rfl), col "gran_pH" _ (by decide) (by rw [hnc]; rfl),
    the_flag h _ _ (by rw [hbc]; rfl), ?_⟩
  obtain ⟨f, c, S, kws, hs', -⟩ := C64_call w sys row kw tt hk hn h
  obtain ⟨totals0, tts, mode, -, -, -, -, hd, hemf⟩ := files_solve_all_ok hs'
  rcases dispatch_cases hd with ⟨s', o, d, -, e, hno, hsol⟩ | ⟨_, _, -, e, -⟩ | ⟨_, _, -, e, -⟩
  · rw [hs] at e
    cases e
    obtain ⟨o', -, -, hn', hlast⟩ := solve_emf_last hsol
    obtain ⟨g, opt, hg, -, -, -, -, -, rfl⟩ := solve_emf_false_iff.mp hlast
    simp only [emfResult]
    unfold gran_guesses at hg
    simp only [bind_ok_iff] at hg
    obtain ⟨ga, hga, hg⟩ := hg
    obtain rfl := Except.ok.inj hg
    unfold gran_alkalinity at hga
    simp only [bind_ok_iff] at hga
    obtain ⟨_, -, gu, hgu, lr, hlr, hga⟩ := hga
    obtain rfl := Except.ok.inj hga
    exact ⟨rfl, hlr⟩
  · rw [hs] at e; cases e
  · rw [hs] at e; cases e

theorem emf_opts_window {kw : Dict Val} {o : EmfOpts} {d : Bool} (h : emf_opts kw = .ok (o, d)) :
    argNum kw "pH_min" (fin 3) = .ok o.pH_min ∧ argNum kw "pH_max" (fin 4) = .ok o.pH_max := by
  unfold emf_opts at h
  simp only [bind_ok_iff] at h
  obtain ⟨a, -, b, -, c, hc, e, he, n, -, h⟩ := h
  have h := Except.ok.inj h
  rw [Prod.mk.injEq] at h
  rw [hc, he, ← h.1]
  exact ⟨rfl, rfl⟩

/-- every mode needs numbers as the limits of the pH range -/
theorem window_numbers {w : World} {mode : String} {cv : Converted} {c : Flt}
    {totals ks : Dict NpVal} {kw : Dict Val} {sr : SolveRes}
    (h : solve_dispatch w mode cv c totals ks kw = .ok sr) :
    ∃ lo hi, argNum kw "pH_min" (fin 3) = .ok lo ∧ argNum kw "pH_max" (fin 4) = .ok hi := by
  have opts : ∀ (keys : List String) (o : PHOpts), "pH_min" ∈ keys → "pH_max" ∈ keys →
      ph_opts (get_kwargs_for keys kw none) = .ok o →
      argNum kw "pH_min" (fin 3) = .ok o.pH_min ∧ argNum kw "pH_max" (fin 4) = .ok o.pH_max := by
    intro keys o h1 h2 ho
    unfold ph_opts at ho
    simp only [bind_ok_iff] at ho
    obtain ⟨c1, hc1, c2, hc2, n, -, ho⟩ := ho
    rw [argNum_kwargs h1] at hc1
    rw [argNum_kwargs h2] at hc2
    rw [← Except.ok.inj ho]
    exact ⟨hc1, hc2⟩
  unfold solve_dispatch at h
  split at h
  · simp only [bind_ok_iff] at h
    obtain ⟨⟨o, d⟩, ho, -⟩ := h
    obtain ⟨h1, h2⟩ := emf_opts_window ho
    rw [argNum_kwargs (by decide)] at h1 h2
    exact ⟨_, _, h1, h2⟩
  · split at h
    · simp only [bind_ok_iff] at h
      obtain ⟨⟨o, d⟩, ho, -⟩ := h
      obtain ⟨h1, h2⟩ := emf_opts_window ho
      rw [argNum_set _ _ _ (by decide), argNum_kwargs (by decide)] at h1 h2
      exact ⟨_, _, h1, h2⟩
    · split at h
      · simp only [bind_ok_iff] at h
        obtain ⟨o, ho, -⟩ := h
        exact ⟨_, _, opts _ _ (by decide) (by decide) ho⟩
      · split at h
        · simp only [bind_ok_iff] at h
          obtain ⟨o, ho, -⟩ := h
          exact ⟨_, _, opts _ _ (by decide) (by decide) ho⟩
        · cases h

/-- the EMF solver's limits are those given -/
theorem dispatch_window {w : World} {mode : String} {cv : Converted} {c : Flt}
    {totals ks : Dict NpVal} {kw : Dict Val} {s : SolveEmf} {T : List Flt}
    (h : solve_dispatch w mode cv c totals ks kw = .ok (.emf s T)) :
    ∃ (o : EmfOpts) (d : Bool), argNum kw "pH_min" (fin 3) = .ok o.pH_min ∧
      argNum kw "pH_max" (fin 4) = .ok o.pH_max ∧
      solve_emf w.ls c cv.titrant_mass (echoed_emf mode cv) cv.temperature cv.analyte_mass totals ks
        o d = .ok s := by
  unfold solve_dispatch at h
  split at h
  · rename_i hm
    simp only [bind_ok_iff] at h
    obtain ⟨⟨o, d⟩, ho, s, hs, h⟩ := h
    obtain ⟨h1, h2⟩ := emf_opts_window ho
    rw [argNum_kwargs (by decide)] at h1 h2
    cases Except.ok.inj h
    refine ⟨o, d, h1, h2, ?_⟩
    unfold echoed_emf
    rw [if_neg (by rw [hm]; decide)]
    exact hs
  · split at h
    · rename_i hm
      simp only [bind_ok_iff] at h
      obtain ⟨⟨o, d⟩, ho, emf, he, s, hs, h⟩ := h
      obtain ⟨h1, h2⟩ := emf_opts_window ho
      rw [argNum_set _ _ _ (by decide), argNum_kwargs (by decide)] at h1 h2
      cases Except.ok.inj h
      refine ⟨o, d, h1, h2, ?_⟩
      unfold pH_to_emf_arr at he
      obtain ⟨_, -, he⟩ := bind_ok_iff.mp he
      unfold echoed_emf
      rw [if_pos hm, Except.ok.inj he]
      exact hs
    · split at h
      · simp only [bind_ok_iff] at h
        obtain ⟨o, ho, s, hs, h⟩ := h
        cases Except.ok.inj h
      · split at h
        · simp only [bind_ok_iff] at h
          obtain ⟨o, ho, s, hs, h⟩ := h
          cases Except.ok.inj h
        · cases h

theorem emfStart_window (o : EmfOpts) (g : GranGuesses) (emf T : List Flt)
    (hg : g.pH = emf_to_pH_arr emf g.emf0 T) :
    InWindow o.pH_min o.pH_max (emf_to_pH_arr emf (emfStart o g emf T).emf0 T)
      (emfStart o g emf T).used := by
  unfold emfStart
  cases o.emf0_init with
  | none => simp only [hg]; exact inWindow_used _ _ _
  | some e => exact inWindow_used _ _ _

/-- the standard deviation in the row of a Titration -/
theorem Titration_std {w : World} {sys : SysIn → Py SysOut} {row : Series} {kw : Dict Val}
    {tt : Titration} (h : Titration_init w sys row kw = .ok tt) {all : List Flt}
    (ha : tt.sr.sr.alks = some all) :
    tt.row.dict.get? "alkalinity_std" = some (.num (npStd (mask tt.sr.sr.useds all))) := by
  obtain ⟨row', t0, t1, -, -, h3, -⟩ := Titration_ok h
  unfold resultRow at h3
  rcases hx : add_solve_results tt.sr.sr row'.val with ⟨r, val⟩
  rw [hx] at h3
  cases r with
  | error e => cases h3
  | ok u =>
    have h3 := Except.ok.inj h3
    rw [← h3]
    have hv : ∀ k v, k ∈ resultLabels tt.sr.sr → val k = v →
        (Series.mk ((resultLabels tt.sr.sr).foldl addCol row'.labels) val).dict.get? k = some v := by
      intro k v hk he
      rw [Series.dict_get?]
      simp only [mem_foldl_addCol, he]
      rw [if_pos (.inr hk)]
    cases hs : tt.sr.sr with
    | emf sr T =>
      rw [hs] at hx hv ha
      obtain rfl := Option.some.inj ha
      refine hv _ _ (by simp [resultLabels]) ?_
      have e : val = (add_solve_results (.emf sr T) row'.val).2 := by rw [hx]
      rw [e]
      rcases hp : sr.pH with _ | ⟨p, ps⟩ <;> rcases T with _ | ⟨t, ts⟩ <;>
      simp [add_solve_results, putNum, putFirst, hp, PyS.bind_apply, PyS.modify, PyS.raise, Row.put,
        SolveRes.useds]
    | pH sr ph T =>
      rw [hs] at hx hv ha
      obtain rfl := Option.some.inj ha
      refine hv _ _ (by simp [resultLabels]) ?_
      have e : val = (add_solve_results (.pH sr ph T) row'.val).2 := by rw [hx]
      rw [e]
      rcases ph with _ | ⟨p, ps⟩ <;> rcases T with _ | ⟨t, ts⟩ <;>
      simp [add_solve_results, putNum, putFirst, PyS.bind_apply, PyS.modify, PyS.raise, Row.put,
        SolveRes.useds]
    | pH_gran sr ph T => rw [hs] at ha; cases ha

end Calk
