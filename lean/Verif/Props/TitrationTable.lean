import Verif.Props.Titration

/-! # Properties C63 and C81: the table of a `Titration` -/

namespace Calk
open Flt Spec

/-! ## Columns -/

theorem column_ok {v : NpVal} {n : ℕ} {xs : List Flt} (h : v.column n = .ok xs) :
    xs.length = n ∧ ∀ i < n, xs[i]? = some (v.at_ i) := by
  cases v with
  | scalar x =>
    have h := Except.ok.inj h
    subst h
    refine ⟨by simp, fun i hi => ?_⟩
    simp [NpVal.at_, hi]
  | arr ys =>
    simp only [NpVal.column] at h
    split at h
    · rename_i hl
      have h := Except.ok.inj h
      subst h
      refine ⟨hl, fun i hi => ?_⟩
      rw [at_arr (by omega), List.getElem?_eq_getElem (by omega)]
    · cases h

theorem put_ok {t t' : Table} {c : String} {xs : List Flt} (h : t.put c xs = .ok t') :
    xs.length = t.rows ∧ t'.rows = t.rows ∧
      ∀ k, t'.nums.get? k = if k = c then some xs else t.nums.get? k := by
  unfold Table.put at h
  split at h
  · rename_i hl
    have h := Except.ok.inj h
    subst h
    exact ⟨hl, rfl, fun k => Dict.get?_set _ _ _ _⟩
  · cases h

theorem putAll_ok {l : List (String × List Flt)} {t t' : Table} (h : t.putAll l = .ok t') :
    (∀ e ∈ l, e.2.length = t.rows) ∧ t'.rows = t.rows ∧
      (∀ k, k ∉ l.map Prod.fst → t'.nums.get? k = t.nums.get? k) ∧
      ((l.map Prod.fst).Nodup → ∀ e ∈ l, t'.nums.get? e.1 = some e.2) := by
  induction l generalizing t with
  | nil =>
    have h := Except.ok.inj h
    subst h
    simp
  | cons e l ih =>
    obtain ⟨c, xs⟩ := e
    simp only [Table.putAll, bind_ok_iff] at h
    obtain ⟨t1, h1, h⟩ := h
    obtain ⟨p1, p2, p3⟩ := put_ok h1
    obtain ⟨q1, q2, q3, q4⟩ := ih h
    refine ⟨?_, q2.trans p2, ?_, ?_⟩
    · intro e he
      rcases List.mem_cons.mp he with rfl | he
      · exact p1
      · rw [q1 e he, p2]
    · intro k hk
      simp only [List.map_cons, List.mem_cons, not_or] at hk
      rw [q3 k hk.2, p3, if_neg hk.1]
    · intro hd e he
      simp only [List.map_cons, List.nodup_cons] at hd
      rcases List.mem_cons.mp he with rfl | he
      · rw [q3 _ hd.1, p3, if_pos rfl]
      · exact q4 hd.2 e he

theorem attr_ok {t : Table} {c : String} {xs : List Flt} (h : t.attr c = .ok xs) :
    t.nums.get? c = some xs := by
  unfold Table.attr at h
  cases hg : t.nums.get? c with
  | none => rw [hg] at h; cases h
  | some ys => rw [hg] at h; rw [Except.ok.inj h]

theorem numAttr_ok {row : Series} {k : String} {x : Flt} (h : numAttr row k = .ok x) :
    ∃ v, row.dict.get? k = some v ∧ v.toFlt = .ok x := by
  unfold numAttr Series.getattr at h
  simp only [bind_ok_iff] at h
  obtain ⟨v, h1, h2⟩ := h
  refine ⟨v, ?_, h2⟩
  cases hg : row.dict.get? k with
  | none => rw [hg] at h1; cases h1
  | some u => rw [hg] at h1; rw [Except.ok.inj h1]

theorem acid_ok {row : Series} {t t' : Table} (h : get_alkalinity_from_acid row t = .ok t') :
    ∃ A M tm c, numAttr row "alkalinity" = .ok A ∧ numAttr row "analyte_mass" = .ok M ∧
      t.nums.get? "titrant_mass" = some tm ∧ numAttr row "titrant_molinity" = .ok c ∧
      t'.rows = t.rows ∧ tm.length = t.rows ∧
      ∀ k, t'.nums.get? k = if k = "alkalinity_from_acid" then some (tm.map (acidPoint A M c))
        else t.nums.get? k := by
  unfold get_alkalinity_from_acid at h
  simp only [bind_ok_iff] at h
  obtain ⟨A, h1, M, h2, tm, h3, c, h4, h⟩ := h
  obtain ⟨p1, p2, p3⟩ := put_ok h
  exact ⟨A, M, tm, c, h1, h2, attr_ok h3, h4, p2, by simpa using p1, p3⟩

/-- the arguments that `do_CO2SYS` gives to PyCO2SYS -/
noncomputable def sysIn (t : Table) (dic pH T : List Flt) (S : Val) : SysIn :=
  { dic := dic.map fun x => x * fin 1e6, pH, salinity := S, temperature := T,
    totals := sysTotals.map fun k => (k, sysTotal t k),
    ks := t.nums.filter fun kv => isConstant kv.1 }

theorem co2sys_ok {sys : SysIn → Py SysOut} {row : Series} {t t' : Table}
    (h : do_CO2SYS sys row t = .ok t') :
    ∃ tm M t1 dic pH T S r c, t.nums.get? "titrant_mass" = some tm ∧
      numAttr row "analyte_mass" = .ok M ∧ numAttr row "titrant_molinity" = .ok c ∧
      t1.rows = t.rows ∧
      (∀ k, t1.nums.get? k = if k = "dilution_factor"
        then some (tm.map fun m => get_dilution_factor m M) else t.nums.get? k) ∧
      t.nums.get? "dic" = some dic ∧ t.nums.get? "pH" = some pH ∧
      t.nums.get? "temperature" = some T ∧
      sys (sysIn t1 dic pH T S) = .ok r ∧ r.alkalinity.length = t.rows ∧
      (∀ k, k ∉ ["alkalinity_from_pH", "k_CO2", "HCO3", "CO3", "BOH4", "PO4", "HPO4", "H3PO4",
          "HSO4", "HF", "H3SiO4", "NH3", "HS", "OH", "H", "alk_alpha", "alk_beta",
          "alkalinity_estimate"] → t'.nums.get? k = t1.nums.get? k) ∧
      t'.nums.get? "alkalinity_from_pH" = some (micro r.alkalinity) ∧
      t'.nums.get? "alkalinity_estimate"
        = some (List.zipWith (estimatePoint c M) (micro r.alkalinity) tm) := by
  unfold do_CO2SYS at h
  simp only [bind_ok_iff] at h
  obtain ⟨tm, h1, M, h2, t1, h3, dic, h4, pH, h5, S, h6, T, h7, r, h8, t2, h9, c, h10, h⟩ := h
  obtain ⟨p1, p2, p3⟩ := put_ok h3
  obtain ⟨q1, q2, q3, q4⟩ := putAll_ok h9
  obtain ⟨r1, r2, r3⟩ := put_ok h
  have hnd : (List.map Prod.fst ([("alkalinity_from_pH", micro r.alkalinity), ("k_CO2", r.k_CO2)] ++
    (sysComps.map fun c => (c, micro (r.comps c))) ++
    [("H", pH.map fun p => Flt.pow10 (-p)), ("alk_alpha", micro r.alkalinity_alpha),
      ("alk_beta", micro r.alkalinity_beta)])) = ["alkalinity_from_pH", "k_CO2", "HCO3", "CO3",
      "BOH4", "PO4", "HPO4", "H3PO4", "HSO4", "HF", "H3SiO4", "NH3", "HS", "OH", "H", "alk_alpha",
      "alk_beta"] := by simp [sysComps]
  rw [hnd] at q3 q4
  have hmem := attr_ok h4
  have hmem5 := attr_ok h5
  have hmem7 := attr_ok h7
  rw [p3, if_neg (by decide)] at hmem hmem5 hmem7
  refine ⟨tm, M, t1, dic, pH, T, S, r, c, attr_ok h1, h2, h10, p2, p3, hmem, hmem5, hmem7, h8,
    ?_, ?_, ?_, ?_⟩
  · have := q1 ("alkalinity_from_pH", micro r.alkalinity) (by simp)
    rw [p2] at this
    simpa [micro] using this
  · intro k hk
    have hk' : k ∉ ["alkalinity_from_pH", "k_CO2", "HCO3", "CO3",
      "BOH4", "PO4", "HPO4", "H3PO4", "HSO4", "HF", "H3SiO4", "NH3", "HS", "OH", "H", "alk_alpha",
      "alk_beta"] ∧ k ≠ "alkalinity_estimate" := by
      simp only [List.mem_cons, List.not_mem_nil, or_false, not_or] at hk ⊢
      tauto
    rw [r3, if_neg hk'.2, q3 k hk'.1]
  · rw [r3, if_neg (by decide)]
    exact q4 (by decide) ("alkalinity_from_pH", micro r.alkalinity) (by simp)
  · rw [r3, if_pos rfl]

/-! ## C81 -/

/-- **C81**: with no `analyte_mass` in row or keyword arguments (only a volume, say) no Titration can
be made: once the file is solved and the table made, AttributeError is raised. -/
theorem C81_no_mass (w : World) (sys : SysIn → Py SysOut) (row row' row'' : Series) (kw : Dict Val)
    (o : SolveOut) (t : Table) (hk : kw.keys.Nodup) (hn : (nestedArgs kw).keys.Nodup)
    (hm : titrationSetting kw row.dict "analyte_mass" = none)
    (h1 : titrationRow row kw = .ok row') (h2 : titration_solve w row' = .ok o)
    (h3 : resultRow row' o.sr = .ok row'') (h4 : makeTable o = .ok t) :
    Titration_init w sys row kw = .error (.AttributeError "analyte_mass") := by
  obtain ⟨r1, r2⟩ := resultRow_ok h3
  have e : row''.dict.get? "analyte_mass" = none := by
    rw [r1 _ fun hc => absurd (resultLabels_sub _ _ hc) (by decide),
      C64_settings row row' kw hk hn h1, hm]
  have a1 : numAttr row'' "alkalinity" = .ok o.sr.alkalinity := by
    unfold numAttr Series.getattr; rw [r2]; rfl
  have a2 : numAttr row'' "analyte_mass" = .error (.AttributeError "analyte_mass") := by
    unfold numAttr Series.getattr; rw [e]; rfl
  unfold Titration_init
  simp only [h1, h2, h3, h4, bind_ok]
  unfold get_alkalinity_from_acid
  simp only [a1, a2, bind_ok, bind_error]

/-- **C81**: for no world and no data is there a Titration without `analyte_mass`. -/
theorem C81_never (w : World) (sys : SysIn → Py SysOut) (row : Series) (kw : Dict Val)
    (hk : kw.keys.Nodup) (hn : (nestedArgs kw).keys.Nodup)
    (hm : titrationSetting kw row.dict "analyte_mass" = none) (tt : Titration) :
    Titration_init w sys row kw ≠ .ok tt := by
  intro h
  obtain ⟨row', t0, t1, h1, h2, h3, h4, h5, h6⟩ := Titration_ok h
  rw [C81_no_mass w sys row row' tt.row kw tt.sr t0 hk hn hm h1 h2 h3 h4] at h
  cases h

theorem nan_div (x : Flt) : (nan : Flt) / x = nan := rfl
theorem div_nan (x : Flt) : x / nan = (nan : Flt) := by cases x <;> rfl

/-- **C81**: with a NaN `analyte_mass` (as `dataset.prepare` fills in when there is only a volume) the
titration is solved with the volume, but the columns derived from the acid are NaN at every point. -/
theorem C81_nan (w : World) (sys : SysIn → Py SysOut) (row : Series) (kw : Dict Val) (tt : Titration)
    (hk : kw.keys.Nodup) (hn : (nestedArgs kw).keys.Nodup)
    (hm : titrationSetting kw row.dict "analyte_mass" = some (.num nan))
    (h : Titration_init w sys row kw = .ok tt) (c : String)
    (hc : c ∈ ["alkalinity_from_acid", "dilution_factor", "alkalinity_estimate"]) :
    tt.t.nums.get? c = some (List.replicate tt.sr.cv.titrant_mass.length nan) := by
  obtain ⟨row', t0, t1, h1, h2, h3, h4, h5, h6⟩ := Titration_ok h
  obtain ⟨hrow, -⟩ := C64_row w sys row kw tt hk hn h
  have hM : ∀ M, numAttr tt.row "analyte_mass" = .ok M → M = nan := by
    intro M hM
    obtain ⟨v, hv, hv'⟩ := numAttr_ok hM
    rw [hrow _ (by decide), hm] at hv
    have hv := (Option.some.inj hv)
    subst hv
    exact (Except.ok.inj hv').symm
  have hrows : t0.rows = tt.sr.cv.titrant_mass.length := by
    unfold makeTable at h4
    simp only [bind_ok_iff] at h4
    obtain ⟨nums, -, bools, -, h4⟩ := h4
    rw [← Except.ok.inj h4]
  obtain ⟨A, M, tm, c1, a1, a2, a3, a4, a5, a6, a7⟩ := acid_ok h5
  obtain ⟨tm', M', t2, dic, pH, T, S, r, c2, b1, b2, b3, b4, b5, b6, b7, b8, b9, b10, b11, b12, b13⟩
    := co2sys_ok h6
  have hM1 := hM M a2
  have hM2 := hM M' b2
  subst hM1 hM2
  have htm : tm' = tm := by
    rw [a7, if_neg (by decide), a3] at b1
    exact (Option.some.inj b1).symm
  subst htm
  have hlen : tm'.length = tt.sr.cv.titrant_mass.length := a6.trans hrows
  simp only [List.mem_cons, List.not_mem_nil, or_false] at hc
  rcases hc with rfl | rfl | rfl
  · rw [b11 _ (by decide), b5, if_neg (by decide), a7, if_pos rfl, ← hlen]
    congr 1
    rw [List.eq_replicate_iff]
    refine ⟨by simp, fun x hx => ?_⟩
    obtain ⟨m, -, rfl⟩ := List.mem_map.mp hx
    simp [acidPoint, nan_div]
  · rw [b11 _ (by decide), b5, if_pos rfl, ← hlen]
    congr 1
    rw [List.eq_replicate_iff]
    refine ⟨by simp, fun x hx => ?_⟩
    obtain ⟨m, -, rfl⟩ := List.mem_map.mp hx
    simp [get_dilution_factor, nan_div]
  · rw [b13, ← hlen]
    congr 1
    have hl : (micro r.alkalinity).length = tm'.length := by
      rw [micro, List.length_map, b10, a5, a6]
    rw [List.eq_replicate_iff]
    refine ⟨by simp [hl], fun x hx => ?_⟩
    obtain ⟨i, hi, rfl⟩ := List.mem_iff_getElem.mp hx
    rw [List.getElem_zipWith]
    simp [estimatePoint, get_dilution_factor, nan_div, div_nan]

end Calk
