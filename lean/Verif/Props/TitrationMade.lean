import Verif.Props.TitrationColumns

/-!
# Property C88: every titration that can be solved can be made a `Titration`
-/

namespace Calk
open Flt Spec

theorem add_titrant_shape {tm : List Flt} {M c p : Flt} {tts : List (String × Flt)}
    {d d' : Dict NpVal} {r : Py Unit} (h : add_titrant_totals tm M c p tts d = (r, d'))
    (hd : ∀ k v, d.get? k = some v → ∃ xs, v = .arr xs ∧ xs.length = tm.length) :
    ∀ k v, d'.get? k = some v → ∃ xs, v = .arr xs ∧ xs.length = tm.length := by
  induction tts generalizing d with
  | nil =>
    simp only [add_titrant_totals, PyS.pure_apply, Prod.mk.injEq] at h
    rw [← h.2]; exact hd
  | cons kv tts ih =>
    obtain ⟨k, x⟩ := kv
    simp only [add_titrant_totals, PyS.bind_apply, PyS.lift_apply, PyS.get_apply] at h
    cases h1 : pyAssert (titrantPrefix.toList.isPrefixOf k.toList) with
    | error e => rw [h1] at h; simp only [Prod.mk.injEq] at h; rw [← h.2]; exact hd
    | ok u =>
      rw [h1] at h
      simp only at h
      cases h2 : d.get (dropTitrant k) with
      | error e => rw [h2] at h; simp only [Prod.mk.injEq] at h; rw [← h.2]; exact hd
      | ok old =>
        rw [h2] at h
        simp only at h
        cases h3 : old.iadd (titrant_contribution tm M c p x) with
        | error e => rw [h3] at h; simp only [Prod.mk.injEq] at h; rw [← h.2]; exact hd
        | ok new =>
          rw [h3] at h
          simp only [PyS.set_apply] at h
          refine ih h ?_
          intro k' v hv
          rw [Dict.get?_set] at hv
          split at hv
          · obtain rfl := Option.some.inj hv
            rw [Dict.get_ok_iff] at h2
            obtain ⟨ys, rfl, hl⟩ := hd _ _ h2
            simp only [NpVal.iadd, titrant_contribution, List.length_map, hl, if_true] at h3
            refine ⟨_, (Except.ok.inj h3).symm, ?_⟩
            simp [hl]
          · exact hd k' v hv

theorem mem_foldl_set {α : Type} {l d : Dict α} {kv : String × α}
    (h : kv ∈ l.foldl (fun d kv => d.set kv.1 kv.2) d) : kv ∈ l ∨ kv ∈ d := by
  induction l generalizing d with
  | nil => exact .inr h
  | cons e l ih =>
    rcases ih h with h | h
    · exact .inl (List.mem_cons_of_mem _ h)
    · have : ∀ (d : Dict α) (e : String × α), kv ∈ d.set e.1 e.2 → kv = e ∨ kv ∈ d := by
        intro d e
        induction d with
        | nil => intro h; simp [Dict.set] at h; exact .inl h
        | cons a d ih =>
          intro h
          simp only [Dict.set] at h
          split at h
          · rename_i ha
            rcases List.mem_cons.mp h with h | h
            · exact .inl (by rw [h, ha])
            · exact .inr (List.mem_cons_of_mem _ h)
          · rcases List.mem_cons.mp h with h | h
            · exact .inr (by rw [h]; exact List.mem_cons_self ..)
            · rcases ih h with h | h
              · exact .inl h
              · exact .inr (List.mem_cons_of_mem _ h)
      rcases this d e h with rfl | h
      · exact .inl (List.mem_cons_self ..)
      · exact .inr h

theorem get?_of_mem {α : Type} {d : Dict α} {k : String} {v : α} (hd : d.keys.Nodup)
    (h : (k, v) ∈ d) : d.get? k = some v := by
  induction d with
  | nil => cases h
  | cons e d ih =>
    obtain ⟨k', v'⟩ := e
    rw [Dict.get?_cons]
    simp only [Dict.keys, List.map_cons, List.nodup_cons] at hd
    rcases List.mem_cons.mp h with h | h
    · rw [Prod.mk.injEq] at h
      rw [if_pos h.1.symm, h.2]
    · have : k' ≠ k := by
        rintro rfl
        exact hd.1 (List.mem_map.mpr ⟨(k', v), h, rfl⟩)
      rw [if_neg this]
      exact ih hd.2 h

theorem gran_used_length {gfunc : List Flt} {logic : String} {u : List Bool}
    (h : gran_used gfunc logic = .ok u) : u.length = gfunc.length := by
  unfold gran_used at h
  split at h
  · simp only [bind_ok_iff] at h
    obtain ⟨mx, -, h⟩ := h
    split at h
    · cases h
    · rename_i i hi
      have hlt : i < gfunc.length := by
        have := (List.findIdx?_eq_some_iff_findIdx_eq.mp hi).1
        simpa using this
      rw [← Except.ok.inj h]
      simp only [List.length_append, List.length_replicate]
      omega
  · split at h
    · simp only [bind_ok_iff] at h
      obtain ⟨mx, -, h⟩ := h
      rw [← Except.ok.inj h]
      simp
    · cases h

theorem resultRow_isOk (row : Series) {sr : SolveRes} (h1 : sr.pHs ≠ []) (h2 : sr.temperatures ≠ []) :
    ∃ row', resultRow row sr = .ok row' := by
  cases sr with
  | emf sr T =>
    simp only [SolveRes.pHs, SolveRes.temperatures] at h1 h2
    obtain ⟨p, ps, hp⟩ := List.exists_cons_of_ne_nil h1
    obtain ⟨t, ts, rfl⟩ := List.exists_cons_of_ne_nil h2
    simp [resultRow, add_solve_results, putNum, putFirst, hp, PyS.bind_apply, PyS.modify]
  | pH sr ph T =>
    simp only [SolveRes.pHs, SolveRes.temperatures] at h1 h2
    obtain ⟨p, ps, rfl⟩ := List.exists_cons_of_ne_nil h1
    obtain ⟨t, ts, rfl⟩ := List.exists_cons_of_ne_nil h2
    simp [resultRow, add_solve_results, putNum, putFirst, PyS.bind_apply, PyS.modify]
  | pH_gran sr ph T =>
    simp only [SolveRes.pHs, SolveRes.temperatures] at h1 h2
    obtain ⟨p, ps, rfl⟩ := List.exists_cons_of_ne_nil h1
    obtain ⟨t, ts, rfl⟩ := List.exists_cons_of_ne_nil h2
    simp [resultRow, add_solve_results, putNum, putFirst, PyS.bind_apply, PyS.modify]

/-- the solvers give one value per point -/
theorem solved_shape {w : World} {f : String} {c S : Flt} {kw : Dict Val} {o : SolveOut}
    (h : files_solve_all w f c S kw = .ok o)
    (hT : o.cv.temperature.length = o.cv.titrant_mass.length) :
    o.sr.temperatures = o.cv.temperature ∧ o.sr.pHs.length = o.cv.titrant_mass.length ∧
      (∀ kv ∈ numColumns o, ∃ xs, kv.2.column o.cv.titrant_mass.length = .ok xs) ∧
      (∀ kv ∈ boolColumns o, ∃ u, checkBools o.cv.titrant_mass.length kv.2 = .ok u) := by
  obtain ⟨totals0, tts, mode, -, -, -, -, hd, hemf⟩ := files_solve_all_ok h
  have col : ∀ xs : List Flt, xs.length = o.cv.titrant_mass.length →
      ∃ ys, (NpVal.arr xs).column o.cv.titrant_mass.length = .ok ys := fun xs hx =>
    ⟨xs, if_pos hx⟩
  have chk : ∀ u : List Bool, u.length = o.cv.titrant_mass.length →
      ∃ v, checkBools o.cv.titrant_mass.length u = .ok v := fun u hu => ⟨u, if_pos hu⟩
  rcases dispatch_cases hd with ⟨s, op, d, -, e, -, hsol⟩ | ⟨s, op, -, e, ho, hsol⟩ | ⟨s, op, -, e, ho, hsol⟩
  · obtain ⟨o', -, -, -, hlast⟩ := solve_emf_last hsol
    obtain ⟨g, opt, hg, -, -, -, -, -, rfl⟩ := solve_emf_false_iff.mp hlast
    obtain ⟨l1, l2, hp⟩ := gran_guesses_ok hg
    have hu := emfStart_used_length (o := o') hg
    have hg' := hg
    unfold gran_guesses gran_alkalinity at hg'
    simp only [bind_ok_iff] at hg'
    obtain ⟨ga, ⟨_, -, gu, hgu, lr, -, hga⟩, hg'⟩ := hg'
    have l3 : (zip3With (fun m e t => gran_function m e t o.cv.analyte_mass) o.cv.titrant_mass
        (echoed_emf mode o.cv) o.cv.temperature).length = o.cv.titrant_mass.length := by
      simp [zip3With, ← l2, ← l1]
    have l4 := gran_used_length hgu
    have l5 : g.ga.gfunc.length = o.cv.titrant_mass.length ∧ g.ga.used.length = o.cv.titrant_mass.length ∧
        g.emf0s.length = o.cv.titrant_mass.length := by
      rw [← Except.ok.inj hg', ← Except.ok.inj hga]
      refine ⟨l3, by rw [l4, l3], ?_⟩
      simp [zip3With, ← l2, ← l1]
    have l6 : (emfResult c o'.titrant_normality o.cv.analyte_mass o.cv.titrant_mass (echoed_emf mode o.cv)
        o.cv.temperature o.totals o.ks (emfStart o' g (echoed_emf mode o.cv) o.cv.temperature).used g opt).pH.length
        = o.cv.titrant_mass.length := by
      simp only [emfResult, emf_to_pH_arr_length l2, l1]
    refine ⟨by rw [e]; rfl, by rw [e]; exact l6, ?_, ?_⟩
    · intro kv hkv
      unfold numColumns at hkv
      simp only [e, List.cons_append, List.nil_append, List.mem_cons, List.not_mem_nil, or_false] at hkv
      rcases hkv with rfl | rfl | rfl | rfl | rfl | rfl | rfl
      · exact col _ rfl
      · exact col _ hT
      · exact col _ l6
      · exact col _ (by rw [hemf, ← l1])
      · exact col _ l5.1
      · exact col _ l5.2.2
      · exact col _ (by simp only [emfResult, hp, emf_to_pH_arr_length l2, l1])
    · intro kv hkv
      unfold boolColumns at hkv
      simp only [e, List.cons_append, List.nil_append, List.mem_cons, List.not_mem_nil, or_false] at hkv
      rcases hkv with rfl | rfl
      · exact chk _ (by simp only [SolveRes.useds, emfResult, hu, l1])
      · exact chk _ l5.2.1
  · obtain ⟨-, -, -, -, hl, rfl⟩ := solve_pH_ok hsol
    refine ⟨by rw [e]; rfl, by rw [e]; exact hl.symm, ?_, ?_⟩
    · intro kv hkv
      unfold numColumns at hkv
      simp only [e, List.append_nil, List.mem_cons, List.not_mem_nil, or_false] at hkv
      rcases hkv with rfl | rfl | rfl
      · exact col _ rfl
      · exact col _ hT
      · exact col _ hl.symm
    · intro kv hkv
      unfold boolColumns at hkv
      simp only [e, List.append_nil, List.mem_cons, List.not_mem_nil, or_false] at hkv
      subst hkv
      refine chk _ ?_
      simp [SolveRes.useds, phRes, pH_used, hl]
  · unfold solve_pH_gran at hsol
    simp only [bind_ok_iff] at hsol
    obtain ⟨_, -, _, hl, lr, -, hsol⟩ := hsol
    have hl : o.cv.titrant_mass.length = o.cv.measurement.length := by
      by_contra hc; simp [sameShape2, hc] at hl
    obtain rfl := Except.ok.inj hsol
    refine ⟨by rw [e]; rfl, by rw [e]; exact hl.symm, ?_, ?_⟩
    · intro kv hkv
      unfold numColumns at hkv
      simp only [e, List.cons_append, List.nil_append, List.mem_cons, List.not_mem_nil, or_false] at hkv
      rcases hkv with rfl | rfl | rfl | rfl
      · exact col _ rfl
      · exact col _ hT
      · exact col _ hl.symm
      · exact col _ (by simp [← hl])
    · intro kv hkv
      unfold boolColumns at hkv
      simp only [e, List.cons_append, List.nil_append, List.mem_cons, List.not_mem_nil, or_false] at hkv
      rcases hkv with rfl | rfl
      · exact chk _ (by simp [SolveRes.useds, pH_used, hl])
      · exact chk _ (by simp [pH_used, hl])

theorem put_isOk {t : Table} {c : String} {xs : List Flt} (h : xs.length = t.rows) :
    ∃ t', t.put c xs = .ok t' := ⟨_, if_pos h⟩

theorem putAll_isOk {l : List (String × List Flt)} {t : Table} (h : ∀ e ∈ l, e.2.length = t.rows) :
    ∃ t', t.putAll l = .ok t' := by
  induction l generalizing t with
  | nil => exact ⟨t, rfl⟩
  | cons e l ih =>
    obtain ⟨t1, h1⟩ := put_isOk (c := e.1) (h e (List.mem_cons_self ..))
    obtain ⟨t2, h2⟩ := ih (t := t1) (fun e' he => by
      rw [(put_ok h1).2.1]; exact h e' (List.mem_cons_of_mem _ he))
    exact ⟨t2, by simp only [Table.putAll, h1, bind_ok, h2]⟩

/-- PyCO2SYS gives one value per point, and does not fail -/
def SysTotal (sys : SysIn → Py SysOut) : Prop :=
  ∀ s, ∃ r, sys s = .ok r ∧ r.alkalinity.length = s.pH.length ∧ r.k_CO2.length = s.pH.length ∧
    (∀ c ∈ sysComps, (r.comps c).length = s.pH.length) ∧ r.alkalinity_alpha.length = s.pH.length ∧
    r.alkalinity_beta.length = s.pH.length

/-- **C88**: whenever the file can be solved with the settings of the row and the keyword arguments, and
there is at least one point and a number for the analyte mass, a Titration can be made. -/
theorem C88_made (w : World) (sys : SysIn → Py SysOut) (hsys : SysTotal sys) (row row' : Series)
    (kw : Dict Val) (hk : kw.keys.Nodup) (hn : (nestedArgs kw).keys.Nodup) (o : SolveOut)
    (hr : titrationRow row kw = .ok row') (hs : titration_solve w row' = .ok o)
    (hne : o.cv.titrant_mass ≠ []) (hT : o.cv.temperature.length = o.cv.titrant_mass.length)
    (hks : ∀ k xs, o.ks.get? k = some (.arr xs) → xs.length = o.cv.titrant_mass.length)
    (M : Flt) (v : Val) (hM : titrationSetting kw row.dict "analyte_mass" = some v)
    (hv : v.toFlt = .ok M) :
    ∃ tt, Titration_init w sys row kw = .ok tt ∧ tt.sr = o := by
  obtain ⟨f, c, S, -, ⟨vc, hc, hc'⟩, ⟨vS, hS, hS'⟩, hsol⟩ := titration_solve_ok hs
  obtain ⟨s1, s2, s3, s4⟩ := solved_shape hsol hT
  have hnm := names_of_solve hsol
  have hpos : 0 < o.cv.titrant_mass.length := List.length_pos_of_ne_nil hne
  obtain ⟨row'', hrow⟩ := resultRow_isOk row' (sr := o.sr)
    (by intro hc; rw [hc] at s2; simp at s2; exact hne (List.length_eq_zero_iff.mp s2.symm))
    (by rw [s1]; intro hc; rw [hc] at hT; simp at hT; exact hne (List.length_eq_zero_iff.mp hT.symm))
  have htot : ∀ k v, o.totals.get? k = some v → ∃ xs, v = .arr xs ∧ xs.length = o.cv.titrant_mass.length := by
    obtain ⟨totals0, tts, mode, hl, -, ha, -⟩ := files_solve_all_ok hsol
    exact add_titrant_shape ha (load_totals hl).2
  have hcols : ∀ kv ∈ allColumns o, ∃ xs, kv.2.column o.cv.titrant_mass.length = .ok xs := by
    intro kv hkv
    rcases mem_foldl_set hkv with h | h
    · have := get?_of_mem hnm.knodup h
      cases hv : kv.2 with
      | scalar x => exact ⟨_, rfl⟩
      | arr xs => rw [hv] at this; exact ⟨xs, if_pos (hks _ _ this)⟩
    · rcases mem_foldl_set h with h | h
      · obtain ⟨xs, hx, hl⟩ := htot _ _ (get?_of_mem hnm.tnodup h)
        rw [hx]; exact ⟨xs, if_pos hl⟩
      · exact s3 kv h
  obtain ⟨t0, ht0⟩ : ∃ t0, makeTable o = .ok t0 := by
    obtain ⟨nums, h1⟩ := mapValsM_isOk (fun _ v => NpVal.column o.cv.titrant_mass.length v) (allColumns o) hcols
    obtain ⟨bools, h2⟩ := mapValsM_isOk (fun _ u => checkBools o.cv.titrant_mass.length u) (boolColumns o) s4
    exact ⟨_, by unfold makeTable; simp only [h1, h2, bind_ok]; rfl⟩
  obtain ⟨n1, n2⟩ := makeTable_ok ht0
  obtain ⟨e1, e2, e3⟩ := numColumns_get o
  have c1 := (column_of_num hnm ht0 (by decide) (by decide) e1).1
  have c2 := (column_of_num hnm ht0 (by decide) (by decide) e2).1
  have c3 := (column_of_num hnm ht0 (by decide) (by decide) e3).1
  obtain ⟨dic, c4, c4'⟩ : ∃ dic, t0.nums.get? "dic" = some dic ∧ dic.length = o.cv.titrant_mass.length := by
    rcases n2 "dic" with ⟨h1, -⟩ | ⟨v, xs, -, h2, h3⟩
    · rw [allColumns_total hnm (by decide)] at h1
      exact absurd hnm.dic ((Dict.get?_eq_none_iff _ _).mp h1)
    · exact ⟨xs, h3, (column_ok h2).1⟩
  obtain ⟨r1, r2⟩ := resultRow_ok hrow
  have hset := C64_settings row row' kw hk hn hr
  have a1 : numAttr row'' "alkalinity" = .ok o.sr.alkalinity := by
    simp only [numAttr, Series.getattr, r2, bind_ok, Val.toFlt]
  have lbl : ∀ k ∈ ["analyte_mass", "titrant_molinity", "salinity"], k ∉ resultLabels o.sr := by
    cases o.sr <;> simp [resultLabels]
  have a2 : numAttr row'' "analyte_mass" = .ok M := by
    simp only [numAttr, Series.getattr, r1 _ (lbl "analyte_mass" (by decide)), hset, hM, bind_ok, hv]
  have a3 : numAttr row'' "titrant_molinity" = .ok c := by
    simp only [numAttr, Series.getattr, r1 _ (lbl "titrant_molinity" (by decide)), hc, bind_ok, hc']
  have a4 : row''.getattr "salinity" = .ok vS := by
    simp only [Series.getattr, r1 _ (lbl "salinity" (by decide)), hS]
  obtain ⟨t1, ht1⟩ := put_isOk (t := t0) (c := "alkalinity_from_acid")
    (xs := o.cv.titrant_mass.map (acidPoint o.sr.alkalinity M c)) (by rw [n1]; simp)
  have hacid : get_alkalinity_from_acid row'' t0 = .ok t1 := by
    unfold get_alkalinity_from_acid
    simp only [a1, a2, a3, bind_ok, Table.attr, c1, ht1]
  obtain ⟨t2, ht2⟩ := put_isOk (t := t1) (c := "dilution_factor")
    (xs := o.cv.titrant_mass.map fun m => get_dilution_factor m M) (by rw [(put_ok ht1).2.1, n1]; simp)
  have get2 : ∀ k, k ≠ "dilution_factor" → k ≠ "alkalinity_from_acid" → t2.nums.get? k = t0.nums.get? k := by
    intro k h1 h2
    rw [(put_ok ht2).2.2, if_neg h1, (put_ok ht1).2.2, if_neg h2]
  have rows2 : t2.rows = o.cv.titrant_mass.length := by
    rw [(put_ok ht2).2.1, (put_ok ht1).2.1, n1]
  have get1 : ∀ k, k ≠ "alkalinity_from_acid" → t1.nums.get? k = t0.nums.get? k := by
    intro k h2
    rw [(put_ok ht1).2.2, if_neg h2]
  obtain ⟨r, hr1, hr2, hr3, hr4, hr5, hr6⟩ := hsys
    { dic := dic.map fun x => x * fin 1e6, pH := o.sr.pHs, salinity := vS, temperature := o.sr.temperatures,
      totals := sysTotals.map fun k => (k, sysTotal t2 k),
      ks := t2.nums.filter fun kv => isConstant kv.1 }
  simp only [s2] at hr2 hr3 hr4 hr5 hr6
  obtain ⟨t3, ht3⟩ := putAll_isOk (t := t2) (l := [("alkalinity_from_pH", micro r.alkalinity), ("k_CO2", r.k_CO2)] ++
    (sysComps.map fun c => (c, micro (r.comps c))) ++
    [("H", o.sr.pHs.map fun p => Flt.pow10 (-p)), ("alk_alpha", micro r.alkalinity_alpha),
      ("alk_beta", micro r.alkalinity_beta)]) (by
    intro e he
    rw [rows2]
    simp only [List.cons_append, List.nil_append, List.mem_cons, List.mem_append, List.mem_map, List.not_mem_nil,
      or_false] at he
    rcases he with rfl | rfl | ⟨c, hc, rfl⟩ | rfl | rfl | rfl
    · simpa [micro] using hr2
    · exact hr3
    · simpa [micro] using hr4 c hc
    · simpa using s2
    · simpa [micro] using hr5
    · simpa [micro] using hr6)
  obtain ⟨t4, ht4⟩ := put_isOk (t := t3) (c := "alkalinity_estimate")
    (xs := List.zipWith (estimatePoint c M) (micro r.alkalinity) o.cv.titrant_mass)
    (by rw [(putAll_ok ht3).2.1, rows2]; simp [micro, hr2])
  have hco : do_CO2SYS sys row'' t1 = .ok t4 := by
    unfold do_CO2SYS
    simp only [Table.attr, get1 "titrant_mass" (by decide), c1, bind_ok, a2, ht2, get2 "dic" (by decide) (by decide),
      c4, get2 "pH" (by decide) (by decide), c3, a4, get2 "temperature" (by decide) (by decide), c2, hr1, ht3, a3,
      ht4]
  refine ⟨{ row := row'', sr := o, t := t4 }, ?_, rfl⟩
  unfold Titration_init
  simp only [hr, hs, hrow, ht0, hacid, hco, bind_ok]
  rfl

end Calk
