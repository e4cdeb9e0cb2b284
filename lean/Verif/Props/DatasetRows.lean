import Verif.Props.Dataset

/-! # Properties of the dataset functions: C45, C48, C49, C51, C52 and the rest of C70 -/

namespace Calk
open Flt

/-! ## C45 -/

/-- cells of a solved row that are not results are those of the prepared row -/
theorem solvedRow_keeps {w : World} {kw : Dict Val} {cols : List String} {r r' : Row}
    (h : solvedRow w kw cols r = .ok r') (c : String) (h1 : c ∉ solvedCols ∨ c = "analyte_mass")
    (h2 : c ≠ "alkalinity_offset") : r' c = prepRow w cols r c := by
  rw [solvedRow, bind_ok_iff] at h
  obtain ⟨m, hm, ho⟩ := h
  obtain ⟨s, hs, rfl⟩ := mergedRow_inv hm
  rw [offsetRow_keeps ho c h2]
  unfold mergeSolved
  by_cases hc : c ∈ solvedCols
  · rw [if_pos hc]
    rcases h1 with h1 | h1
    · exact absurd hc h1
    · subst h1; exact solve_row_mass hs
  · rw [if_neg hc]

theorem mem_prep_of_done {cols : List String} {c : String}
    (h1 : c ∉ solvedCols ∨ c = "analyte_mass") (h2 : c ≠ "alkalinity_offset") :
    c ∈ doneCols cols ↔ c ∈ prepCols cols := by
  rw [mem_doneCols, mem_prepCols]
  constructor
  · rintro (h | h | h | h | h | h | h)
    · exact .inl h
    · exact .inr (.inl h)
    · exact .inr (.inr (.inl h))
    · exact .inr (.inr (.inr (.inl h)))
    · exact .inr (.inr (.inr (.inr h)))
    · rcases h1 with h1 | h1
      · exact absurd h h1
      · exact .inr (.inr (.inr (.inl h1)))
    · exact absurd h.2 h2
  · rintro (h | h | h | h | h)
    · exact .inl h
    · exact .inr (.inl h)
    · exact .inr (.inr (.inl h))
    · exact .inr (.inr (.inr (.inl h)))
    · exact .inr (.inr (.inr (.inr (.inl h))))

theorem doneCols_done (cols : List String) : doneCols (doneCols cols) = doneCols cols := by
  have hp : prepCols (doneCols cols) = doneCols cols := by
    apply saltCols_again
    intro c hc hne
    rw [mem_doneCols]
    have := (by decide : ∀ c ∈ prepFills, c ≠ "titrant_amount_unit" →
      (c = "opt_total_borate" ∨ c ∈ salts ∨ c = "analyte_mass" ∨ c = "file_good")) c hc hne
    rcases this with h | h | h | h
    · exact .inr (.inl h)
    · exact .inr (.inr (.inl h))
    · exact .inr (.inr (.inr (.inl h)))
    · exact .inr (.inr (.inr (.inr (.inl h))))
  conv_lhs => rw [doneCols, hp]
  rw [foldl_addCol_of_mem]
  · rw [offsetCols]
    split
    · rename_i h
      apply addCol_of_mem
      rw [mem_doneCols]
      refine .inr (.inr (.inr (.inr (.inr (.inr ⟨?_, rfl⟩)))))
      have := (mem_prep_of_done (.inl (by decide)) (by decide)).mp h
      exact prep_certified.mp this
    · rfl
  · intro c hc
    rw [mem_doneCols]
    exact .inr (.inr (.inr (.inr (.inr (.inl hc)))))

theorem prepCols_done (cols : List String) : prepCols (doneCols cols) = doneCols cols := by
  apply saltCols_again
  intro c hc hne
  rw [mem_doneCols]
  have := (by decide : ∀ c ∈ prepFills, c ≠ "titrant_amount_unit" →
    (c = "opt_total_borate" ∨ c ∈ salts ∨ c = "analyte_mass" ∨ c = "file_good")) c hc hne
  rcases this with h | h | h | h
  · exact .inr (.inl h)
  · exact .inr (.inr (.inl h))
  · exact .inr (.inr (.inr (.inl h)))
  · exact .inr (.inr (.inr (.inr (.inl h))))

/-- preparing a solved row does nothing -/
theorem prepRow_solved {w : World} {kw : Dict Val} {cols : List String} {r r' : Row}
    (h : solvedRow w kw cols r = .ok r') : prepRow w (doneCols cols) r' = r' := by
  refine prepRow_again (cols := cols) (r := r) ?_ ?_
  · intro c hc
    apply mem_prep_of_done
    · exact (by decide : ∀ c ∈ prepFills, c ∉ solvedCols ∨ c = "analyte_mass") c hc
    · exact (by decide : ∀ c ∈ prepFills, c ≠ "alkalinity_offset") c hc
  · intro c hc
    apply solvedRow_keeps h
    · rcases hc with hc | rfl
      · exact (by decide : ∀ c ∈ prepFills, c ∉ solvedCols ∨ c = "analyte_mass") c hc
      · exact .inl (by decide)
    · rcases hc with hc | rfl
      · exact (by decide : ∀ c ∈ prepFills, c ≠ "alkalinity_offset") c hc
      · decide

/-- the solver sees in a solved row what it saw in the prepared one -/
theorem agree_solved {w : World} {kw : Dict Val} {cols : List String} {r r' : Row}
    (h : solvedRow w kw cols r = .ok r') (cs : List String)
    (hcs : ∀ c ∈ cs, (c ∉ solvedCols ∨ c = "analyte_mass") ∧ c ≠ "alkalinity_offset") :
    Agree cs (doneCols cols) (prepCols cols) r' (prepRow w cols r) := by
  intro c hc
  obtain ⟨h1, h2⟩ := hcs c hc
  exact ⟨mem_prep_of_done h1 h2, fun _ => solvedRow_keeps h c h1 h2⟩

theorem reads_not_results : ∀ c ∈ solveReads, (c ∉ solvedCols ∨ c = "analyte_mass") ∧
    c ≠ "alkalinity_offset" := by decide

theorem solvedRow_again {w : World} {kw : Dict Val} {cols : List String} {r r' : Row}
    (h : solvedRow w kw cols r = .ok r') : solvedRow w kw (doneCols cols) r' = .ok r' := by
  have hp := prepRow_solved h
  have hs : solve_row w kw (doneCols cols) r' = solve_row w kw (prepCols cols) (prepRow w cols r) :=
    solve_row_congr (agree_solved h _ reads_not_results)
      (solvedRow_keeps h _ (.inl (by decide)) (by decide))
      (solvedRow_keeps h _ (.inl (by decide)) (by decide))
      (solvedRow_keeps h _ (.inl (by decide)) (by decide))
      (solvedRow_keeps h _ (.inr rfl) (by decide))
  have h0 := h
  rw [solvedRow, bind_ok_iff] at h
  obtain ⟨m, hm, ho⟩ := h
  obtain ⟨s, hs', rfl⟩ := mergedRow_inv hm
  have hmerge : mergeSolved r' s = r' := by
    funext c
    unfold mergeSolved
    by_cases hc : c ∈ solvedCols
    · rw [if_pos hc, offsetRow_keeps ho c (by rintro rfl; revert hc; decide)]
      unfold mergeSolved
      rw [if_pos hc]
    · rw [if_neg hc]
  have hm' : mergedRow w kw (doneCols cols) r' = .ok r' := by
    unfold mergedRow
    rw [hp, prepCols_done, hs, hs', bind_ok, pure_ok, hmerge]
  rw [solvedRow, hm', bind_ok]
  have hcert : "alkalinity_certified" ∈ doneCols cols ↔ "alkalinity_certified" ∈ cols :=
    (mem_prep_of_done (.inl (by decide)) (by decide)).trans prep_certified
  rw [offsetRow_congr hcert]
  have ha : r' "alkalinity" = mergeSolved (prepRow w cols r) s "alkalinity" :=
    offsetRow_keeps ho _ (by decide)
  have hb : r' "alkalinity_certified" = mergeSolved (prepRow w cols r) s "alkalinity_certified" :=
    offsetRow_keeps ho _ (by decide)
  unfold offsetRow at ho ⊢
  by_cases hc : "alkalinity_certified" ∈ cols
  · rw [if_pos hc] at ho ⊢
    rw [ha, hb]
    rw [bind_ok_iff] at ho
    obtain ⟨a, h1, ho⟩ := ho
    rw [bind_ok_iff] at ho
    obtain ⟨b, h2, ho⟩ := ho
    rw [h1, bind_ok, h2, bind_ok, pure_ok]
    simp only [pure_ok, Except.ok.injEq] at ho
    subst ho
    rw [Except.ok.injEq]
    funext c
    unfold Row.put
    split <;> rfl
  · rw [if_neg hc]

/-- **C45**: solving an already solved dataset again with the same arguments changes nothing. -/
theorem C45_solve_again (w : World) (kw : Dict Val) (df df' : DF)
    (h : dataset_solve w kw df = (.ok (), df')) : dataset_solve w kw df' = (.ok (), df') := by
  obtain ⟨h1, h2, h3, h4, h5, h6⟩ := dataset_solve_ok_iff.mp h
  rw [dataset_solve_ok_iff, h5, doneCols_done]
  refine ⟨h1, mem_doneCols.mpr (.inl h2), ?_, mem_doneCols.mpr (.inl h4), rfl, ?_⟩
  · exact .inl (mem_doneCols.mpr (.inr (.inr (.inr (.inl rfl)))))
  · rw [List.forall₂_same]
    intro r' hr'
    obtain ⟨r, _, hr⟩ : ∃ r ∈ df.rows, solvedRow w kw df.cols r = .ok r' :=
      forall₂_mem h6.flip hr'
    exact solvedRow_again hr

theorem calibrate_ends_solving {w : World} {kw : Dict Val} {df df' : DF}
    (h : dataset_calibrate w kw df = (.ok (), df')) : ∃ d, dataset_solve w kw d = (.ok (), df') := by
  unfold dataset_calibrate at h
  obtain ⟨_, d1, _, h⟩ := PyS.bind_ok_inv h
  obtain ⟨_, d2, _, h⟩ := PyS.bind_ok_inv h
  obtain ⟨_, d3, _, h⟩ := PyS.bind_ok_inv h
  obtain ⟨_, d4, _, h⟩ := PyS.bind_ok_inv h
  obtain ⟨_, d5, _, h⟩ := PyS.bind_ok_inv h
  obtain ⟨_, d6, _, h⟩ := PyS.bind_ok_inv h
  exact ⟨d6, h⟩

/-- **C45**: `calkulate` does exactly what `calibrate` does. -/
theorem C45_calkulate (w : World) (kw : Dict Val) (df : DF) :
    dataset_calkulate w kw df = dataset_calibrate w kw df := by
  unfold dataset_calkulate
  rw [PyS.bind_apply]
  rcases h : dataset_calibrate w kw df with ⟨res, d⟩
  cases res with
  | error e => rfl
  | ok u =>
    obtain ⟨d0, hd⟩ := calibrate_ends_solving h
    exact C45_solve_again w kw d0 d hd

/-! ## C48 -/

/-- **C48**: without a `salinity` column, `AssertionError` and nothing is changed. -/
theorem C48_assert (w : World) (df : DF) (h : "salinity" ∉ df.cols) :
    get_total_salts w df = (.error .AssertionError, df) := by
  rw [get_total_salts_eq, if_neg fun h' => h (has_iff.mp h')]

theorem c48_fills (w : World) (df : DF) (h : "salinity" ∈ df.cols) :
    ∃ df', get_total_salts w df = (.ok (), df') ∧
      (∀ c, c ∈ df'.cols ↔ c ∈ df.cols ∨ c ∈ ["opt_total_borate", "total_sulfate", "total_borate",
        "total_fluoride"]) ∧
      List.Forall₂ (fun r r' =>
        (∀ c ∉ ["opt_total_borate", "total_sulfate", "total_borate", "total_fluoride"],
          r' c = r c) ∧
        (∀ c ∈ ["opt_total_borate", "total_sulfate", "total_borate", "total_fluoride"],
          c ∈ df.cols → (r c).isNull = false → r' c = r c) ∧
        ("opt_total_borate" ∉ df.cols ∨ (r "opt_total_borate").isNull = true →
          r' "opt_total_borate" = .num (fin 1)) ∧
        (∀ c ∈ ["total_sulfate", "total_borate", "total_fluoride"],
          c ∉ df.cols ∨ (r c).isNull = true →
          r' c = .num (w.sysSalts (r "salinity") (r' "opt_total_borate") c))) df.rows df'.rows := by
  refine ⟨_, by rw [get_total_salts_eq, if_pos (has_iff.mpr h)], ?_, ?_⟩
  · intro c
    simp only
    rw [mem_saltCols]
    simp [salts]
  · rw [List.forall₂_map_right_iff, List.forall₂_same]
    intro r _
    refine ⟨fun c hc => saltRow_of_ne (by rintro rfl; exact hc (by decide)) (fun hs => hc ?_),
      fun c _ hc hn => saltRow_keep hc hn, ?_, ?_⟩
    · exact List.mem_cons_of_mem _ hs
    · intro hb
      unfold saltRow prepBorate
      rw [if_pos rfl, if_neg]
      rintro ⟨h1, h2⟩
      rcases hb with hb | hb
      · exact hb h1
      · rw [hb] at h2; cases h2
    · intro c hc hn
      have h1 : c ≠ "opt_total_borate" :=
        (by decide : ∀ c ∈ ["total_sulfate", "total_borate", "total_fluoride"],
          c ≠ "opt_total_borate") c hc
      have hb : saltRow w df.cols r "opt_total_borate" = prepBorate df.cols r := by
        unfold saltRow; rw [if_pos rfl]
      rw [hb]
      unfold saltRow
      rw [if_neg h1, if_pos (show c ∈ salts from hc), if_neg]
      rintro ⟨h2, h3⟩
      rcases hn with hn | hn
      · exact hn h2
      · rw [hn] at h3; cases h3

/-- **C48**: every non-null total and borate option is kept, nulls are filled in — the option with 1,
totals with what PyCO2SYS gives for the row's salinity and borate option — and no other column is
touched. -/
theorem C48_fills (w : World) (df : DF) (h : "salinity" ∈ df.cols) :
    ∃ df', get_total_salts w df = (.ok (), df') ∧
      (∀ c, c ∈ df'.cols ↔ c ∈ df.cols ∨ c ∈ ["opt_total_borate", "total_sulfate", "total_borate",
        "total_fluoride"]) ∧
      List.Forall₂ (fun r r' =>
        (∀ c ∉ ["opt_total_borate", "total_sulfate", "total_borate", "total_fluoride"],
          r' c = r c) ∧
        (∀ c ∈ ["opt_total_borate", "total_sulfate", "total_borate", "total_fluoride"],
          c ∈ df.cols → ¬ Spec.Null (r c) → r' c = r c) ∧
        ("opt_total_borate" ∉ df.cols ∨ Spec.Null (r "opt_total_borate") →
          r' "opt_total_borate" = .num (fin 1)) ∧
        (∀ c ∈ ["total_sulfate", "total_borate", "total_fluoride"],
          c ∉ df.cols ∨ Spec.Null (r c) →
          r' c = .num (w.sysSalts (r "salinity") (r' "opt_total_borate") c))) df.rows df'.rows := by
  simp only [← isNull_iff, Bool.not_eq_true] at *
  exact c48_fills w df h

/-- **C48**: calling it again changes nothing. -/
theorem C48_idempotent (w : World) (df df' : DF) (h : get_total_salts w df = (.ok (), df')) :
    get_total_salts w df' = (.ok (), df') := by
  rw [get_total_salts_eq] at h
  by_cases hS : df.has "salinity" = true
  swap
  · rw [if_neg hS] at h; cases h
  rw [if_pos hS] at h
  simp only [Prod.mk.injEq, true_and] at h
  subst h
  have hS' : "salinity" ∈ saltCols df.cols := mem_saltCols.mpr (.inl (has_iff.mp hS))
  rw [get_total_salts_eq, if_pos (has_iff.mpr hS')]
  simp only [Prod.mk.injEq, true_and, DF.mk.injEq]
  have hc : saltCols (saltCols df.cols) = saltCols df.cols := by
    conv_lhs => rw [saltCols]
    apply foldl_addCol_of_mem
    intro c hc
    rw [mem_saltCols]
    right
    exact (by decide : ∀ c ∈ ["opt_total_borate", "total_sulfate", "total_borate",
      "total_fluoride"], c = "opt_total_borate" ∨ c ∈ salts) c hc
  refine ⟨hc, ?_⟩
  rw [List.map_map]
  apply List.map_congr_left
  intro r _
  have hb : saltRow w df.cols r "opt_total_borate" = prepBorate df.cols r := by
    unfold saltRow; rw [if_pos rfl]
  have hB : prepBorate (saltCols df.cols) (saltRow w df.cols r) = prepBorate df.cols r :=
    prepBorate_prep w _ _ _ _ (mem_saltCols.mpr (.inr (.inl rfl))) hb
  have hsal : saltRow w df.cols r "salinity" = r "salinity" :=
    saltRow_of_ne (by decide) (by decide)
  funext c
  simp only [Function.comp]
  conv_lhs => rw [saltRow]
  by_cases h1 : c = "opt_total_borate"
  · rw [if_pos h1, hB, h1, hb]
  · rw [if_neg h1]
    by_cases h2 : c ∈ salts
    · rw [if_pos h2]
      by_cases hn : (saltRow w df.cols r c).isNull = false
      · rw [if_pos ⟨mem_saltCols.mpr (.inr (.inr h2)), hn⟩]
      · rw [if_neg fun h => hn h.2, hB, hsal]
        unfold saltRow at hn ⊢
        rw [if_neg h1, if_pos h2] at hn ⊢
        by_cases hu : c ∈ df.cols ∧ (r c).isNull = false
        · rw [if_pos hu] at hn; exact absurd hu.2 hn
        · rw [if_neg hu]
    · rw [if_neg h2]

example : "salinity" ∈ exFrame.cols ∧ "total_sulfate" ∉ exFrame.cols := by simp [exFrame]

/-! ## C49 -/

/-- a row that `dataset.solve` should leave alone -/
def SkipSolve (cols : List String) (r : Row) : Prop :=
  (r "titrant_molinity").isNull = true ∨ ("file_good" ∈ cols ∧ ¬ Spec.Counts (r "file_good"))

theorem prep_good {w : World} {cols : List String} {r : Row} (h : "file_good" ∈ cols) :
    prepRow w cols r "file_good" = r "file_good" := by
  unfold prepRow
  rw [if_neg (by decide), if_neg (by decide), if_pos rfl, if_pos h]

theorem solve_row_skip {w : World} {kw : Dict Val} {cols cols' : List String} {r : Row}
    (h : SkipSolve cols r) :
    solve_row w kw cols' (prepRow w cols r) = .ok (blankSolved (prepRow w cols r)) := by
  unfold solve_row
  rw [if_neg]
  intro hc
  simp only [Bool.and_eq_true, Bool.not_eq_true'] at hc
  rcases h with h | ⟨h1, h2⟩
  · rw [prepRow_other (by decide), h] at hc; cases hc.1
  · rw [prep_good h1, truthy_false.mpr h2] at hc; cases hc.2

/-- **C49** for `solve`: rows with `file_good` False or without a titrant molinity get blank
results. -/
theorem C49_solve_blank (w : World) (kw : Dict Val) (df df' : DF)
    (h : dataset_solve w kw df = (.ok (), df')) :
    List.Forall₂ (fun r r' => SkipSolve df.cols r → Blank r') df.rows df'.rows := by
  obtain ⟨_, _, _, _, _, h6⟩ := dataset_solve_ok_iff.mp h
  refine h6.imp fun r r' hr hskip => ?_
  rw [solvedRow, bind_ok_iff] at hr
  obtain ⟨m, hm, ho⟩ := hr
  obtain ⟨s, hs, rfl⟩ := mergedRow_inv hm
  rw [solve_row_skip hskip] at hs
  exact blank_offset ho (blank_of_merge (Except.ok.inj hs).symm)

/-- do two ways of reading files agree on the file `f`, found directly or in some directory? -/
def AgreeOn (f : String) (rd rd' : String → Dict Val → Py DatData) : Prop :=
  (∀ a, rd f a = rd' f a) ∧ ∀ p a, rd (pathJoin p f) a = rd' (pathJoin p f) a

theorem load_world {w : World} {rd : String → Dict Val → Py DatData} {f : String} {S : Flt}
    {kw : Dict Val} (h : AgreeOn f w.readDat rd) :
    load { w with readDat := rd } f S kw = load w f S kw := by
  unfold load full_name
  cases kw.get? "file_path" with
  | none => simp only [bind_ok, h.1]; rfl
  | some v => cases v <;> first | rfl | (simp only [bind_ok, h.2]; rfl)

theorem files_solve_world {w : World} {rd : String → Dict Val → Py DatData} {f : String} {c S : Flt}
    {kw : Dict Val} (h : AgreeOn f w.readDat rd) :
    files_solve { w with readDat := rd } f c S kw = files_solve w f c S kw := by
  unfold files_solve
  rw [load_world h]
  rfl

theorem files_calibrate_world {w : World} {rd : String → Dict Val → Py DatData} {f : String}
    {cert S : Flt} {kw : Dict Val} (h : AgreeOn f w.readDat rd) :
    files_calibrate { w with readDat := rd } f cert S kw = files_calibrate w f cert S kw := by
  unfold files_calibrate
  rw [load_world h]
  rfl

theorem solve_row_world {w : World} {rd : String → Dict Val → Py DatData} {kw : Dict Val}
    {cols : List String} {r : Row}
    (h : (r "titrant_molinity").isNull = false → (r "file_good").truthy = true →
      ∀ f, (r "file_name").toStr = .ok f → AgreeOn f w.readDat rd) :
    solve_row { w with readDat := rd } kw cols r = solve_row w kw cols r := by
  by_cases hact : (!(r "titrant_molinity").isNull && (r "file_good").truthy) = true
  · have hact' := hact
    simp only [Bool.and_eq_true, Bool.not_eq_true'] at hact'
    have hcall : solve_call { w with readDat := rd } kw cols r = solve_call w kw cols r := by
      unfold solve_call
      cases backcompat kw (rowDict cols r) with
      | error e => rfl
      | ok kw' =>
        simp only [bind_ok, rowAttr]
        split
        · simp only [bind_ok]
          cases hf : (r "file_name").toStr with
          | error e => rfl
          | ok f =>
            simp only [bind_ok, files_solve_world (h hact'.1 hact'.2 f hf)]
        · rfl
    simp only [solve_row, solve_attempt, hcall]
  · simp only [solve_row, if_neg hact]

theorem calibrate_row_world {w : World} {rd : String → Dict Val → Py DatData} {kw : Dict Val}
    {cols : List String} {r : Row}
    (h : (r "alkalinity_certified").isNull = false → (r "file_good").truthy = true →
      ∀ f, (r "file_name").toStr = .ok f → AgreeOn f w.readDat rd) :
    calibrate_row { w with readDat := rd } kw cols r = calibrate_row w kw cols r := by
  by_cases hact : (!(r "alkalinity_certified").isNull && (r "file_good").truthy) = true
  · have hact' := hact
    simp only [Bool.and_eq_true, Bool.not_eq_true'] at hact'
    have hcall : calibrate_attempt { w with readDat := rd } kw cols r
        = calibrate_attempt w kw cols r := by
      unfold calibrate_attempt
      cases backcompat kw (rowDict cols r) with
      | error e => rfl
      | ok kw' =>
        simp only [bind_ok, rowAttr]
        split
        · simp only [bind_ok]
          cases hf : (r "file_name").toStr with
          | error e => rfl
          | ok f =>
            simp only [bind_ok, files_calibrate_world (h hact'.1 hact'.2 f hf)]
        · rfl
    simp only [calibrate_row, hcall]
  · simp only [calibrate_row, if_neg hact]

/-- what a row's file must satisfy for its content to matter to `solve` -/
def ReadBySolve (cols : List String) (r : Row) (f : String) : Prop :=
  ¬ SkipSolve cols r ∧ (r "file_name").toStr = .ok f

/-- **C49** for `solve`: the files of those rows are never read — whatever is in them, or if they do
not exist at all, the outcome is the same. -/
theorem C49_solve_not_read (w : World) (rd : String → Dict Val → Py DatData) (kw : Dict Val) (df : DF)
    (h : ∀ r ∈ df.rows, ∀ f, ReadBySolve df.cols r f → AgreeOn f w.readDat rd) :
    dataset_solve { w with readDat := rd } kw df = dataset_solve w kw df := by
  unfold dataset_solve
  rw [PyS.lift_bind, PyS.lift_bind]
  cases dataset_ignored kw with
  | error e => rfl
  | ok l =>
    show (prepare _ >>= _) df = (prepare w >>= _) df
    rw [PyS.bind_apply, PyS.bind_apply]
    have hp : prepare { w with readDat := rd } df = prepare w df := by
      rw [prepare_eq, prepare_eq]; rfl
    rw [hp, prepare_eq]
    by_cases hS : df.has "salinity" = true
    swap
    · rw [if_neg hS]
    rw [if_pos hS]
    by_cases hmv : (df.has "analyte_mass" || df.has "analyte_volume") = true
    swap
    · rw [if_neg hmv]
    rw [if_pos hmv]
    show (PyS.require _ >>= _) _ = (PyS.require _ >>= _) _
    rw [PyS.require_bind, PyS.require_bind]
    split
    swap
    · rfl
    rw [PyS.update_bind, PyS.update_bind]
    have : assignSolved { w with readDat := rd } kw
        ⟨prepCols df.cols, df.rows.map (prepRow w df.cols)⟩
        = assignSolved w kw ⟨prepCols df.cols, df.rows.map (prepRow w df.cols)⟩ := by
      unfold assignSolved
      simp only
      rw [mapPy_congr]
      intro x hx
      obtain ⟨r, hr, rfl⟩ := List.mem_map.mp hx
      rw [solve_row_world]
      intro h1 h2 f hf
      rw [prepRow_other (by decide)] at h1 hf
      refine h r hr f ⟨?_, hf⟩
      rintro (h3 | ⟨h3, h4⟩)
      · rw [h1] at h3; cases h3
      · rw [prep_good h3, truthy_false.mpr h4] at h2; cases h2
    rw [this]

theorem c49_calibrate (w : World) (rd : String → Dict Val → Py DatData) (kw : Dict Val)
    (cols : List String) (r : Row)
    (h : (r "alkalinity_certified").isNull = true ∨ ¬ Spec.Counts (r "file_good")) :
    calibrate_row { w with readDat := rd } kw cols r = .ok (.num nan) := by
  unfold calibrate_row
  rw [if_neg]
  intro hc
  simp only [Bool.and_eq_true, Bool.not_eq_true'] at hc
  rcases h with h | h
  · rw [h] at hc; cases hc.1
  · rw [truthy_false.mpr h] at hc; cases hc.2

/-- **C49** for `calibrate`: a row with `file_good` False or without a certified value gets NaN, and
its file is not read to get it. -/
theorem C49_calibrate (w : World) (rd : String → Dict Val → Py DatData) (kw : Dict Val)
    (cols : List String) (r : Row)
    (h : Spec.Null (r "alkalinity_certified") ∨ ¬ Spec.Counts (r "file_good")) :
    calibrate_row { w with readDat := rd } kw cols r = .ok (.num nan) := by
  simp only [← isNull_iff, Bool.not_eq_true] at *
  exact c49_calibrate w rd kw cols r h

/-- a dataset with a row that is to be skipped and one that is not -/
noncomputable def exSkip : DF where
  cols := ["file_name", "salinity", "analyte_mass", "titrant_molinity", "file_good"]
  rows :=
    [ fun c => if c = "file_name" then .str "a.dat" else if c = "file_good" then .bool true
        else .num (fin 1),
      fun c => if c = "file_name" then .str "b.dat" else if c = "file_good" then .bool false
        else .num (fin 1) ]

example : (∃ r ∈ exSkip.rows, SkipSolve exSkip.cols r ∧ r "file_name" = .str "b.dat") ∧
    (∃ r ∈ exSkip.rows, ReadBySolve exSkip.cols r "a.dat") ∧
    ∀ r ∈ exSkip.rows, ¬ ReadBySolve exSkip.cols r "b.dat" := by
  refine ⟨⟨_, List.mem_cons_of_mem _ (List.mem_cons_self ..), .inr ⟨by simp [exSkip], ?_⟩, ?_⟩,
    ⟨_, List.mem_cons_self .., ?_, ?_⟩, ?_⟩
  · simp [Spec.Counts]
  · simp
  · rintro (h | ⟨_, h⟩)
    · simp [Val.isNull, Flt.isNaN] at h
    · simp [Spec.Counts] at h
  · simp [Val.toStr]
  · intro r hr ⟨h1, h2⟩
    simp only [exSkip, List.mem_cons, List.not_mem_nil, or_false] at hr
    rcases hr with rfl | rfl
    · simp [Val.toStr] at h2
    · exact h1 (.inr ⟨by simp [exSkip], by simp [Spec.Counts]⟩)

/-! ## C51 -/

/-- keys after `kw[k] = v` -/
theorem mem_keys_set {α : Type} (d : Dict α) (k x : String) (v : α) :
    x ∈ (d.set k v).keys ↔ x ∈ d.keys ∨ x = k := by
  rw [← not_iff_not, not_or, ← Dict.get?_eq_none_iff, ← Dict.get?_eq_none_iff, Dict.get?_set]
  by_cases h : x = k
  · simp [h]
  · simp [h]

theorem mem_keys_foldl_set (e d : Dict Val) (x : String) :
    x ∈ (e.foldl (fun kw kv => kw.set kv.1 kv.2) d).keys ↔ x ∈ d.keys ∨ x ∈ e.keys := by
  induction e generalizing d with
  | nil => simp [Dict.keys]
  | cons kv e ih =>
    rw [List.foldl_cons, ih, mem_keys_set]
    simp [Dict.keys, or_assoc]

/-- the names given: keyword arguments, and the entries of an old-style `read_dat_kwargs` -/
def Given (kw : Dict Val) (k : String) : Prop :=
  k ∈ kw.keys ∨ ∃ d, kw.get? "read_dat_kwargs" = some (.dict d) ∧ k ∈ Dict.keys d

/-- **C51**: `dataset.solve` reports as ignored exactly the arguments that are given and are neither
settings of the calibrator nor one of two old-style names. -/
theorem C51_exact (kw : Dict Val) (l : List String) (h : dataset_ignored kw = .ok l) (k : String) :
    k ∈ l ↔ Given kw k ∧ k ∉ keys_calibrate ∧ k ≠ "pH_range" ∧ k ≠ "read_dat_kwargs" := by
  simp only [dataset_ignored, bind_ok_iff, pure_ok, Except.ok.injEq] at h
  obtain ⟨kw', hkw, rfl⟩ := h
  simp only [backcompat, bind_ok_iff, pure_ok, Except.ok.injEq] at hkw
  obtain ⟨kw1, h1, kw2, h2, rfl⟩ := hkw
  have e1 : ∀ x, x ∈ kw1.keys ↔ Given kw x := by
    intro x
    unfold backcompat_dicts at h1
    unfold Given
    cases hd : kw.get? "read_dat_kwargs" with
    | none =>
      rw [hd] at h1; simp only [Except.ok.injEq] at h1; subst h1
      simp
    | some v =>
      rw [hd] at h1
      cases v with
      | dict d =>
        simp only [Except.ok.injEq] at h1; subst h1
        rw [mem_keys_foldl_set]
        constructor
        · rintro (h | h)
          · exact .inl h
          · exact .inr ⟨d, rfl, h⟩
        · rintro (h | ⟨d', h, h'⟩)
          · exact .inl h
          · simp only [Option.some.injEq, Val.dict.injEq] at h; subst h; exact .inr h'
      | _ => cases h1
  have e2 : ∀ x, x ∉ keys_calibrate → (x ∈ kw2.keys ↔ x ∈ kw1.keys) := by
    intro x hx
    unfold backcompat_range at h2
    cases hd : kw1.get? "pH_range" with
    | none => rw [hd] at h2; simp only [Except.ok.injEq] at h2; subst h2; rfl
    | some v =>
      rw [hd] at h2
      simp only [bind_ok_iff] at h2
      obtain ⟨⟨a, b⟩, _, h2⟩ := h2
      simp only [pure_ok, Except.ok.injEq] at h2
      subst h2
      rw [mem_keys_set, mem_keys_set]
      constructor
      · rintro ((h | h) | h)
        · exact h
        · subst h; exact absurd (by decide) hx
        · subst h; exact absurd (by decide) hx
      · exact fun h => .inl (.inl h)
  have e3 : ∀ x o, x ∉ keys_calibrate → (x ∈ (setFileType kw2 o).keys ↔ x ∈ kw2.keys) := by
    intro x o hx
    cases o with
    | none => rfl
    | some v =>
      simp only [setFileType]
      rw [mem_keys_set]
      constructor
      · rintro (h | h)
        · exact h
        · subst h; exact absurd (by decide) hx
      · exact .inl
  simp only [Dict.get?_nil]
  rw [show ∀ d : Dict Val, setFileType d none = d from fun _ => rfl, List.mem_filter]
  simp only [List.contains_append, List.contains_cons, List.contains_nil, Bool.or_false,
    Bool.not_or, Bool.and_eq_true, Bool.not_eq_true', beq_eq_false_iff_ne]
  constructor
  · rintro ⟨h, h3, h4, h5⟩
    have hk : k ∉ keys_calibrate := by
      intro hm; rw [List.contains_iff_mem.mpr hm] at h3; cases h3
    exact ⟨(e1 k).mp ((e2 k hk).mp ((e3 k _ hk).mp h)), hk, h4, h5⟩
  · rintro ⟨h, hk, h4, h5⟩
    refine ⟨(e3 k _ hk).mpr ((e2 k hk).mpr ((e1 k).mpr h)), ?_, h4, h5⟩
    rw [Bool.eq_false_iff]
    exact fun hm => hk (List.contains_iff_mem.mp hm)

/-- **C51**: `gran_logic` and `read_dat_method` are reported although they are used, while
`titrant_molinity_init`, which the solver never uses, is not. -/
theorem C51_misleading (kw : Dict Val) (l : List String) (h : dataset_ignored kw = .ok l) :
    (Given kw "gran_logic" → "gran_logic" ∈ l) ∧
    (Given kw "read_dat_method" → "read_dat_method" ∈ l) ∧
    "titrant_molinity_init" ∉ l ∧ "titrant_molinity_init" ∉ keys_solve := by
  refine ⟨fun hg => (C51_exact kw l h _).mpr ⟨hg, by decide⟩,
    fun hg => (C51_exact kw l h _).mpr ⟨hg, by decide⟩, fun hm => ?_, by decide⟩
  exact ((C51_exact kw l h _).mp hm).2.1 (by decide)

example : dataset_ignored [("gran_logic", .str "v23.7+"), ("pH_min", .num (fin 3)),
    ("pH_range", .tup [.num (fin 3), .num (fin 4)]), ("typo", .none)]
    = .ok ["gran_logic", "typo"] := by
  simp only [dataset_ignored, backcompat, backcompat_dicts, backcompat_range, Dict.get?_cons,
    Dict.get?_nil, Val.unpack2, setFileType, String.reduceEq, if_false, if_true, bind_ok, pure_ok,
    Dict.set, Dict.keys, List.map_cons, List.map_nil]
  decide

/-! ## C52 -/

/-- **C52**: without an `analyte_mass` column, `analyte_mass` is NaN for every row after solving (the
masses found from `analyte_volume` are not stored). -/
theorem C52_not_filled (w : World) (kw : Dict Val) (df df' : DF)
    (h : dataset_solve w kw df = (.ok (), df')) (hm : "analyte_mass" ∉ df.cols) :
    "analyte_mass" ∈ df'.cols ∧ ∀ r' ∈ df'.rows, r' "analyte_mass" = .num nan := by
  obtain ⟨_, _, _, _, h5, h6⟩ := dataset_solve_ok_iff.mp h
  refine ⟨by rw [h5]; exact mem_doneCols.mpr (.inr (.inr (.inr (.inl rfl)))), ?_⟩
  intro r' hr'
  obtain ⟨r, _, hr⟩ : ∃ r ∈ df.rows, solvedRow w kw df.cols r = .ok r' := forall₂_mem h6.flip hr'
  rw [solvedRow_keeps hr _ (.inr rfl) (by decide)]
  unfold prepRow
  rw [if_pos rfl, if_neg hm]

/-- With an `analyte_mass` column, every cell stays as it was, null or not. -/
theorem C52_not_changed (w : World) (kw : Dict Val) (df df' : DF)
    (h : dataset_solve w kw df = (.ok (), df')) (hm : "analyte_mass" ∈ df.cols) :
    List.Forall₂ (fun r r' => r' "analyte_mass" = r "analyte_mass") df.rows df'.rows := by
  obtain ⟨_, _, _, _, h5, h6⟩ := dataset_solve_ok_iff.mp h
  refine h6.imp fun r r' hr => ?_
  rw [solvedRow_keeps hr _ (.inr rfl) (by decide)]
  unfold prepRow
  rw [if_pos rfl, if_pos hm]

/-- a dataset with volumes only, which can be solved whatever the world does -/
noncomputable def exVolume : DF where
  cols := ["file_name", "salinity", "analyte_volume", "titrant_molinity"]
  rows := [fun c => if c = "file_name" then .str "a.dat" else .num (fin 1)]

example (w : World) : ∃ df', dataset_solve w [] exVolume = (.ok (), df') ∧
    "analyte_mass" ∉ exVolume.cols := by
  obtain ⟨df', h⟩ := C41_finishes w [] exVolume ⟨[], rfl⟩ (by simp [exVolume])
    (by simp [exVolume]) (by simp [exVolume]) (by simp [exVolume]) (by simp [exVolume])
  exact ⟨df', h, by simp [exVolume]⟩

/-! ## C70 -/

/-- **C70**: apart from `analyte_mass`, no result column of `dataset.solve` or `dataset.calibrate` is
ever read back as a setting of the solver or the calibrator (solved datasets can be solved again). -/
theorem C70_results_not_settings :
    (∀ c ∈ ["alkalinity_npts", "alkalinity_std", "alkalinity", "emf0", "gran_alkalinity",
      "gran_emf0", "pH_init", "temperature_init", "alkalinity_offset", "titrant_molinity_here",
      "titrant_molinity", "reference_good", "analysis_batch", "alkalinity_certified"],
      c ∉ keys_solve ∧ c ∉ keys_calibrate ∧ c ≠ "read_dat_method") ∧
    "analyte_mass" ∈ keys_solve := by decide

end Calk
