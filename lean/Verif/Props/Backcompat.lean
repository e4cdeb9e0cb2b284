import Verif.Props.CalibrateCases

/-! # Old-style arguments (C39) and shadowed arguments (C47) -/

namespace Calk
open Flt

/-! ## Keyword dicts that differ only where it does not matter -/

/-- outcomes of `backcompat` that agree on the keys allowed by `p` -/
def EqOnR (p : String → Bool) : Py (Dict Val) → Py (Dict Val) → Prop
  | .ok d, .ok d' => EqOn p d d'
  | .error e, .error e' => e = e'
  | _, _ => False

theorem EqOnR.setFileType {p : String → Bool} {d d' : Dict Val} (h : EqOn p d d') (o : Option Val) :
    EqOn p (setFileType d o) (setFileType d' o) := by
  cases o with
  | none => exact h
  | some v => exact h.set _ _

theorem backcompat_tail {p : String → Bool} {d d' : Dict Val} (h : EqOn p d d')
    (h1 : d.get? "pH_range" = d'.get? "pH_range")
    (h2 : d.get? "read_dat_method" = d'.get? "read_dat_method") (row : Dict Val) :
    EqOnR p (do
        let kw ← backcompat_range d
        let kw := setFileType kw (kw.get? "read_dat_method")
        return setFileType kw (row.get? "read_dat_method"))
      (do
        let kw ← backcompat_range d'
        let kw := setFileType kw (kw.get? "read_dat_method")
        return setFileType kw (row.get? "read_dat_method")) := by
  unfold backcompat_range
  rw [h1]
  cases d'.get? "pH_range" with
  | none =>
    simp only [bind_ok, pure_ok, EqOnR, h2]
    exact EqOnR.setFileType (EqOnR.setFileType h _) _
  | some v =>
    cases hv : v.unpack2 with
    | error e => simp only [hv, bind_error, EqOnR]
    | ok ab =>
      obtain ⟨a, b⟩ := ab
      simp only [hv, bind_ok, pure_ok, EqOnR]
      rw [Dict.get?_set_ne _ _ _ _ (by decide), Dict.get?_set_ne _ _ _ _ (by decide),
        Dict.get?_set_ne _ _ _ _ (by decide), Dict.get?_set_ne _ _ _ _ (by decide), h2]
      exact EqOnR.setFileType (EqOnR.setFileType ((h.set _ _).set _ _) _) _

theorem backcompat_eqOn {p : String → Bool} {kw kw' : Dict Val} (h : EqOn p kw kw')
    (hp : p "read_dat_kwargs" = true ∧ p "pH_range" = true ∧ p "read_dat_method" = true)
    (row : Dict Val) : EqOnR p (backcompat kw row) (backcompat kw' row) := by
  obtain ⟨hp1, hp2, hp3⟩ := hp
  unfold backcompat backcompat_dicts
  rw [h.get hp1]
  split
  · simp only [bind_ok]; exact backcompat_tail h (h.get hp2) (h.get hp3) row
  · rename_i d _
    simp only [bind_ok]
    have h' := h.foldl_set d
    exact backcompat_tail h' (h'.get hp2) (h'.get hp3) row
  · simp only [bind_error, EqOnR]

/-- arguments on which the dicts differ are given by the row, or not looked at -/
theorem sameKw_of_eqOn {p : String → Bool} {d d' row : Dict Val} (h : EqOn p d d') (keys : List String)
    (hp : ∀ k ∈ keys, p k = true ∨ ∃ v, row.get? k = some v ∧ v.isNull = false)
    (hr : ∀ k ∈ keys_read_dat, p k = true) (ht : ∀ k ∈ keys_titrant_totals, p k = true) :
    SameKw keys (get_kwargs_for keys d (some row)) (get_kwargs_for keys d' (some row)) where
  get := by
    intro k hk
    rw [C31_value, C31_value, if_pos hk, if_pos hk]
    rcases hp k hk with h1 | ⟨v, h1, h2⟩
    · unfold chosen; rw [h.get h1]
    · unfold chosen; rw [h1]; simp only [h2, Bool.false_eq_true, if_false]
  read := by
    rw [get_kwargs_none, get_kwargs_none]
    exact (h.get_kwargs keys row).mono fun k hk => hr k (by simpa using hk)
  tts := (h.get_kwargs keys row).mono fun k hk => ht k (by simpa using hk)

theorem solve_call_eqOn {p : String → Bool} {w : World} {kw kw' : Dict Val} {cols : List String}
    {r : Row} (hb : EqOnR p (backcompat kw (rowDict cols r)) (backcompat kw' (rowDict cols r)))
    (hp : ∀ k ∈ keys_solve, p k = true ∨ ∃ v, (rowDict cols r).get? k = some v ∧ v.isNull = false)
    (hr : ∀ k ∈ keys_read_dat, p k = true) (ht : ∀ k ∈ keys_titrant_totals, p k = true) :
    solve_call w kw cols r = solve_call w kw' cols r := by
  unfold solve_call
  cases h1 : backcompat kw (rowDict cols r) <;> cases h2 : backcompat kw' (rowDict cols r) <;>
    rw [h1, h2] at hb
  · cases hb; rfl
  · exact absurd hb id
  · exact absurd hb id
  · simp only [bind_ok, files_solve_congr (sameKw_of_eqOn hb keys_solve hp hr ht)]

theorem solve_row_eqOn {p : String → Bool} {w : World} {kw kw' : Dict Val} {cols : List String}
    {r : Row} (hb : EqOnR p (backcompat kw (rowDict cols r)) (backcompat kw' (rowDict cols r)))
    (hp : ∀ k ∈ keys_solve, p k = true ∨ ∃ v, (rowDict cols r).get? k = some v ∧ v.isNull = false)
    (hr : ∀ k ∈ keys_read_dat, p k = true) (ht : ∀ k ∈ keys_titrant_totals, p k = true) :
    solve_row w kw cols r = solve_row w kw' cols r := by
  unfold solve_row solve_attempt
  rw [solve_call_eqOn hb hp hr ht]

theorem calibrate_row_eqOn {p : String → Bool} {w : World} {kw kw' : Dict Val} {cols : List String}
    {r : Row} (hb : EqOnR p (backcompat kw (rowDict cols r)) (backcompat kw' (rowDict cols r)))
    (hp : ∀ k ∈ keys_calibrate, p k = true ∨ ∃ v, (rowDict cols r).get? k = some v ∧ v.isNull = false)
    (hr : ∀ k ∈ keys_read_dat, p k = true) (ht : ∀ k ∈ keys_titrant_totals, p k = true) :
    calibrate_row w kw cols r = calibrate_row w kw' cols r := by
  have : calibrate_attempt w kw cols r = calibrate_attempt w kw' cols r := by
    unfold calibrate_attempt
    cases h1 : backcompat kw (rowDict cols r) <;> cases h2 : backcompat kw' (rowDict cols r) <;>
      rw [h1, h2] at hb
    · cases hb; rfl
    · exact absurd hb id
    · exact absurd hb id
    · simp only [bind_ok, files_calibrate_congr (sameKw_of_eqOn hb keys_calibrate hp hr ht)]
  unfold calibrate_row
  rw [this]

/-- `dataset.solve` depends on its keyword arguments only through what it makes of the rows -/
theorem dataset_solve_kw {w : World} {kw kw' : Dict Val} {df : DF}
    (hi : ∀ l, (dataset_ignored kw = .ok l → ∃ l', dataset_ignored kw' = .ok l'))
    (he : ∀ e, dataset_ignored kw = .error e → dataset_ignored kw' = .error e)
    (hrow : ∀ r ∈ df.rows, solve_row w kw (prepCols df.cols) (prepRow w df.cols r)
      = solve_row w kw' (prepCols df.cols) (prepRow w df.cols r)) :
    dataset_solve w kw df = dataset_solve w kw' df := by
  unfold dataset_solve
  rw [PyS.lift_bind, PyS.lift_bind]
  cases h : dataset_ignored kw with
  | error e => rw [he e h]
  | ok l =>
    obtain ⟨l', hl'⟩ := hi l h
    rw [hl']
    simp only
    rw [PyS.bind_apply, PyS.bind_apply, prepare_eq]
    by_cases hS : df.has "salinity" = true
    swap
    · rw [if_neg hS]
    rw [if_pos hS]
    by_cases hmv : (df.has "analyte_mass" || df.has "analyte_volume") = true
    swap
    · rw [if_neg hmv]
    rw [if_pos hmv]
    simp only
    rw [PyS.require_bind, PyS.require_bind]
    split
    · rw [PyS.update_bind, PyS.update_bind, assignSolved_eq, assignSolved_eq]
      have : mapPy (mergedRow w kw df.cols) df.rows = mapPy (mergedRow w kw' df.cols) df.rows := by
        apply mapPy_congr
        intro r hr
        unfold mergedRow
        rw [hrow r hr]
      rw [this]
    · rfl

theorem dataset_calibrate_kw {w : World} {kw kw' : Dict Val} {df : DF}
    (hrow : ∀ r ∈ df.rows, calibrate_row w kw (prepCols df.cols) (prepRow w df.cols r)
      = calibrate_row w kw' (prepCols df.cols) (prepRow w df.cols r))
    (hsol : ∀ rows, List.Forall₂ (fun r r' => hereRow w kw df.cols r = .ok r') df.rows rows →
      dataset_solve w kw (withMolinity (withDefaults ⟨hereCols df.cols, rows⟩))
        = dataset_solve w kw' (withMolinity (withDefaults ⟨hereCols df.cols, rows⟩))) :
    dataset_calibrate w kw df = dataset_calibrate w kw' df := by
  unfold dataset_calibrate
  rw [PyS.bind_apply, PyS.bind_apply, prepare_eq]
  by_cases hS : df.has "salinity" = true
  swap
  · rw [if_neg hS]
  rw [if_pos hS]
  by_cases hmv : (df.has "analyte_mass" || df.has "analyte_volume") = true
  swap
  · rw [if_neg hmv]
  rw [if_pos hmv]
  simp only
  rw [PyS.require_bind, PyS.require_bind]
  split
  swap
  · rfl
  have hset : ∀ kw, (DF.mk (prepCols df.cols) (df.rows.map (prepRow w df.cols))).setColM
      "titrant_molinity_here" (calibrate_row w kw (prepCols df.cols))
      = (do let rows ← mapPy (hereRow w kw df.cols) df.rows
            return ⟨hereCols df.cols, rows⟩) := by
    intro kw
    unfold DF.setColM
    simp only [mapPy_map]
    rfl
  have hm : mapPy (hereRow w kw df.cols) df.rows = mapPy (hereRow w kw' df.cols) df.rows := by
    apply mapPy_congr
    intro r hr
    unfold hereRow
    rw [hrow r hr]
  rw [PyS.update_bind, PyS.update_bind, hset, hset, ← hm]
  cases hmap : mapPy (hereRow w kw df.cols) df.rows with
  | error e => rfl
  | ok rows =>
    simp only [bind_ok, pure_ok]
    rw [PyS.modify_bind, PyS.modify_bind, PyS.update_bind, PyS.modify_bind, PyS.modify_bind,
      PyS.update_bind]
    have hd : defaultReferenceGood (defaultBatch ⟨hereCols df.cols, rows⟩)
      = withDefaults ⟨hereCols df.cols, rows⟩ := rfl
    rw [hd]
    split
    · rename_i s' h
      have : s' = withMolinity (withDefaults ⟨hereCols df.cols, rows⟩) := by
        unfold assignMolinity at h
        split_ifs at h
        exact (Except.ok.inj h).symm
      rw [this]
      exact hsol rows (mapPy_ok hmap)
    · rfl

/-! ## C47 -/

theorem ignored_eqOn {p : String → Bool} {kw kw' : Dict Val} (h : EqOn p kw kw')
    (hp : p "read_dat_kwargs" = true ∧ p "pH_range" = true ∧ p "read_dat_method" = true) :
    (∀ l, (dataset_ignored kw = .ok l → ∃ l', dataset_ignored kw' = .ok l')) ∧
    (∀ e, dataset_ignored kw = .error e → dataset_ignored kw' = .error e) := by
  have hb := backcompat_eqOn h hp []
  unfold dataset_ignored
  cases h1 : backcompat kw [] <;> cases h2 : backcompat kw' [] <;> rw [h1, h2] at hb
  · cases hb
    simp only [bind_error]
    exact ⟨fun l h => (by cases h), fun e h => h⟩
  · exact absurd hb id
  · exact absurd hb id
  · simp only [bind_ok, pure_ok]
    exact ⟨fun _ _ => ⟨_, rfl⟩, fun e h => (by cases h)⟩

theorem prepRow_borate_notNull (w : World) (cols : List String) (r : Row) :
    (prepRow w cols r "opt_total_borate").isNull = false := by
  unfold prepRow
  rw [if_neg (by decide), if_neg (by decide), if_neg (by decide)]
  unfold saltRow
  rw [if_pos rfl]
  exact prepBorate_notNull cols r

/-- **C47**: an `opt_total_borate` keyword argument has no effect on `dataset.solve` ... -/
theorem C47_borate_solve (w : World) (kw : Dict Val) (v : Val) (df : DF) :
    dataset_solve w (kw.set "opt_total_borate" v) df = dataset_solve w kw df := by
  have h : EqOn (fun k => k ≠ "opt_total_borate") (kw.set "opt_total_borate" v) kw :=
    EqOn.set_left _ _ _ (by decide)
  have hi := ignored_eqOn h (by decide)
  refine dataset_solve_kw hi.1 hi.2 fun r _ => ?_
  refine solve_row_eqOn (backcompat_eqOn h (by decide) _) ?_ (by decide) (by decide)
  intro k _
  by_cases hk : k = "opt_total_borate"
  · subst hk
    refine .inr ⟨_, ?_, prepRow_borate_notNull w df.cols r⟩
    rw [rowDict_get?, if_pos (mem_prepCols.mpr (.inr (.inl rfl)))]
  · exact .inl (by simpa using hk)

/-- ... nor on `dataset.calibrate`. -/
theorem C47_borate_calibrate (w : World) (kw : Dict Val) (v : Val) (df : DF) :
    dataset_calibrate w (kw.set "opt_total_borate" v) df = dataset_calibrate w kw df := by
  have h : EqOn (fun k => k ≠ "opt_total_borate") (kw.set "opt_total_borate" v) kw :=
    EqOn.set_left _ _ _ (by decide)
  refine dataset_calibrate_kw (fun r _ => ?_) (fun rows _ => C47_borate_solve w kw v _)
  refine calibrate_row_eqOn (backcompat_eqOn h (by decide) _) ?_ (by decide) (by decide)
  intro k _
  by_cases hk : k = "opt_total_borate"
  · subst hk
    refine .inr ⟨_, ?_, prepRow_borate_notNull w df.cols r⟩
    rw [rowDict_get?, if_pos (mem_prepCols.mpr (.inr (.inl rfl)))]
  · exact .inl (by simpa using hk)

/-- a value for the salt `s` is in the row or comes from PyCO2SYS -/
def SaltProvided (w : World) (cols : List String) (s : String) (r : Row) : Prop :=
  (s ∈ cols ∧ (r s).isNull = false) ∨ ∀ b, w.sysSalts (r "salinity") b s ≠ nan

theorem salt_notNull {w : World} {cols : List String} {s : String} {r : Row} (hs : s ∈ salts)
    (h : SaltProvided w cols s r) : (prepRow w cols r s).isNull = false := by
  have hne := (by decide : ∀ s ∈ salts, s ≠ "analyte_mass" ∧ s ≠ "titrant_amount_unit" ∧
    s ≠ "file_good" ∧ s ≠ "opt_total_borate") s hs
  unfold prepRow
  rw [if_neg hne.1, if_neg hne.2.1, if_neg hne.2.2.1]
  unfold saltRow
  rw [if_neg hne.2.2.2, if_pos hs]
  by_cases hc : s ∈ cols ∧ (r s).isNull = false
  · rw [if_pos hc]; exact hc.2
  · rw [if_neg hc]
    rcases h with h | h
    · exact absurd h hc
    · exact isNaN_false_iff.mpr (h _)

/-- **C47**: a `total_sulfate`, `total_borate` or `total_fluoride` keyword argument has no effect on
`dataset.solve` if every row has a value, its own or PyCO2SYS's; ... -/
theorem C47_salt_solve (w : World) (kw : Dict Val) (s : String) (v : Val) (df : DF) (hs : s ∈ salts)
    (hp : ∀ r ∈ df.rows, SaltProvided w df.cols s r) :
    dataset_solve w (kw.set s v) df = dataset_solve w kw df := by
  have h : EqOn (fun k => k ≠ s) (kw.set s v) kw := EqOn.set_left _ _ _ (by simp)
  have h3 : (decide ("read_dat_kwargs" ≠ s) = true) ∧ (decide ("pH_range" ≠ s) = true) ∧
      (decide ("read_dat_method" ≠ s) = true) :=
    (by decide : ∀ s ∈ salts, (decide ("read_dat_kwargs" ≠ s) = true) ∧
      (decide ("pH_range" ≠ s) = true) ∧ (decide ("read_dat_method" ≠ s) = true)) s hs
  have hi := ignored_eqOn h h3
  refine dataset_solve_kw hi.1 hi.2 fun r hr => ?_
  refine solve_row_eqOn (backcompat_eqOn h h3 _) ?_
    (fun k hk => (by decide : ∀ s ∈ salts, ∀ k ∈ keys_read_dat, decide (k ≠ s) = true) s hs k hk)
    (fun k hk => (by decide : ∀ s ∈ salts, ∀ k ∈ keys_titrant_totals, decide (k ≠ s) = true) s hs k hk)
  intro k _
  by_cases hk : k = s
  · subst hk
    refine .inr ⟨_, ?_, salt_notNull hs (hp r hr)⟩
    rw [rowDict_get?, if_pos (mem_prepCols.mpr (.inr (.inr (.inl hs))))]
  · exact .inl (by simpa using hk)

/-- ... nor on `dataset.calibrate`. -/
theorem C47_salt_calibrate (w : World) (kw : Dict Val) (s : String) (v : Val) (df : DF)
    (hs : s ∈ salts) (hp : ∀ r ∈ df.rows, SaltProvided w df.cols s r) :
    dataset_calibrate w (kw.set s v) df = dataset_calibrate w kw df := by
  have h : EqOn (fun k => k ≠ s) (kw.set s v) kw := EqOn.set_left _ _ _ (by simp)
  have h3 : (decide ("read_dat_kwargs" ≠ s) = true) ∧ (decide ("pH_range" ≠ s) = true) ∧
      (decide ("read_dat_method" ≠ s) = true) :=
    (by decide : ∀ s ∈ salts, (decide ("read_dat_kwargs" ≠ s) = true) ∧
      (decide ("pH_range" ≠ s) = true) ∧ (decide ("read_dat_method" ≠ s) = true)) s hs
  refine dataset_calibrate_kw (fun r hr => ?_) (fun rows hrows => ?_)
  · refine calibrate_row_eqOn (backcompat_eqOn h h3 _) ?_
      (fun k hk => (by decide : ∀ s ∈ salts, ∀ k ∈ keys_read_dat, decide (k ≠ s) = true) s hs k hk)
      (fun k hk => (by decide : ∀ s ∈ salts, ∀ k ∈ keys_titrant_totals, decide (k ≠ s) = true) s hs k hk)
    intro k _
    by_cases hk : k = s
    · subst hk
      refine .inr ⟨_, ?_, salt_notNull hs (hp r hr)⟩
      rw [rowDict_get?, if_pos (mem_prepCols.mpr (.inr (.inr (.inl hs))))]
    · exact .inl (by simpa using hk)
  · refine C47_salt_solve w kw s v _ hs fun r hr => ?_
    have hne := (by decide : ∀ s ∈ salts, s ≠ "analysis_batch" ∧ s ≠ "reference_good" ∧
      s ≠ "titrant_molinity_here" ∧ s ≠ "titrant_molinity") s hs
    obtain ⟨g, hg, hg1, _⟩ := withDefaults_rows ⟨hereCols df.cols, rows⟩
    obtain ⟨r1, hr1, rfl⟩ := List.mem_map.mp hr
    rw [hg] at hr1
    obtain ⟨r2, hr2, rfl⟩ := List.mem_map.mp hr1
    obtain ⟨r0, hr0, h2⟩ : ∃ z ∈ df.rows, hereRow w (kw.set s v) df.cols z = .ok r2 :=
      forall₂_mem hrows.flip hr2
    obtain ⟨x, _, rfl⟩ := hereRow_inv h2
    refine .inl ⟨?_, ?_⟩
    · exact mem_addCol.mpr (.inl (mem_withDefaults.mpr (.inl (mem_addCol.mpr (.inl
        (mem_prepCols.mpr (.inr (.inr (.inl hs)))))))))
    · rw [put_ne _ _ hne.2.2.2, hg1 _ _ hne.1 hne.2.1, put_ne _ _ hne.2.2.1]
      exact salt_notNull hs (hp r0 hr0)

/-- C47 applies where the totals are computed, and where they are given -/
example : SaltProvided gWorld gCols "total_borate" (gRow true) ∧
    SaltProvided gWorld ("total_borate" :: gCols) "total_borate"
      ((gRow true).put "total_borate" (.num (fin 4e-4))) := by
  refine ⟨.inr fun b => ?_, .inl ⟨by decide, ?_⟩⟩
  · simp [gWorld, gRow]
  · rw [put_eq]; rfl

/-! ## C39 -/

/-- settings that `files.solve` and `files.calibrate` cannot tell apart -/
structure SameSettings (d d' : Dict Val) : Prop where
  get : ∀ k ∈ keys_solve ++ keys_calibrate, d.get? k = d'.get? k
  pass : EqOn (fun k => keys_read_dat.contains k || keys_titrant_totals.contains k) d d'

theorem SameSettings.of_eqOn {p : String → Bool} {d d' : Dict Val} (h : EqOn p d d')
    (hp : ∀ k ∈ keys_solve ++ keys_calibrate, p k = true) : SameSettings d d' where
  get := fun k hk => h.get (hp k hk)
  pass := h.mono fun k hk => hp k ((by decide : ∀ k ∈ keys_read_dat ++ keys_titrant_totals,
      k ∈ keys_solve ++ keys_calibrate) k (by simpa using hk))

theorem SameSettings.set {d d' : Dict Val} (h : SameSettings d d') (k : String) (v : Val) :
    SameSettings (d.set k v) (d'.set k v) where
  get := fun k' hk' => by rw [Dict.get?_set, Dict.get?_set, h.get k' hk']
  pass := h.pass.set k v

theorem SameSettings.trans {d d' d'' : Dict Val} (h : SameSettings d d') (h' : SameSettings d' d'') :
    SameSettings d d'' := ⟨fun k hk => (h.get k hk).trans (h'.get k hk), h.pass.trans h'.pass⟩

theorem SameSettings.setFileType {d d' : Dict Val} (h : SameSettings d d') (o : Option Val) :
    SameSettings (setFileType d o) (Calk.setFileType d' o) := by
  cases o with
  | none => exact h
  | some v => exact h.set _ _

theorem SameSettings.kw {d d' : Dict Val} (h : SameSettings d d') (keys : List String)
    (hk : ∀ k ∈ keys, k ∈ keys_solve ++ keys_calibrate) (row : Dict Val) :
    SameKw keys (get_kwargs_for keys d (some row)) (get_kwargs_for keys d' (some row)) where
  get := by
    intro k hk'
    rw [C31_value, C31_value, if_pos hk', if_pos hk']
    unfold chosen
    rw [h.get k (hk k hk')]
  read := by
    rw [get_kwargs_none, get_kwargs_none]
    exact (h.pass.get_kwargs keys row).mono fun k hk => by simp [show k ∈ keys_read_dat by simpa using hk]
  tts := (h.pass.get_kwargs keys row).mono fun k hk => by
    simp [show k ∈ keys_titrant_totals by simpa using hk]

/-- the two sets of keyword arguments mean the same in every row -/
def Interchangeable (kw kw' : Dict Val) : Prop :=
  ∀ row, match backcompat kw row, backcompat kw' row with
    | .ok d, .ok d' => SameSettings d d'
    | .error e, .error e' => e = e'
    | _, _ => False

theorem Interchangeable.solve_row {kw kw' : Dict Val} (h : Interchangeable kw kw') (w : World)
    (cols : List String) (r : Row) : solve_row w kw cols r = solve_row w kw' cols r := by
  have hc : solve_call w kw cols r = solve_call w kw' cols r := by
    have hb := h (rowDict cols r)
    unfold solve_call
    cases h1 : backcompat kw (rowDict cols r) <;> cases h2 : backcompat kw' (rowDict cols r) <;>
      rw [h1, h2] at hb
    · cases hb; rfl
    · exact absurd hb id
    · exact absurd hb id
    · simp only [bind_ok, files_solve_congr (SameSettings.kw hb keys_solve
        (fun k hk => List.mem_append_left _ hk) (rowDict cols r))]
  unfold Calk.solve_row solve_attempt
  rw [hc]

theorem Interchangeable.calibrate_row {kw kw' : Dict Val} (h : Interchangeable kw kw') (w : World)
    (cols : List String) (r : Row) : calibrate_row w kw cols r = calibrate_row w kw' cols r := by
  have hc : calibrate_attempt w kw cols r = calibrate_attempt w kw' cols r := by
    have hb := h (rowDict cols r)
    unfold calibrate_attempt
    cases h1 : backcompat kw (rowDict cols r) <;> cases h2 : backcompat kw' (rowDict cols r) <;>
      rw [h1, h2] at hb
    · cases hb; rfl
    · exact absurd hb id
    · exact absurd hb id
    · simp only [bind_ok, files_calibrate_congr (SameSettings.kw hb keys_calibrate
        (fun k hk => List.mem_append_right _ hk) (rowDict cols r))]
  unfold Calk.calibrate_row
  rw [hc]

theorem Interchangeable.dataset_solve {kw kw' : Dict Val} (h : Interchangeable kw kw') (w : World)
    (df : DF) : dataset_solve w kw df = dataset_solve w kw' df := by
  have hb := h []
  refine dataset_solve_kw ?_ ?_ fun r _ => h.solve_row w _ _ <;> unfold dataset_ignored <;>
    cases h1 : backcompat kw [] <;> cases h2 : backcompat kw' [] <;> rw [h1, h2] at hb
  all_goals first
    | exact absurd hb id
    | (intro e he; cases hb; exact he)
    | (intro e he; exact ⟨_, rfl⟩)
    | (intro e he; cases he)

theorem Interchangeable.dataset_calibrate {kw kw' : Dict Val} (h : Interchangeable kw kw')
    (w : World) (df : DF) : dataset_calibrate w kw df = dataset_calibrate w kw' df :=
  dataset_calibrate_kw (fun r _ => h.calibrate_row w _ _) (fun rows _ => h.dataset_solve w _)

set_option maxRecDepth 4000 in
theorem range_interchangeable (kw : Dict Val) (a b : Val) (h1 : kw.get? "read_dat_kwargs" = none)
    (h2 : kw.get? "pH_range" = none) :
    Interchangeable (kw.set "pH_range" (.tup [a, b])) ((kw.set "pH_min" a).set "pH_max" b) := by
  intro row
  unfold backcompat backcompat_dicts backcompat_range
  rw [Dict.get?_set_ne _ _ _ _ (by decide), Dict.get?_set_ne _ _ _ _ (by decide),
    Dict.get?_set_ne _ _ _ _ (by decide), h1]
  simp only [bind_ok, Dict.get?_set_self, Val.unpack2]
  rw [Dict.get?_set_ne _ _ _ _ (by decide), Dict.get?_set_ne _ _ _ _ (by decide), h2]
  simp only [bind_ok, pure_ok]
  have e : EqOn (fun k => k ≠ "pH_range")
      (((kw.set "pH_range" (.tup [a, b])).set "pH_min" a).set "pH_max" b)
      ((kw.set "pH_min" a).set "pH_max" b) :=
    ((EqOn.set_left _ _ _ (by decide)).set _ _).set _ _
  rw [e.get (k := "read_dat_method") (by decide)]
  exact SameSettings.setFileType (SameSettings.setFileType (SameSettings.of_eqOn e (by decide)) _) _

set_option maxRecDepth 4000 in
theorem nested_interchangeable (kw d : Dict Val) (h1 : kw.get? "read_dat_kwargs" = none)
    (h2 : d.get? "read_dat_kwargs" = none) :
    Interchangeable (kw.set "read_dat_kwargs" (.dict d))
      (d.foldl (fun kw kv => kw.set kv.1 kv.2) kw) := by
  have hnot : (d.foldl (fun kw kv => kw.set kv.1 kv.2) kw).get? "read_dat_kwargs" = none := by
    rw [Dict.get?_eq_none_iff, mem_keys_foldl_set, not_or, ← Dict.get?_eq_none_iff,
      ← Dict.get?_eq_none_iff]
    exact ⟨h1, h2⟩
  intro row
  have hb : EqOnR (fun k => k ≠ "read_dat_kwargs")
      (backcompat (kw.set "read_dat_kwargs" (.dict d)) row)
      (backcompat (d.foldl (fun kw kv => kw.set kv.1 kv.2) kw) row) := by
    unfold backcompat
    have e1 : backcompat_dicts (kw.set "read_dat_kwargs" (.dict d))
        = .ok (d.foldl (fun kw kv => kw.set kv.1 kv.2) (kw.set "read_dat_kwargs" (.dict d))) := by
      unfold backcompat_dicts; rw [Dict.get?_set_self]
    have e2 : backcompat_dicts (d.foldl (fun kw kv => kw.set kv.1 kv.2) kw)
        = .ok (d.foldl (fun kw kv => kw.set kv.1 kv.2) kw) := by
      unfold backcompat_dicts; rw [hnot]
    rw [e1, e2]
    simp only [bind_ok]
    have e : EqOn (fun k => k ≠ "read_dat_kwargs")
        (d.foldl (fun kw kv => kw.set kv.1 kv.2) (kw.set "read_dat_kwargs" (.dict d)))
        (d.foldl (fun kw kv => kw.set kv.1 kv.2) kw) :=
      (EqOn.set_left _ _ _ (by decide)).foldl_set d
    exact backcompat_tail e (e.get (by decide)) (e.get (by decide)) _
  cases h1 : backcompat (kw.set "read_dat_kwargs" (.dict d)) row <;>
    cases h2 : backcompat (d.foldl (fun kw kv => kw.set kv.1 kv.2) kw) row <;> rw [h1, h2] at hb
  · exact hb
  · exact hb
  · exact hb
  · have hb' : EqOn (fun k => k ≠ "read_dat_kwargs") _ _ := hb
    exact SameSettings.of_eqOn hb' (by decide)

theorem SameSettings.drop {d : Dict Val} {k : String} (v : Val)
    (hk : k ∉ keys_solve ++ keys_calibrate) : SameSettings (d.set k v) d :=
  SameSettings.of_eqOn (p := fun k' => k' ≠ k) (EqOn.set_left _ _ _ (by simp)) fun k' hk' => by
    simp only [ne_eq, decide_not, Bool.not_eq_eq_eq_not, Bool.not_true, decide_eq_false_iff_not]
    exact fun h => hk (h ▸ hk')

/-- settings other than those passed on by position may be set in any order -/
theorem SameSettings.swap (d : Dict Val) {k k' : String} (v v' : Val) (hne : k ≠ k')
    (hk : k ∉ keys_read_dat ++ keys_titrant_totals) :
    SameSettings ((d.set k v).set k' v') ((d.set k' v').set k v) where
  get := fun j _ => by
    rw [Dict.get?_set, Dict.get?_set, Dict.get?_set, Dict.get?_set]
    by_cases h1 : j = k'
    · have h2 : j ≠ k := fun h => hne (h.symm.trans h1)
      rw [if_pos h1, if_neg h2, if_pos h1]
    · rw [if_neg h1, if_neg h1]
  pass := by
    have hf : (keys_read_dat.contains k || keys_titrant_totals.contains k) = false := by
      rw [Bool.eq_false_iff]
      intro h
      exact hk (by simpa using h)
    exact ((EqOn.set_left _ _ _ hf).set _ _).trans (EqOn.set_left _ _ _ hf).symm

set_option maxRecDepth 4000 in
theorem method_interchangeable (kw : Dict Val) (m : Val) (h1 : kw.get? "read_dat_kwargs" = none)
    (h2 : kw.get? "read_dat_method" = none) :
    Interchangeable (kw.set "read_dat_method" m) (kw.set "file_type" m) := by
  intro row
  unfold backcompat backcompat_dicts backcompat_range
  rw [Dict.get?_set_ne _ _ _ _ (by decide), Dict.get?_set_ne _ _ _ _ (by decide), h1]
  simp only [bind_ok]
  rw [Dict.get?_set_ne _ _ _ _ (by decide), Dict.get?_set_ne _ _ _ _ (by decide)]
  have hd : ∀ d : Dict Val, SameSettings (d.set "read_dat_method" m) d := fun d =>
    SameSettings.drop m (by decide)
  cases kw.get? "pH_range" with
  | none =>
    simp only [bind_ok, pure_ok, Dict.get?_set_self]
    rw [Dict.get?_set_ne _ _ _ _ (by decide), h2]
    exact SameSettings.setFileType ((hd kw).set _ _) _
  | some v =>
    cases hv : v.unpack2 with
    | error e => simp only [hv, bind_error]
    | ok ab =>
      obtain ⟨a, b⟩ := ab
      simp only [hv, bind_ok, pure_ok]
      rw [Dict.get?_set_ne _ _ _ _ (by decide), Dict.get?_set_ne _ _ _ _ (by decide),
        Dict.get?_set_self, Dict.get?_set_ne _ _ _ _ (by decide),
        Dict.get?_set_ne _ _ _ _ (by decide), Dict.get?_set_ne _ _ _ _ (by decide), h2]
      refine SameSettings.setFileType ?_ _
      show SameSettings ((((kw.set "read_dat_method" m).set "pH_min" a).set "pH_max" b).set
        "file_type" m) (((kw.set "file_type" m).set "pH_min" a).set "pH_max" b)
      refine ((((hd kw).set _ _).set _ _).set _ _).trans ?_
      refine (SameSettings.swap _ _ _ (by decide) (by decide)).trans ?_
      exact (SameSettings.swap _ _ _ (by decide) (by decide)).set _ _

/-- **C39**: `pH_range=(a, b)` is `pH_min=a, pH_max=b`, and wins over them. -/
theorem C39_range (w : World) (kw : Dict Val) (a b : Val) (df : DF)
    (h1 : kw.get? "read_dat_kwargs" = none) (h2 : kw.get? "pH_range" = none) :
    dataset_solve w (kw.set "pH_range" (.tup [a, b])) df
      = dataset_solve w ((kw.set "pH_min" a).set "pH_max" b) df ∧
    dataset_calibrate w (kw.set "pH_range" (.tup [a, b])) df
      = dataset_calibrate w ((kw.set "pH_min" a).set "pH_max" b) df :=
  ⟨(range_interchangeable kw a b h1 h2).dataset_solve w df,
    (range_interchangeable kw a b h1 h2).dataset_calibrate w df⟩

/-- **C39**: the entries of `read_dat_kwargs` are keyword arguments of their own, and win over those
given directly; ... -/
theorem C39_nested (w : World) (kw d : Dict Val) (df : DF)
    (h1 : kw.get? "read_dat_kwargs" = none) (h2 : d.get? "read_dat_kwargs" = none) :
    dataset_solve w (kw.set "read_dat_kwargs" (.dict d)) df
      = dataset_solve w (d.foldl (fun kw kv => kw.set kv.1 kv.2) kw) df ∧
    dataset_calibrate w (kw.set "read_dat_kwargs" (.dict d)) df
      = dataset_calibrate w (d.foldl (fun kw kv => kw.set kv.1 kv.2) kw) df :=
  ⟨(nested_interchangeable kw d h1 h2).dataset_solve w df,
    (nested_interchangeable kw d h1 h2).dataset_calibrate w df⟩

/-- ... that is, the updated dict has the nested value where there is one and the direct value
elsewhere. -/
theorem C39_nested_value (kw d : Dict Val) (hd : d.keys.Nodup) (k : String) :
    (d.foldl (fun kw kv => kw.set kv.1 kv.2) kw).get? k = (d.get? k).or (kw.get? k) := by
  induction d generalizing kw with
  | nil => rfl
  | cons kv d ih =>
    have hd' : kv.1 ∉ Dict.keys d ∧ (Dict.keys d).Nodup := List.nodup_cons.mp hd
    rw [List.foldl_cons, ih _ hd'.2, Dict.get?_set, Dict.get?_cons]
    by_cases hk : k = kv.1
    · subst hk
      rw [(Dict.get?_eq_none_iff d kv.1).mpr hd'.1]
      simp
    · simp [hk, Ne.symm hk]

/-- **C39**: `read_dat_method` is `file_type`, and wins over it. -/
theorem C39_method (w : World) (kw : Dict Val) (m : Val) (df : DF)
    (h1 : kw.get? "read_dat_kwargs" = none) (h2 : kw.get? "read_dat_method" = none) :
    dataset_solve w (kw.set "read_dat_method" m) df = dataset_solve w (kw.set "file_type" m) df ∧
    dataset_calibrate w (kw.set "read_dat_method" m) df
      = dataset_calibrate w (kw.set "file_type" m) df :=
  ⟨(method_interchangeable kw m h1 h2).dataset_solve w df,
    (method_interchangeable kw m h1 h2).dataset_calibrate w df⟩

/-- **C39**: a `read_dat_method` in the row wins over every keyword argument, old or new; only a
`file_type` in the row wins over it. -/
theorem C39_row_method (kw kwb : Dict Val) (cols : List String) (r : Row) (keys : List String)
    (hk : "file_type" ∈ keys) (h : backcompat kw (rowDict cols r) = .ok kwb)
    (hm : "read_dat_method" ∈ cols) :
    (get_kwargs_for keys kwb (some (rowDict cols r))).get? "file_type" =
      if "file_type" ∈ cols ∧ ¬ Spec.Null (r "file_type") then some (r "file_type")
      else some (r "read_dat_method") := by
  have hb : kwb.get? "file_type" = some (r "read_dat_method") := by
    unfold backcompat at h
    rw [bind_ok_iff] at h
    obtain ⟨d1, _, h⟩ := h
    rw [bind_ok_iff] at h
    obtain ⟨d2, _, h⟩ := h
    rw [rowDict_get?, if_pos hm] at h
    rw [← Except.ok.inj h]
    exact Dict.get?_set_self _ _ _
  rw [C31_value, if_pos hk]
  unfold chosen
  rw [hb, rowDict_get?]
  by_cases hc : "file_type" ∈ cols
  · rw [if_pos hc]
    cases hn : (r "file_type").isNull <;> simp [hc, hn, ← isNull_iff]
  · rw [if_neg hc, if_neg (fun h => hc h.1)]

/-- **C39**: a `pH_range` that is not a pair fails in every row, and a `read_dat_kwargs` that is not
a dict does too. -/
theorem C39_bad (kw row : Dict Val) :
    (∀ v e, kw.get? "read_dat_kwargs" = none → kw.get? "pH_range" = some v → v.unpack2 = .error e →
      backcompat kw row = .error e) ∧
    (∀ v, kw.get? "read_dat_kwargs" = some v → (∀ d, v ≠ .dict d) →
      backcompat kw row = .error (.AttributeError "items")) := by
  unfold backcompat backcompat_dicts backcompat_range
  constructor
  · intro v e h1 h2 hv
    rw [h1]
    simp only [bind_ok, h2, hv, bind_error]
  · intro v h1 h2
    rw [h1]
    cases v <;> first | rfl | exact absurd rfl (h2 _)

/-- the old-style arguments at work: a range wins over `pH_min`, a nested entry over a direct one,
and the method over the type -/
example : (backcompat [("pH_min", .num (fin 1)), ("delimiter", .str ","), ("file_type", .str "pclims"),
      ("read_dat_kwargs", .dict [("delimiter", .str ";")]),
      ("pH_range", .tup [.num (fin 3), .num (fin 4)]), ("read_dat_method", .str "genfromtxt")] []).toOption.map
    (fun d => (d.get? "pH_min", d.get? "pH_max", d.get? "delimiter", d.get? "file_type"))
    = some (some (.num (fin 3)), some (.num (fin 4)), some (.str ";"), some (.str "genfromtxt")) := by
  with_unfolding_all rfl

end Calk
