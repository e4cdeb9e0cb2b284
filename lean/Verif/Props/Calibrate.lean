import Verif.Props.DatasetRows

/-! # Properties of dataset calibration: C43, C44, C46, C50 -/

namespace Calk
open Flt

/-! ## Calibration step by step -/

/-- one row, prepared and calibrated -/
noncomputable def hereRow (w : World) (kw : Dict Val) (cols : List String) (r : Row) : Py Row := do
  let v ← calibrate_row w kw (prepCols cols) (prepRow w cols r)
  return (prepRow w cols r).put "titrant_molinity_here" v

/-- the columns after calibrating the rows -/
def hereCols (cols : List String) : List String := addCol (prepCols cols) "titrant_molinity_here"

/-- batches and reference flags filled in -/
def withDefaults (df : DF) : DF := defaultReferenceGood (defaultBatch df)

/-- the molinities of the batches -/
noncomputable def withMolinity (df : DF) : DF :=
  df.setCol "titrant_molinity" fun r => .num (batchMean df.rows (r "analysis_batch"))

theorem dataset_calibrate_ok_iff {w : World} {kw : Dict Val} {df df' : DF} :
    dataset_calibrate w kw df = (.ok (), df') ↔
      "salinity" ∈ df.cols ∧ ("analyte_mass" ∈ df.cols ∨ "analyte_volume" ∈ df.cols) ∧
      "alkalinity_certified" ∈ df.cols ∧
      ∃ rows, List.Forall₂ (fun r r' => hereRow w kw df.cols r = .ok r') df.rows rows ∧
        (∀ r ∈ (withDefaults ⟨hereCols df.cols, rows⟩).rows,
          (r "analysis_batch").isNull = false ∧ (refFlag (r "reference_good")).isSome = true) ∧
        dataset_solve w kw (withMolinity (withDefaults ⟨hereCols df.cols, rows⟩)) = (.ok (), df') := by
  unfold dataset_calibrate
  rw [PyS.bind_apply, prepare_eq]
  by_cases hS : df.has "salinity" = true
  swap
  · rw [if_neg hS]
    constructor
    · intro h; cases h
    · intro h; exact absurd (has_iff.mpr h.1) hS
  rw [if_pos hS]
  by_cases hmv : (df.has "analyte_mass" || df.has "analyte_volume") = true
  swap
  · rw [if_neg hmv]
    constructor
    · intro h; cases h
    · intro h; exact absurd (by simpa only [Bool.or_eq_true, has_iff] using h.2.1) hmv
  rw [if_pos hmv]
  have hmv' : "analyte_mass" ∈ df.cols ∨ "analyte_volume" ∈ df.cols := by
    simpa only [Bool.or_eq_true, has_iff] using hmv
  show (PyS.require _ >>= _) _ = _ ↔ _
  rw [PyS.require_bind]
  by_cases hc : "alkalinity_certified" ∈ df.cols
  swap
  · rw [if_neg (fun h => hc (prep_certified.mp (has_iff.mp h)))]
    constructor
    · intro h; cases h
    · intro h; exact absurd h.2.2.1 hc
  rw [if_pos (has_iff.mpr (prep_certified.mpr hc)), PyS.update_bind]
  simp only [has_iff.mp hS, hmv', hc, true_and]
  have hset : (DF.mk (prepCols df.cols) (df.rows.map (prepRow w df.cols))).setColM
      "titrant_molinity_here" (calibrate_row w kw (prepCols df.cols))
      = (do let rows ← mapPy (hereRow w kw df.cols) df.rows
            return ⟨hereCols df.cols, rows⟩) := by
    unfold DF.setColM
    simp only [mapPy_map]
    rfl
  rw [hset]
  have hstep : ∀ d : DF, (PyS.modify defaultBatch >>= fun _ => PyS.modify defaultReferenceGood >>=
      fun _ => PyS.update assignMolinity >>= fun _ => dataset_solve w kw) d = (.ok (), df') ↔
      (∀ r ∈ (withDefaults d).rows,
          (r "analysis_batch").isNull = false ∧ (refFlag (r "reference_good")).isSome = true) ∧
        dataset_solve w kw (withMolinity (withDefaults d)) = (.ok (), df') := by
    intro d
    rw [PyS.modify_bind, PyS.modify_bind, PyS.update_bind]
    have hd : defaultReferenceGood (defaultBatch d) = withDefaults d := rfl
    rw [hd]
    unfold assignMolinity
    by_cases h1 : ((withDefaults d).rows.any fun r => !(r "analysis_batch").isNull &&
        (refFlag (r "reference_good")).isNone) = true
    · rw [if_pos h1]
      constructor
      · intro h; cases h
      · rintro ⟨h, _⟩
        obtain ⟨r, hr, h2⟩ := List.any_eq_true.mp h1
        simp only [Bool.and_eq_true] at h2
        have := (h r hr).2
        rw [Option.isSome_iff_exists] at this
        obtain ⟨b, hb⟩ := this
        rw [hb] at h2; cases h2.2
    rw [if_neg h1]
    by_cases h2 : ((withDefaults d).rows.any fun r => (r "analysis_batch").isNull) = true
    · rw [if_pos h2]
      constructor
      · intro h; cases h
      · rintro ⟨h, _⟩
        obtain ⟨r, hr, h2⟩ := List.any_eq_true.mp h2
        rw [(h r hr).1] at h2; cases h2
    rw [if_neg h2]
    constructor
    · intro h
      refine ⟨fun r hr => ?_, h⟩
      have e1 : (r "analysis_batch").isNull = false := by
        by_contra h'
        exact h2 (List.any_eq_true.mpr ⟨r, hr, by simpa using h'⟩)
      refine ⟨e1, ?_⟩
      by_contra h'
      refine h1 (List.any_eq_true.mpr ⟨r, hr, ?_⟩)
      rw [e1]
      cases hf : refFlag (r "reference_good") with
      | none => rfl
      | some b => rw [hf] at h'; exact absurd rfl h'
    · rintro ⟨_, h⟩; exact h
  constructor
  · intro h
    cases hm : mapPy (hereRow w kw df.cols) df.rows with
    | error e => rw [hm] at h; cases h
    | ok rows =>
      rw [hm] at h
      simp only [bind_ok, pure_ok] at h
      exact ⟨rows, mapPy_ok hm, (hstep _).mp h⟩
  · rintro ⟨rows, h1, h2⟩
    rw [mapPy_of_forall₂ h1]
    simp only [bind_ok, pure_ok]
    exact (hstep _).mpr h2

/-! ## C43 -/

/-- an ordinary batch label: a string or a number -/
def Label (v : Val) : Prop := (∃ s, v = .str s) ∨ ∃ x, v = .num x ∧ x ≠ nan

theorem feq_iff {x y : Flt} (hx : x ≠ nan) (hy : y ≠ nan) : feq x y = true ↔ x = y := by
  unfold feq
  cases x <;> cases y <;> simp [Flt.le] at *
  exact ⟨fun ⟨h1, h2⟩ => le_antisymm h1 h2, fun h => ⟨h.le, h.ge⟩⟩

theorem sameLabel_iff {a b : Val} (ha : Label a) (hb : Label b) : a.sameLabel b = true ↔ a = b := by
  rcases ha with ⟨s, rfl⟩ | ⟨x, rfl, hx⟩ <;> rcases hb with ⟨t, rfl⟩ | ⟨y, rfl, hy⟩
  · simp [Val.sameLabel, Val.toFlt]
  · simp [Val.sameLabel, Val.toFlt]
  · simp [Val.sameLabel, Val.toFlt]
  · simp only [Val.sameLabel, Val.toFlt, feq_iff hx hy, Val.num.injEq]

open Classical in
/-- the calibrated molinities of the good references of batch `b` -/
noncomputable def goodHere (rows : List Row) (b : Val) : List Flt :=
  rows.filterMap fun r => match r "titrant_molinity_here" with
    | .num x => if r "analysis_batch" = b ∧ r "reference_good" = .bool true ∧ x ≠ nan then some x
        else none
    | _ => none

theorem isNaN_false_iff {x : Flt} : x.isNaN = false ↔ x ≠ nan := by
  cases x <;> simp [Flt.isNaN]

/-- cells of the `titrant_molinity_here` column are numbers -/
def HereNum (r : Row) : Prop := ∃ x, r "titrant_molinity_here" = .num x

theorem refFlag_true {v : Val} : refFlag v = some true ↔ v = .bool true := by
  unfold refFlag
  cases v with
  | bool b => simp
  | none => simp [Val.isNull]
  | num x => cases hx : x.isNaN <;> simp [Val.isNull, hx]
  | str s => simp [Val.isNull]
  | tup l => simp [Val.isNull]
  | dict d => simp [Val.isNull]

open Classical in
theorem batchHere_eq {rows : List Row} {b : Val} (hb : Label b)
    (hl : ∀ r ∈ rows, Label (r "analysis_batch")) (hn : ∀ r ∈ rows, HereNum r) :
    (rows.filter fun r => (r "analysis_batch").sameLabel b && isReference r).map
      (fun r => match r "titrant_molinity_here" with | .num x => x | _ => nan) = goodHere rows b := by
  induction rows with
  | nil => rfl
  | cons r rows ih =>
    have ih := ih (fun r h => hl r (by simp [h])) (fun r h => hn r (by simp [h]))
    obtain ⟨x, hx⟩ := hn r (by simp)
    have hlab := sameLabel_iff (hl r (by simp)) hb
    have hg : goodHere (r :: rows) b = (if r "analysis_batch" = b ∧
        r "reference_good" = .bool true ∧ x ≠ nan then [x] else []) ++ goodHere rows b := by
      unfold goodHere
      rw [List.filterMap_cons, hx]
      simp only
      split <;> rename_i h
      · split at h
        · cases h
        · rename_i h'; rw [if_neg h']; rfl
      · split at h
        · rename_i h'; rw [if_pos h']; simp only [Option.some.injEq] at h; subst h; rfl
        · cases h
    rw [hg]
    by_cases hc : r "analysis_batch" = b ∧ r "reference_good" = .bool true ∧ x ≠ nan
    · rw [if_pos hc, List.filter_cons_of_pos, List.map_cons, ih, hx]
      · rfl
      · rw [hlab.mpr hc.1]
        simp only [isReference, refFlag_true.mpr hc.2.1, hx, Val.isNull, isNaN_false_iff.mpr hc.2.2]
        rfl
    · rw [if_neg hc, List.filter_cons_of_neg, ih]
      · rfl
      · intro h
        simp only [Bool.and_eq_true, isReference, beq_iff_eq, Bool.not_eq_true', hx, Val.isNull,
          isNaN_false_iff, refFlag_true] at h
        exact hc ⟨hlab.mp h.1, h.2.1, h.2.2⟩

theorem batchMean_eq {rows : List Row} {b : Val} (hb : Label b)
    (hl : ∀ r ∈ rows, Label (r "analysis_batch")) (hn : ∀ r ∈ rows, HereNum r) :
    batchMean rows b = npMean (goodHere rows b) := by
  unfold batchMean
  rw [← batchHere_eq hb hl hn]
  rfl

/-- columns after which a batch mean is unchanged -/
def SameRef (r r' : Row) : Prop :=
  r' "analysis_batch" = r "analysis_batch" ∧ r' "reference_good" = r "reference_good" ∧
  r' "titrant_molinity_here" = r "titrant_molinity_here"

theorem goodHere_congr {l l' : List Row} (h : List.Forall₂ SameRef l l') (b : Val) :
    goodHere l' b = goodHere l b := by
  induction h with
  | nil => rfl
  | cons hx _ ih =>
    unfold goodHere at ih ⊢
    rw [List.filterMap_cons, List.filterMap_cons, hx.1, hx.2.1, hx.2.2, ih]

theorem put_ne (r : Row) {c k : String} (v : Val) (h : k ≠ c) : r.put c v k = r k := by
  unfold Row.put; rw [if_neg h]
theorem put_eq (r : Row) (c : String) (v : Val) : r.put c v c = v := by
  unfold Row.put; rw [if_pos rfl]

theorem withDefaults_rows (d : DF) : ∃ f : Row → Row, (withDefaults d).rows = d.rows.map f ∧
    (∀ r c, c ≠ "analysis_batch" → c ≠ "reference_good" → f r c = r c) ∧
    (∀ r, "analysis_batch" ∈ d.cols → f r "analysis_batch" = r "analysis_batch") ∧
    (∀ r, "reference_good" ∈ d.cols → f r "reference_good" = r "reference_good") ∧
    (∀ r, "analysis_batch" ∉ d.cols → f r "analysis_batch" = .num (fin 0)) ∧
    (∀ r, "reference_good" ∉ d.cols →
      f r "reference_good" = .bool !(r "titrant_molinity_here").isNull) := by
  have hb : ∃ g : Row → Row, defaultBatch d = ⟨addCol d.cols "analysis_batch", d.rows.map g⟩ ∧
      (∀ r c, c ≠ "analysis_batch" → g r c = r c) ∧
      (∀ r, "analysis_batch" ∈ d.cols → g r "analysis_batch" = r "analysis_batch") ∧
      (∀ r, "analysis_batch" ∉ d.cols → g r "analysis_batch" = .num (fin 0)) := by
    unfold defaultBatch
    by_cases h : "analysis_batch" ∈ d.cols
    · rw [if_pos (has_iff.mpr h)]
      exact ⟨id, by rw [addCol_of_mem h, List.map_id], fun _ _ _ => rfl, fun _ _ => rfl,
        fun _ h' => absurd h h'⟩
    · rw [if_neg (fun h' => h (has_iff.mp h'))]
      exact ⟨fun r => r.put "analysis_batch" (.num (fin 0)), rfl, fun r c hc => put_ne r _ hc,
        fun _ h' => absurd h' h, fun r _ => put_eq r _ _⟩
  obtain ⟨g, h1, h2, h3, h4⟩ := hb
  have hmem : "reference_good" ∈ addCol d.cols "analysis_batch" ↔ "reference_good" ∈ d.cols := by
    rw [mem_addCol]; exact or_iff_left (by decide)
  unfold withDefaults defaultReferenceGood
  rw [h1]
  by_cases h : "reference_good" ∈ d.cols
  · rw [if_pos (has_iff.mpr (hmem.mpr h))]
    exact ⟨g, rfl, fun r c hc _ => h2 r c hc, h3, fun r _ => h2 r _ (by decide), h4,
      fun _ h' => absurd h h'⟩
  · rw [if_neg (fun h' => h (hmem.mp (has_iff.mp h')))]
    refine ⟨fun r => (g r).put "reference_good" (.bool !(g r "titrant_molinity_here").isNull), ?_,
      ?_, ?_, ?_, ?_, ?_⟩
    · simp only [DF.setCol, List.map_map]; rfl
    · intro r c hc hc'; show Row.put _ _ _ _ = _; rw [put_ne _ _ hc', h2 r c hc]
    · intro r hm; show Row.put _ _ _ _ = _; rw [put_ne _ _ (by decide), h3 r hm]
    · intro r hm; exact absurd hm h
    · intro r hm; show Row.put _ _ _ _ = _; rw [put_ne _ _ (by decide), h4 r hm]
    · intro r _; show Row.put _ _ _ _ = _; rw [put_eq, h2 r _ (by decide)]

theorem mem_withDefaults {d : DF} {c : String} :
    c ∈ (withDefaults d).cols ↔ c ∈ d.cols ∨ c = "analysis_batch" ∨ c = "reference_good" := by
  have h1 : ∀ d : DF, c ∈ (defaultBatch d).cols ↔ c ∈ d.cols ∨ c = "analysis_batch" := by
    intro d
    unfold defaultBatch
    by_cases h : d.has "analysis_batch" = true
    · rw [if_pos h, or_iff_left_of_imp]
      rintro rfl; exact has_iff.mp h
    · rw [if_neg h]; exact mem_addCol
  have h2 : ∀ d : DF, c ∈ (defaultReferenceGood d).cols ↔ c ∈ d.cols ∨ c = "reference_good" := by
    intro d
    unfold defaultReferenceGood
    by_cases h : d.has "reference_good" = true
    · rw [if_pos h, or_iff_left_of_imp]
      rintro rfl; exact has_iff.mp h
    · rw [if_neg h]; exact mem_addCol
  unfold withDefaults
  rw [h2, h1, or_assoc]

theorem hereRow_inv {w : World} {kw : Dict Val} {cols : List String} {r r' : Row}
    (h : hereRow w kw cols r = .ok r') :
    ∃ x, calibrate_row w kw (prepCols cols) (prepRow w cols r) = .ok (.num x) ∧
      r' = (prepRow w cols r).put "titrant_molinity_here" (.num x) := by
  unfold hereRow at h
  rcases calibrate_row_outcome w kw (prepCols cols) (prepRow w cols r) with ⟨x, hx⟩ | ⟨_, hx⟩
  · rw [hx, bind_ok] at h
    exact ⟨x, hx, (Except.ok.inj h).symm⟩
  · rw [hx] at h; cases h

/-- solving leaves these alone -/
theorem solve_sameRef {w : World} {kw : Dict Val} {d df' : DF}
    (h : dataset_solve w kw d = (.ok (), df')) :
    List.Forall₂ (fun r r' => SameRef r r' ∧ r' "titrant_molinity" = r "titrant_molinity")
      d.rows df'.rows := by
  obtain ⟨_, _, _, _, _, h6⟩ := dataset_solve_ok_iff.mp h
  refine h6.imp fun r r' hr => ?_
  have : ∀ c, c ∉ solvedCols → c ≠ "alkalinity_offset" → c ∉ prepFills → r' c = r c :=
    fun c h1 h2 h3 => by rw [solvedRow_keeps hr c (.inl h1) h2, prepRow_other h3]
  exact ⟨⟨this _ (by decide) (by decide) (by decide), this _ (by decide) (by decide) (by decide),
    this _ (by decide) (by decide) (by decide)⟩, this _ (by decide) (by decide) (by decide)⟩

theorem withMolinity_sameRef (d : DF) : List.Forall₂ SameRef d.rows (withMolinity d).rows := by
  unfold withMolinity DF.setCol
  simp only
  rw [List.forall₂_map_right_iff, List.forall₂_same]
  intro r _
  exact ⟨put_ne _ _ (by decide), put_ne _ _ (by decide), put_ne _ _ (by decide)⟩

/-- **C43**: after `calibrate`, each row's `titrant_molinity` is the mean of `titrant_molinity_here`
over the rows with the same `analysis_batch` that are flagged `reference_good` and were calibrated
successfully — read off the resulting dataset itself. -/
theorem C43_batch_mean (w : World) (kw : Dict Val) (df df' : DF)
    (h : dataset_calibrate w kw df = (.ok (), df'))
    (hl : ∀ r ∈ df'.rows, Label (r "analysis_batch")) :
    ∀ r ∈ df'.rows,
      r "titrant_molinity" = .num (npMean (goodHere df'.rows (r "analysis_batch"))) := by
  obtain ⟨_, _, _, rows, hrows, _, hsol⟩ := dataset_calibrate_ok_iff.mp h
  have hs := solve_sameRef hsol
  have hs' : List.Forall₂ SameRef (withMolinity (withDefaults ⟨hereCols df.cols, rows⟩)).rows
      df'.rows := hs.imp fun _ _ h => h.1
  have hm := withMolinity_sameRef (withDefaults ⟨hereCols df.cols, rows⟩)
  intro r' hr'
  obtain ⟨r, hr, ⟨hsr, hmol⟩⟩ : ∃ r ∈ (withMolinity (withDefaults ⟨hereCols df.cols, rows⟩)).rows,
      SameRef r r' ∧ r' "titrant_molinity" = r "titrant_molinity" := forall₂_mem hs.flip hr'
  have hr2 := hr
  unfold withMolinity DF.setCol at hr2
  obtain ⟨r0, hr0, rfl⟩ := List.mem_map.mp hr2
  rw [hmol, put_eq]
  have hlab : ∀ x ∈ (withDefaults ⟨hereCols df.cols, rows⟩).rows, Label (x "analysis_batch") := by
    intro x hx
    obtain ⟨y, hy, h1⟩ := forall₂_mem hm hx
    obtain ⟨z, hz, h2⟩ := forall₂_mem hs' hy
    rw [← h1.1, ← h2.1]; exact hl z hz
  have hnum : ∀ x ∈ (withDefaults ⟨hereCols df.cols, rows⟩).rows, HereNum x := by
    intro x hx
    obtain ⟨f, hf, hk, _⟩ := withDefaults_rows ⟨hereCols df.cols, rows⟩
    rw [hf] at hx
    obtain ⟨y, hy, rfl⟩ := List.mem_map.mp hx
    obtain ⟨z, hz, h2⟩ : ∃ z ∈ df.rows, hereRow w kw df.cols z = .ok y := forall₂_mem hrows.flip hy
    obtain ⟨v, _, rfl⟩ := hereRow_inv h2
    exact ⟨v, by rw [hk _ _ (by decide) (by decide), put_eq]⟩
  have hb : r' "analysis_batch" = r0 "analysis_batch" := by
    rw [hsr.1, put_ne _ _ (by decide)]
  show Val.num (batchMean _ _) = _
  rw [batchMean_eq (hlab r0 hr0) hlab hnum, hb, goodHere_congr hs', goodHere_congr hm]

/-- ... that is the ordinary arithmetic mean of those molinities, -/
theorem C43_mean (rows : List Row) (b : Val) (xs : List ℝ) (hne : xs ≠ [])
    (h : goodHere rows b = xs.map fin) :
    npMean (goodHere rows b) = fin (xs.sum / xs.length) := by
  rw [h, npMean_map_fin xs hne]; rfl

theorem c43_none (w : World) (kw : Dict Val) (df df' : DF)
    (h : dataset_calibrate w kw df = (.ok (), df'))
    (hl : ∀ r ∈ df'.rows, Label (r "analysis_batch")) (r : Row) (hr : r ∈ df'.rows)
    (hno : ∀ x ∈ df'.rows, x "analysis_batch" = r "analysis_batch" →
      x "reference_good" ≠ .bool true ∨ (x "titrant_molinity_here").isNull = true) :
    r "titrant_molinity" = .num nan := by
  rw [C43_batch_mean w kw df df' h hl r hr]
  have : goodHere df'.rows (r "analysis_batch") = [] := by
    unfold goodHere
    rw [List.filterMap_eq_nil_iff]
    intro x hx
    cases hv : x "titrant_molinity_here" with
    | num v =>
      simp only
      rw [if_neg]
      rintro ⟨h1, h2, h3⟩
      rcases hno x hx h1 with h4 | h4
      · exact h4 h2
      · rw [hv] at h4
        simp only [Val.isNull] at h4
        rw [isNaN_false_iff.mpr h3] at h4; cases h4
    | _ => rfl
  rw [this, npMean_nil]

/-- ... and NaN if the batch has none. -/
theorem C43_none (w : World) (kw : Dict Val) (df df' : DF)
    (h : dataset_calibrate w kw df = (.ok (), df'))
    (hl : ∀ r ∈ df'.rows, Label (r "analysis_batch")) (r : Row) (hr : r ∈ df'.rows)
    (hno : ∀ x ∈ df'.rows, x "analysis_batch" = r "analysis_batch" →
      x "reference_good" ≠ .bool true ∨ Spec.Null (x "titrant_molinity_here")) :
    r "titrant_molinity" = .num nan := by
  simp only [← isNull_iff, Bool.not_eq_true] at *
  exact c43_none w kw df df' h hl r hr hno

/-- the rows of some of the batches -/
def DF.onlyBatches (df : DF) (p : Val → Bool) : DF :=
  ⟨df.cols, df.rows.filter fun r => p (r "analysis_batch")⟩

theorem forall₂_filter {α β : Type} {R : α → β → Prop} {p : α → Bool} {q : β → Bool}
    {l : List α} {l' : List β} (h : List.Forall₂ R l l') (hpq : ∀ a b, R a b → p a = q b) :
    List.Forall₂ R (l.filter p) (l'.filter q) := by
  induction h with
  | nil => exact .nil
  | @cons a b l l' hab _ ih =>
    rw [List.filter_cons, List.filter_cons, hpq a b hab]
    cases q b
    · exact ih
    · exact .cons hab ih

theorem map_filter_of {α β : Type} (f : α → β) {p : α → Bool} {q : β → Bool}
    (h : ∀ a, q (f a) = p a) (l : List α) : (l.map f).filter q = (l.filter p).map f := by
  induction l with
  | nil => rfl
  | cons a l ih =>
    rw [List.map_cons, List.filter_cons, List.filter_cons, h a]
    cases p a
    · exact ih
    · simp only [if_true, List.map_cons, ih]

theorem goodHere_only (rows : List Row) (p : Val → Bool) {b : Val} (hb : p b = true) :
    goodHere (rows.filter fun r => p (r "analysis_batch")) b = goodHere rows b := by
  induction rows with
  | nil => rfl
  | cons r rows ih =>
    have hg : ∀ l, goodHere (r :: l) b = goodHere [r] b ++ goodHere l b := by
      intro l
      unfold goodHere
      rw [← List.filterMap_append]; rfl
    rw [List.filter_cons, hg rows]
    by_cases hp : p (r "analysis_batch") = true
    · rw [if_pos hp, hg, ih]
    · rw [if_neg hp, ih]
      have : goodHere [r] b = [] := by
        unfold goodHere
        rw [List.filterMap_eq_nil_iff]
        intro x hx
        rw [List.mem_singleton] at hx
        subst hx
        cases x "titrant_molinity_here" with
        | num v =>
          simp only
          rw [if_neg]
          rintro ⟨h1, _⟩
          rw [h1] at hp; exact hp hb
        | _ => rfl
      rw [this]; rfl

/-- **C43**: batches do not influence each other.  Calibrating only the rows of some of the batches
gives exactly what calibrating everything gives for those rows. -/
theorem C43_independent (w : World) (kw : Dict Val) (df df' : DF)
    (h : dataset_calibrate w kw df = (.ok (), df'))
    (hbc : "analysis_batch" ∈ df.cols) (hl : ∀ r ∈ df.rows, Label (r "analysis_batch"))
    (p : Val → Bool) :
    dataset_calibrate w kw (df.onlyBatches p) = (.ok (), df'.onlyBatches p) := by
  obtain ⟨h1, h2, h3, rows, hrows, hok, hsol⟩ := dataset_calibrate_ok_iff.mp h
  have hbatch : ∀ r r', hereRow w kw df.cols r = .ok r' →
      r' "analysis_batch" = r "analysis_batch" := by
    intro r r' hr
    obtain ⟨x, _, rfl⟩ := hereRow_inv hr
    rw [put_ne _ _ (by decide), prepRow_other (by decide)]
  -- filling in the defaults commutes with the selection
  have hmemb : "analysis_batch" ∈ hereCols df.cols := by
    unfold hereCols; exact mem_addCol.mpr (.inl (mem_prepCols.mpr (.inl hbc)))
  have hwd : ∀ l : List Row, withDefaults ⟨hereCols df.cols, l.filter fun r =>
      p (r "analysis_batch")⟩ = (withDefaults ⟨hereCols df.cols, l⟩).onlyBatches p := by
    intro l
    have e1 : ∀ l : List Row, defaultBatch ⟨hereCols df.cols, l⟩ = ⟨hereCols df.cols, l⟩ := by
      intro l; unfold defaultBatch; rw [if_pos (has_iff.mpr hmemb)]
    unfold withDefaults
    rw [e1, e1]
    unfold defaultReferenceGood DF.has
    by_cases hc : (hereCols df.cols).contains "reference_good" = true
    · simp only [hc, if_true]; rfl
    · simp only [hc, if_false]
      unfold DF.setCol DF.onlyBatches
      simp only [DF.mk.injEq, true_and, Bool.false_eq_true, if_false]
      exact (map_filter_of _ (fun r => by rw [put_ne _ _ (by decide)]) l).symm
  have hlab : ∀ x ∈ (withDefaults ⟨hereCols df.cols, rows⟩).rows, Label (x "analysis_batch") := by
    intro x hx
    obtain ⟨f, hf, _, hk, _⟩ := withDefaults_rows ⟨hereCols df.cols, rows⟩
    rw [hf] at hx
    obtain ⟨y, hy, rfl⟩ := List.mem_map.mp hx
    obtain ⟨z, hz, h2⟩ : ∃ z ∈ df.rows, hereRow w kw df.cols z = .ok y := forall₂_mem hrows.flip hy
    rw [hk _ hmemb, hbatch _ _ h2]; exact hl z hz
  have hnum : ∀ x ∈ (withDefaults ⟨hereCols df.cols, rows⟩).rows, HereNum x := by
    intro x hx
    obtain ⟨f, hf, hk, _⟩ := withDefaults_rows ⟨hereCols df.cols, rows⟩
    rw [hf] at hx
    obtain ⟨y, hy, rfl⟩ := List.mem_map.mp hx
    obtain ⟨z, hz, h2⟩ : ∃ z ∈ df.rows, hereRow w kw df.cols z = .ok y := forall₂_mem hrows.flip hy
    obtain ⟨v, _, rfl⟩ := hereRow_inv h2
    exact ⟨v, by rw [hk _ _ (by decide) (by decide), put_eq]⟩
  have hwm : withMolinity ((withDefaults ⟨hereCols df.cols, rows⟩).onlyBatches p)
      = (withMolinity (withDefaults ⟨hereCols df.cols, rows⟩)).onlyBatches p := by
    unfold withMolinity DF.setCol DF.onlyBatches
    simp only [DF.mk.injEq, true_and]
    rw [map_filter_of (p := fun r : Row => p (r "analysis_batch")) _
      (fun r => by rw [put_ne _ _ (by decide)])]
    refine List.map_congr_left fun r hr => ?_
    obtain ⟨hr1, hr2⟩ := List.mem_filter.mp hr
    rw [batchMean_eq (hlab r hr1) hlab hnum,
      batchMean_eq (hlab r hr1) (fun x hx => hlab x (List.mem_filter.mp hx).1)
        (fun x hx => hnum x (List.mem_filter.mp hx).1), goodHere_only _ p hr2]
  refine dataset_calibrate_ok_iff.mpr ⟨h1, h2, h3, rows.filter fun r => p (r "analysis_batch"),
    forall₂_filter hrows fun a b hab => by rw [hbatch a b hab], ?_, ?_⟩
  · show ∀ r ∈ (withDefaults ⟨hereCols df.cols, _⟩).rows, _
    rw [hwd]
    intro r hr
    exact hok r (List.mem_filter.mp hr).1
  · show dataset_solve w kw (withMolinity (withDefaults ⟨hereCols df.cols, _⟩)) = _
    rw [hwd, hwm]
    obtain ⟨a1, a2, a3, a4, a5, a6⟩ := dataset_solve_ok_iff.mp hsol
    refine dataset_solve_ok_iff.mpr ⟨a1, a2, a3, a4, a5, forall₂_filter a6 fun r r' hr => ?_⟩
    rw [solvedRow_keeps hr _ (.inl (by decide)) (by decide), prepRow_other (by decide)]

/-! ## C50 -/

theorem c50_null_batch (w : World) (kw : Dict Val) (df : DF)
    (hS : "salinity" ∈ df.cols) (hmv : "analyte_mass" ∈ df.cols ∨ "analyte_volume" ∈ df.cols)
    (hc : "alkalinity_certified" ∈ df.cols) (hf : "file_name" ∈ df.cols)
    (hb : "analysis_batch" ∈ df.cols)
    (hflag : "reference_good" ∈ df.cols → ∀ r ∈ df.rows,
      r "reference_good" = .bool true ∨ r "reference_good" = .bool false ∨
      (r "reference_good").isNull = true)
    (hnull : ∃ r ∈ df.rows, (r "analysis_batch").isNull = true) :
    ∃ df', dataset_calibrate w kw df = (.error (.KeyError "nan"), df') ∧
      "titrant_molinity_here" ∈ df'.cols ∧
      (∀ c ∈ ["titrant_molinity", "alkalinity", "alkalinity_std", "alkalinity_npts",
        "alkalinity_offset", "emf0", "gran_alkalinity", "gran_emf0", "pH_init",
        "temperature_init"], c ∈ df'.cols → c ∈ df.cols) ∧
      List.Forall₂ (fun r r' =>
        (∃ x, calibrate_row w kw (prepCols df.cols) (prepRow w df.cols r) = .ok (.num x) ∧
          r' "titrant_molinity_here" = .num x) ∧
        (∀ c ∈ ["titrant_molinity", "alkalinity", "alkalinity_std", "alkalinity_npts",
            "alkalinity_offset", "emf0", "gran_alkalinity", "gran_emf0", "pH_init",
            "temperature_init"], r' c = r c)) df.rows df'.rows := by
  have hhere : ∀ r, ∃ r', hereRow w kw df.cols r = .ok r' := by
    intro r
    unfold hereRow
    rcases calibrate_row_outcome w kw (prepCols df.cols) (prepRow w df.cols r) with ⟨x, hx⟩ | ⟨h, hx⟩
    · exact ⟨_, by rw [hx, bind_ok]; rfl⟩
    · exact absurd (mem_prepCols.mpr (.inl hf)) h
  choose f hf' using hhere
  have hmap : List.Forall₂ (fun r r' => hereRow w kw df.cols r = .ok r') df.rows (df.rows.map f) := by
    rw [List.forall₂_map_right_iff, List.forall₂_same]
    exact fun r _ => hf' r
  have hmemb : "analysis_batch" ∈ hereCols df.cols :=
    mem_addCol.mpr (.inl (mem_prepCols.mpr (.inl hb)))
  obtain ⟨g, hg, hg1, hg2, hg3, hg4, hg5⟩ := withDefaults_rows ⟨hereCols df.cols, df.rows.map f⟩
  have hkeep : ∀ r c, c ≠ "titrant_molinity_here" → c ∉ prepFills → f r c = r c := by
    intro r c h1 h2
    obtain ⟨x, _, hx⟩ := hereRow_inv (hf' r)
    rw [hx, put_ne _ _ h1, prepRow_other h2]
  refine ⟨withDefaults ⟨hereCols df.cols, df.rows.map f⟩, ?_, ?_, ?_, ?_⟩
  · unfold dataset_calibrate
    rw [PyS.bind_apply, prepare_eq, if_pos (has_iff.mpr hS),
      if_pos (by simpa only [Bool.or_eq_true, has_iff] using hmv)]
    show (PyS.require _ >>= _) _ = _
    rw [PyS.require_bind, if_pos (has_iff.mpr (prep_certified.mpr hc)), PyS.update_bind]
    have hset : (DF.mk (prepCols df.cols) (df.rows.map (prepRow w df.cols))).setColM
        "titrant_molinity_here" (calibrate_row w kw (prepCols df.cols))
        = (do let rows ← mapPy (hereRow w kw df.cols) df.rows
              return ⟨hereCols df.cols, rows⟩) := by
      unfold DF.setColM
      simp only [mapPy_map]
      rfl
    rw [hset, mapPy_of_forall₂ hmap]
    simp only [bind_ok, pure_ok]
    rw [PyS.modify_bind, PyS.modify_bind, PyS.update_bind]
    have hd : defaultReferenceGood (defaultBatch ⟨hereCols df.cols, df.rows.map f⟩)
      = withDefaults ⟨hereCols df.cols, df.rows.map f⟩ := rfl
    rw [hd]
    have hm : assignMolinity (withDefaults ⟨hereCols df.cols, df.rows.map f⟩)
        = .error (.KeyError "nan") := by
      unfold assignMolinity
      rw [if_neg, if_pos]
      · obtain ⟨r, hr, hrn⟩ := hnull
        refine List.any_eq_true.mpr ⟨g (f r), ?_, ?_⟩
        · rw [hg]; exact List.mem_map_of_mem (List.mem_map_of_mem hr)
        · rw [hg2 _ hmemb, hkeep r _ (by decide) (by decide)]; exact hrn
      · intro h
        obtain ⟨x, hx, h2⟩ := List.any_eq_true.mp h
        rw [hg, List.map_map] at hx
        obtain ⟨r, hr, rfl⟩ := List.mem_map.mp hx
        simp only [Bool.and_eq_true, Function.comp] at h2
        have : refFlag (g (f r) "reference_good") ≠ none := by
          by_cases hrg : "reference_good" ∈ df.cols
          · rw [hg3 (f r) (mem_addCol.mpr (.inl (mem_prepCols.mpr (.inl hrg)))),
              hkeep r _ (by decide) (by decide)]
            rcases hflag hrg r hr with h | h | h
            · rw [h]; simp [refFlag]
            · rw [h]; simp [refFlag]
            · unfold refFlag
              split
              · simp
              · rw [if_pos h]; simp
          · rw [hg5 (f r)]
            · simp [refFlag]
            · intro h'
              rcases mem_addCol.mp h' with h' | h'
              · rcases mem_prepCols.mp h' with h' | h'
                · exact hrg h'
                · exact absurd h' (by decide)
              · exact absurd h' (by decide)
        rw [Option.isNone_iff_eq_none] at h2
        exact this h2.2
    rw [hm]
  · exact mem_withDefaults.mpr (.inl (mem_addCol.mpr (.inr rfl)))
  · intro c hc' hm
    have := (by decide : ∀ c ∈ ["titrant_molinity", "alkalinity", "alkalinity_std",
      "alkalinity_npts", "alkalinity_offset", "emf0", "gran_alkalinity", "gran_emf0", "pH_init",
      "temperature_init"], ¬ (c = "analysis_batch" ∨ c = "reference_good") ∧
        c ≠ "titrant_molinity_here" ∧ ¬ (c = "opt_total_borate" ∨ c ∈ salts ∨ c = "analyte_mass"
          ∨ c = "file_good")) c hc'
    rcases mem_withDefaults.mp hm with h | h
    · rcases mem_addCol.mp h with h | h
      · exact (mem_prepCols.mp h).resolve_right this.2.2
      · exact absurd h this.2.1
    · exact absurd h this.1
  · rw [hg, List.map_map, List.forall₂_map_right_iff, List.forall₂_same]
    intro r _
    constructor
    · obtain ⟨x, h1, h2⟩ := hereRow_inv (hf' r)
      refine ⟨x, h1, ?_⟩
      show g (f r) _ = _
      rw [hg1 _ _ (by decide) (by decide), h2, put_eq]
    · intro c hc'
      show g (f r) c = _
      have := (by decide : ∀ c ∈ ["titrant_molinity", "alkalinity", "alkalinity_std",
        "alkalinity_npts", "alkalinity_offset", "emf0", "gran_alkalinity", "gran_emf0", "pH_init",
        "temperature_init"], c ≠ "analysis_batch" ∧ c ≠ "reference_good" ∧
          c ≠ "titrant_molinity_here" ∧ c ∉ prepFills) c hc'
      rw [hg1 _ _ this.1 this.2.1, hkeep r _ this.2.2.1 this.2.2.2]

/-- **C50**: a null `analysis_batch` makes `calibrate` raise `KeyError`; by then the rows have been
calibrated, and nothing else has been stored: not the molinities, and no solver results. -/
theorem C50_null_batch (w : World) (kw : Dict Val) (df : DF)
    (hS : "salinity" ∈ df.cols) (hmv : "analyte_mass" ∈ df.cols ∨ "analyte_volume" ∈ df.cols)
    (hc : "alkalinity_certified" ∈ df.cols) (hf : "file_name" ∈ df.cols)
    (hb : "analysis_batch" ∈ df.cols)
    (hflag : "reference_good" ∈ df.cols → ∀ r ∈ df.rows,
      r "reference_good" = .bool true ∨ r "reference_good" = .bool false ∨
      Spec.Null (r "reference_good"))
    (hnull : ∃ r ∈ df.rows, Spec.Null (r "analysis_batch")) :
    ∃ df', dataset_calibrate w kw df = (.error (.KeyError "nan"), df') ∧
      "titrant_molinity_here" ∈ df'.cols ∧
      (∀ c ∈ ["titrant_molinity", "alkalinity", "alkalinity_std", "alkalinity_npts",
        "alkalinity_offset", "emf0", "gran_alkalinity", "gran_emf0", "pH_init",
        "temperature_init"], c ∈ df'.cols → c ∈ df.cols) ∧
      List.Forall₂ (fun r r' =>
        (∃ x, calibrate_row w kw (prepCols df.cols) (prepRow w df.cols r) = .ok (.num x) ∧
          r' "titrant_molinity_here" = .num x) ∧
        (∀ c ∈ ["titrant_molinity", "alkalinity", "alkalinity_std", "alkalinity_npts",
            "alkalinity_offset", "emf0", "gran_alkalinity", "gran_emf0", "pH_init",
            "temperature_init"], r' c = r c)) df.rows df'.rows := by
  simp only [← isNull_iff, Bool.not_eq_true] at *
  exact c50_null_batch w kw df hS hmv hc hf hb hflag hnull

/-! ## C44 -/

theorem sub_eq_fin_zero {x y : Flt} (h : x - y = fin 0) : x = y ∧ ∃ z, y = fin z := by
  cases x <;> cases y <;> simp [HSub.hSub, Sub.sub, Flt.add, Flt.neg] at h ⊢
  linarith

/-- an optimiser that reports what it evaluated: the result is a value of the residual function -/
theorem loop_reports_any {opt : Lsq Flt} (hr : ReportsEvaluated opt) {g : Flt → Py (List Flt)}
    {x0 : Flt} (n : ℕ) (hist : List (Flt × List Flt)) (hh : ∀ p ∈ hist, g p.1 = .ok p.2)
    {r : LsqResult Flt}
    (h : (opt.loop (fun c => (PyS.lift (g c) : PyS Unit (List Flt))) x0 n hist ()).1 = .ok r) :
    g r.x = .ok r.fun_ := by
  induction n generalizing hist with
  | zero => exact hh _ (hr _ _ _ h)
  | succ n ih =>
    simp only [Lsq.loop] at h
    cases hn : opt.next x0 hist with
    | none => rw [hn] at h; exact hh _ (hr _ _ _ h)
    | some x =>
      rw [hn] at h
      simp only [PyS.lift_apply] at h
      cases hg : g x with
      | error e => rw [hg] at h; simp at h
      | ok v =>
        rw [hg] at h
        refine ih _ ?_ h
        intro p hp
        rcases List.mem_append.mp hp with hp | hp
        · exact hh p hp
        · simp only [List.mem_singleton] at hp; subst hp; exact hg

/-- The assumptions under which the calibrator works with the solver that the user sees (C32): the
settings have the right types, the columns of the file are of equal length, and if the titrant brings
in totals then the masses are ordinary numbers. -/
structure Regular (w : World) (f : String) (S : Flt) (kw : Dict Val) : Prop where
  reports : ReportsEvaluated w.opt
  ok : ∃ cv totals ks mode c0 tts, load w f S kw = .ok (cv, totals, ks) ∧
    Typed kw mode c0 (ttArgs tts) ∧ mode ∈ modes ∧
    cv.measurement.length = cv.temperature.length ∧
    (tts = [] ∨ FiniteTrials w.opt ∧ ∃ (tm : List ℝ) (M : ℝ), cv.titrant_mass = tm.map fin ∧
      cv.analyte_mass = fin M ∧ ∀ m ∈ tm, m + M ≠ 0)

/-- **C44**, for one file: a calibration that reached zero residual gives a molinity with which
solving the file returns the certified alkalinity. -/
theorem C44_file (w : World) (f : String) (cert S : Flt) (kw : Dict Val) (res : LsqResult Flt)
    (hreg : Regular w f S kw) (hg : kw.get? "gran_logic" = none)
    (hcal : files_calibrate w f cert S kw = .ok res) (hz : res.fun_ = [fin 0]) :
    ∃ sr, files_solve w f res.x S kw = .ok sr ∧ sr.alkalinity = cert ∧ ∃ y, cert = fin y := by
  obtain ⟨hr, cv, totals, ks, mode, c0, tts, hl, ht, hm, hlen, hor⟩ := hreg
  have hrun : files_calibrate w f cert S kw = (w.opt.run (solveRes w f S cert kw) c0 ()).1 := by
    rcases hor with rfl | ⟨hopt, tm, M, htm, hM, hmm⟩
    · exact C32_same_solver w f mode cert S c0 kw cv totals ks hl ht hg hm hlen
    · exact C32_same_solver_titrant w f mode cert S c0 kw cv totals ks tts tm M hopt hl ht htm hM hmm
        hg hm hlen
  rw [hcal] at hrun
  have h := loop_reports_any hr (g := fun c => do
    let r ← files_solve w f c S kw
    return [r.alkalinity - cert]) w.opt.maxEval [] (by simp) hrun.symm
  simp only [bind_ok_iff, pure_ok, Except.ok.injEq, hz, List.cons.injEq, and_true] at h
  obtain ⟨sr, h1, h2⟩ := h
  exact ⟨sr, h1, sub_eq_fin_zero h2⟩

/-- the columns that calibration writes besides those of the solver -/
def calCols : List String :=
  ["titrant_molinity_here", "analysis_batch", "reference_good", "titrant_molinity"]

/-- what ends up in a row of a calibrated dataset -/
structure CalRow (w : World) (kw : Dict Val) (cols : List String) (r r' : Row) (x : Flt) (s : Row) :
    Prop where
  here : calibrate_row w kw (prepCols cols) (prepRow w cols r) = .ok (.num x)
  here' : r' "titrant_molinity_here" = .num x
  solved : solve_row w kw (prepCols cols)
    ((prepRow w cols r).put "titrant_molinity" (r' "titrant_molinity")) = .ok s
  solved' : ∀ c ∈ solvedCols, r' c = s c
  offset : ∃ a c, cellNum (r' "alkalinity") = .ok a ∧ cellNum (r "alkalinity_certified") = .ok c ∧
    r' "alkalinity_offset" = .num (a - c)
  batch : r' "analysis_batch" = if "analysis_batch" ∈ cols then r "analysis_batch" else .num (fin 0)
  flag : r' "reference_good" = if "reference_good" ∈ cols then r "reference_good"
    else .bool !(r' "titrant_molinity_here").isNull
  keep : ∀ c, c ∉ solvedCols → c ≠ "alkalinity_offset" → c ∉ calCols → r' c = prepRow w cols r c

/-- Calibration row by row: what ends up in each row of the calibrated dataset. -/
theorem calibrate_rows {w : World} {kw : Dict Val} {df df' : DF}
    (h : dataset_calibrate w kw df = (.ok (), df')) :
    List.Forall₂ (fun r r' => ∃ x s, CalRow w kw df.cols r r' x s) df.rows df'.rows := by
  obtain ⟨hS, hmv, hc, rows, hrows, _, hsol⟩ := dataset_calibrate_ok_iff.mp h
  obtain ⟨_, _, _, _, _, hsolved⟩ := dataset_solve_ok_iff.mp hsol
  obtain ⟨g, hg, hg1, hg2, hg3, hg4, hg5⟩ := withDefaults_rows ⟨hereCols df.cols, rows⟩
  have hm5 : (withMolinity (withDefaults ⟨hereCols df.cols, rows⟩)).rows = rows.map fun r =>
      (g r).put "titrant_molinity"
        (.num (batchMean (withDefaults ⟨hereCols df.cols, rows⟩).rows (g r "analysis_batch"))) := by
    unfold withMolinity DF.setCol
    simp only
    rw [hg, List.map_map]; rfl
  rw [hm5, List.forall₂_map_left_iff] at hsolved
  have hcols : ∀ c, c ∉ ["titrant_molinity_here", "analysis_batch", "reference_good",
      "titrant_molinity"] →
      (c ∈ (withMolinity (withDefaults ⟨hereCols df.cols, rows⟩)).cols ↔ c ∈ prepCols df.cols) := by
    intro c hc
    simp only [List.mem_cons, List.not_mem_nil, or_false, not_or] at hc
    unfold withMolinity DF.setCol
    simp only
    rw [mem_addCol, or_iff_left hc.2.2.2, mem_withDefaults,
      or_iff_left (by rintro (h | h); exacts [hc.2.1 h, hc.2.2.1 h])]
    show c ∈ hereCols df.cols ↔ _
    unfold hereCols
    rw [mem_addCol, or_iff_left hc.1]
  refine (forall₂_comp hrows hsolved).imp ?_
  rintro r r' ⟨m, hm, hr'⟩
  obtain ⟨x, hx, rfl⟩ := hereRow_inv hm
  generalize hcols5 : (withMolinity (withDefaults ⟨hereCols df.cols, rows⟩)).cols = cols5 at *
  generalize hv : Val.num (batchMean (withDefaults ⟨hereCols df.cols, rows⟩).rows
    (g ((prepRow w df.cols r).put "titrant_molinity_here" (.num x)) "analysis_batch")) = v at hr'
  set m5 := (g ((prepRow w df.cols r).put "titrant_molinity_here" (.num x))).put "titrant_molinity" v
    with hm5'
  have hkeep : ∀ c, c ∉ ["titrant_molinity_here", "analysis_batch", "reference_good",
      "titrant_molinity"] → m5 c = prepRow w df.cols r c := by
    intro c hc
    simp only [List.mem_cons, List.not_mem_nil, or_false, not_or] at hc
    rw [hm5', put_ne _ _ hc.2.2.2, hg1 _ _ hc.2.1 hc.2.2.1, put_ne _ _ hc.1]
  have hagain : prepRow w cols5 m5 = m5 := by
    refine prepRow_again (cols := df.cols) (r := r) ?_ ?_
    · intro c hc
      exact hcols c ((by decide : ∀ c ∈ prepFills, c ∉ ["titrant_molinity_here", "analysis_batch",
        "reference_good", "titrant_molinity"]) c hc)
    · intro c hc
      refine hkeep c ?_
      rcases hc with hc | rfl
      · exact (by decide : ∀ c ∈ prepFills, c ∉ ["titrant_molinity_here", "analysis_batch",
          "reference_good", "titrant_molinity"]) c hc
      · decide
  have hpc : prepCols cols5 = cols5 := by
    apply saltCols_again
    intro c hc hne
    rw [hcols c ((by decide : ∀ c ∈ prepFills, c ∉ ["titrant_molinity_here", "analysis_batch",
        "reference_good", "titrant_molinity"]) c hc), mem_prepCols]
    exact .inr ((by decide : ∀ c ∈ prepFills, c ≠ "titrant_amount_unit" →
      (c = "opt_total_borate" ∨ c ∈ salts ∨ c = "analyte_mass" ∨ c = "file_good")) c hc hne)
  have hkeep' : ∀ c, c ∉ solvedCols → c ≠ "alkalinity_offset" → r' c = m5 c := fun c h1 h2 => by
    rw [solvedRow_keeps hr' c (.inl h1) h2, hagain]
  have hmol : r' "titrant_molinity" = v := by
    rw [hkeep' _ (by decide) (by decide), hm5', put_eq]
  have hr2 := hr'
  rw [solvedRow, bind_ok_iff] at hr2
  obtain ⟨m6, hm6, hoff⟩ := hr2
  obtain ⟨s, hs, rfl⟩ := mergedRow_inv hm6
  rw [hagain, hpc] at hs
  have hhere : r' "titrant_molinity_here" = .num x := by
    rw [hkeep' _ (by decide) (by decide), hm5', put_ne _ _ (by decide),
      hg1 _ _ (by decide) (by decide), put_eq]
  have hin : ∀ c, c ∉ ["opt_total_borate", "total_sulfate", "total_borate", "total_fluoride",
      "analyte_mass", "file_good", "titrant_molinity_here"] → (c ∈ hereCols df.cols ↔ c ∈ df.cols) := by
    intro c hc
    simp only [List.mem_cons, List.not_mem_nil, or_false, not_or] at hc
    unfold hereCols
    rw [mem_addCol, or_iff_left hc.2.2.2.2.2.2, mem_prepCols, or_iff_left]
    simp only [salts, List.mem_cons, List.not_mem_nil, or_false, not_or]
    exact ⟨hc.1, ⟨hc.2.1, hc.2.2.1, hc.2.2.2.1⟩, hc.2.2.2.2.1, hc.2.2.2.2.2.1⟩
  refine ⟨x, s, hx, hhere, ?_, ?_, ?_, ?_, ?_, ?_⟩
  · rw [← hs]
    symm
    refine solve_row_congr ?_ ?_ ?_ ?_ ?_
    · intro c hc'
      have hne := (by decide : ∀ c ∈ solveReads, c ∉ ["titrant_molinity_here", "analysis_batch",
        "reference_good", "titrant_molinity"]) c hc'
      refine ⟨hcols c hne, fun _ => ?_⟩
      rw [hkeep c hne, put_ne _ _ (fun h => hne (by rw [h]; decide))]
    · rw [put_eq, hmol, hm5', put_eq]
    · rw [hkeep _ (by decide), put_ne _ _ (by decide)]
    · rw [hkeep _ (by decide), put_ne _ _ (by decide)]
    · rw [hkeep _ (by decide), put_ne _ _ (by decide)]
  · intro c hc'
    rw [offsetRow_keeps hoff c ((by decide : ∀ c ∈ solvedCols, c ≠ "alkalinity_offset") c hc')]
    unfold mergeSolved; rw [if_pos hc']
  · unfold offsetRow at hoff
    rw [if_pos] at hoff
    · simp only [bind_ok_iff, pure_ok, Except.ok.injEq] at hoff
      obtain ⟨a, ha, b, hb, rfl⟩ := hoff
      refine ⟨a, b, ?_, ?_, put_eq _ _ _⟩
      · rw [put_ne _ _ (by decide)]; exact ha
      · rw [hagain] at hb
        have : mergeSolved m5 s "alkalinity_certified" = r "alkalinity_certified" := by
          unfold mergeSolved
          rw [if_neg (by decide), hkeep _ (by decide), prepRow_other (by decide)]
        rw [← this]; exact hb
    · rw [hcols _ (by decide)]; exact mem_prepCols.mpr (.inl hc)
  · rw [hkeep' _ (by decide) (by decide), hm5', put_ne _ _ (by decide)]
    by_cases hb : "analysis_batch" ∈ df.cols
    · rw [if_pos hb, hg2 _ ((hin _ (by decide)).mpr hb), put_ne _ _ (by decide),
        prepRow_other (by decide)]
    · rw [if_neg hb, hg4 _ (fun h => hb ((hin _ (by decide)).mp h))]
  · rw [hhere, hkeep' _ (by decide) (by decide), hm5', put_ne _ _ (by decide)]
    by_cases hb : "reference_good" ∈ df.cols
    · rw [if_pos hb, hg3 _ ((hin _ (by decide)).mpr hb), put_ne _ _ (by decide),
        prepRow_other (by decide)]
    · rw [if_neg hb, hg5 _ (fun h => hb ((hin _ (by decide)).mp h)), put_eq]
  · intro c h1 h2 h3
    rw [hkeep' c h1 h2, hkeep c h3]

theorem calibrate_cols {w : World} {kw : Dict Val} {df df' : DF}
    (h : dataset_calibrate w kw df = (.ok (), df')) {c : String} (hc : c ∈ df.cols ∨ c ∈ calCols) :
    c ∈ df'.cols := by
  obtain ⟨_, _, _, rows, _, _, hsol⟩ := dataset_calibrate_ok_iff.mp h
  obtain ⟨_, _, _, _, hcols, _⟩ := dataset_solve_ok_iff.mp hsol
  rw [hcols, mem_doneCols]
  left
  show c ∈ addCol _ _
  rw [mem_addCol, mem_withDefaults]
  show ((c ∈ hereCols df.cols ∨ _) ∨ _)
  unfold hereCols
  rw [mem_addCol, mem_prepCols]
  rcases hc with hc | hc
  · exact .inl (.inl (.inl (.inl hc)))
  · simp only [calCols, List.mem_cons, List.not_mem_nil, or_false] at hc
    rcases hc with h | h | h | h
    · exact .inl (.inl (.inr h))
    · exact .inl (.inr (.inl h))
    · exact .inl (.inr (.inr h))
    · exact .inr h

/-- the calibration attempted for one row of a dataset -/
noncomputable def rowCalibration (w : World) (kw : Dict Val) (cols : List String) (r : Row) :
    Py (String × Flt × Flt × Dict Val × LsqResult Flt) := do
  let kwb ← backcompat kw (rowDict cols r)
  let file ← rowAttr cols r "file_name"
  let file ← file.toStr
  let cert ← (r "alkalinity_certified").toFlt
  let S ← (r "salinity").toFlt
  let res ← files_calibrate w file cert S (get_kwargs_for keys_calibrate kwb (some (rowDict cols r)))
  return (file, cert, S, kwb, res)

theorem npMean_one (x : Flt) : npMean [x] = x := by
  have h : npMean [x] = x / fin 1 := by
    simp only [npMean, npSum, List.sum_cons, List.sum_nil, add_zero, List.length_singleton,
      Nat.cast_one]
  rw [h]
  cases x with
  | fin a => rw [div_fin _ _ one_ne_zero, div_one]
  | nan => rfl
  | pinf => show Flt.div pinf (fin 1) = _; simp [Flt.div, infMul]
  | ninf => show Flt.div ninf (fin 1) = _; simp [Flt.div, infMul]

theorem add_results_alkalinity (sr : SolveRes) (s : Row) :
    (add_solve_results sr s).2 "alkalinity" = .num sr.alkalinity := by
  have hf : ∀ (c : String) (l : List Flt) (s : Row), c ≠ "alkalinity" →
      (putFirst c l s).2 "alkalinity" = s "alkalinity" := by
    intro c l s hc
    cases l with
    | nil => rfl
    | cons x l => exact put_ne _ _ (Ne.symm hc)
  have hlast : ∀ (l l' : List Flt) (s : Row),
      ((putFirst "pH_init" l >>= fun _ => putFirst "temperature_init" l') s).2 "alkalinity"
        = s "alkalinity" := by
    intro l l' s
    rw [PyS.bind_apply]
    cases l with
    | nil => rfl
    | cons x l =>
      show (putFirst "temperature_init" l' (s.put "pH_init" (.num x))).2 "alkalinity" = _
      rw [hf _ _ _ (by decide), put_ne _ _ (by decide)]
  cases sr with
  | emf sr t =>
    simp only [add_solve_results, putNum, PyS.modify_bind]
    rw [hlast, put_ne _ _ (by decide), put_ne _ _ (by decide), put_ne _ _ (by decide), put_eq]; rfl
  | pH sr p t =>
    simp only [add_solve_results, putNum, PyS.modify_bind]
    rw [hlast, put_eq]; rfl
  | pH_gran sr p t =>
    simp only [add_solve_results, putNum, PyS.modify_bind]
    rw [hlast, put_eq]; rfl

theorem c44_self_calibrated (w : World) (kw : Dict Val) (df df' : DF)
    (h : dataset_calibrate w kw df = (.ok (), df'))
    (hl : ∀ r ∈ df'.rows, Label (r "analysis_batch")) (i : ℕ) (hi : i < df.rows.length)
    (hi' : i < df'.rows.length) (f : String) (cert S : Flt) (kwb : Dict Val) (res : LsqResult Flt)
    (hcal : rowCalibration w kw (prepCols df.cols) (prepRow w df.cols df.rows[i])
      = .ok (f, cert, S, kwb, res))
    (hz : res.fun_ = [fin 0])
    (hone : goodHere df'.rows (df'.rows[i] "analysis_batch") = [res.x])
    (hhere : (df'.rows[i] "titrant_molinity_here").isNull = false)
    (hreg : Regular w f S (get_kwargs_for keys_calibrate kwb
      (some (rowDict (prepCols df.cols) (prepRow w df.cols df.rows[i])))))
    (hg : kwb.get? "gran_logic" = none)
    (hg' : "gran_logic" ∈ df.cols → (df.rows[i] "gran_logic").isNull = true) :
    df'.rows[i] "titrant_molinity" = .num res.x ∧
    df'.rows[i] "alkalinity" = .num cert ∧ df'.rows[i] "alkalinity_offset" = .num (fin 0) := by
  obtain ⟨x, s, hx, hxr, hs, hsc, ⟨a, c, ha, hc, hoff⟩, _, _, _⟩ :=
    (List.forall₂_iff_get.mp (calibrate_rows h)).2 i hi hi'
  simp only [List.get_eq_getElem] at *
  generalize df.rows[i] = r at *
  have hmem : df'.rows[i] ∈ df'.rows := List.getElem_mem hi'
  have hmean := C43_batch_mean w kw df df' h hl _ hmem
  rw [hone, npMean_one] at hmean
  refine ⟨hmean, ?_⟩
  generalize df'.rows[i] = r' at *
  simp only [rowCalibration, bind_ok_iff, pure_ok, Except.ok.injEq, Prod.mk.injEq] at hcal
  obtain ⟨kwb', hb, fv, hfv, f', hf', cert', hcert, S', hS, res', hres, rfl, rfl, rfl, rfl, rfl⟩ := hcal
  -- the row was calibrated
  have hgo : (!(prepRow w df.cols r "alkalinity_certified").isNull &&
      (prepRow w df.cols r "file_good").truthy) = true := by
    by_contra hno
    unfold calibrate_row at hx
    rw [if_neg hno] at hx
    cases hx
    rw [hxr] at hhere; cases hhere
  have hatt : calibrate_attempt w kw (prepCols df.cols) (prepRow w df.cols r) = .ok res'.x := by
    simp only [calibrate_attempt, hb, hfv, hf', hcert, hS, hres, bind_ok, pure_ok]
  have hxx : x = res'.x := by
    unfold calibrate_row at hx
    rw [if_pos hgo, hatt] at hx
    simpa using hx.symm
  subst hxx
  have hxn : res'.x ≠ nan := by
    rw [hxr] at hhere; exact isNaN_false_iff.mp hhere
  -- the solver gets the same settings
  set row := rowDict (prepCols df.cols) (prepRow w df.cols r) with hrow
  have hgl : row.get? "gran_logic" = none ∨ ∃ v, row.get? "gran_logic" = some v ∧ v.isNull = true := by
    rw [hrow, rowDict_get?]
    by_cases hm : "gran_logic" ∈ prepCols df.cols
    · rw [if_pos hm]
      refine .inr ⟨_, rfl, ?_⟩
      rw [prepRow_other (by decide)]
      refine hg' ?_
      rcases mem_prepCols.mp hm with h | h
      · exact h
      · exact absurd h (by decide)
    · rw [if_neg hm]; exact .inl rfl
  have hgS : ∀ keys, (get_kwargs_for keys kwb' (some row)).get? "gran_logic" = none := by
    intro keys
    rw [C31_value]
    split
    · unfold chosen
      rcases hgl with h | ⟨v, h, hv⟩
      · rw [h]; exact hg
      · rw [h]; simp only [hv, if_true]; exact hg
    · rfl
  obtain ⟨sr, hsr, halk, y, hy⟩ := C44_file w f' cert' S' _ res' hreg (hgS _) hres hz
  have hsame : SameKw keys_solve (get_kwargs_for keys_calibrate kwb' (some row))
      (get_kwargs_for keys_solve kwb' (some row)) := by
    have := get_kwargs_calibrate_solve kwb' row
    refine ⟨?_, this.read, this.tts⟩
    intro k hk
    by_cases hkg : k = "gran_logic"
    · subst hkg; rw [hgS, hgS]
    · exact this.get k (List.mem_filter.mpr ⟨hk, by simpa using hkg⟩)
  rw [files_solve_congr hsame] at hsr
  -- the row is solved
  set mr := (prepRow w df.cols r).put "titrant_molinity" (r' "titrant_molinity") with hmr
  have hcall : solve_call w kw (prepCols df.cols) mr = .ok sr := by
    have hd : ∀ k ≠ "titrant_molinity", (rowDict (prepCols df.cols) mr).get? k = row.get? k := by
      intro k hk
      rw [hrow, rowDict_get?, rowDict_get?, hmr, put_ne _ _ hk]
    have e1 : backcompat kw (rowDict (prepCols df.cols) mr) = .ok kwb' := by
      rw [← hb]; exact backcompat_row_congr (hd _ (by decide))
    have e2 : rowAttr (prepCols df.cols) mr "file_name" = .ok fv := by
      rw [← hfv]; unfold rowAttr; rw [hmr, put_ne _ _ (by decide)]
    have e3 : (mr "titrant_molinity").toFlt = .ok res'.x := by rw [hmr, put_eq, hmean]; rfl
    have e4 : (mr "salinity").toFlt = .ok S' := by rw [hmr, put_ne _ _ (by decide)]; exact hS
    have e5 : get_kwargs_for keys_solve kwb' (some (rowDict (prepCols df.cols) mr))
        = get_kwargs_for keys_solve kwb' (some row) :=
      get_kwargs_row_congr fun k hk => hd k
        ((by decide : ∀ k ∈ keys_solve, k ≠ "titrant_molinity") k hk)
    simp only [solve_call, e1, e2, hf', e3, e4, e5, bind_ok, hsr]
  have hs2 := hs
  unfold solve_row at hs2
  rw [if_pos] at hs2
  · have hal : (solve_attempt w kw (prepCols df.cols) mr (blankSolved mr)).2 "alkalinity"
        = .num cert' := by
      unfold solve_attempt
      rw [PyS.lift_bind, hcall, ← halk]
      exact add_results_alkalinity sr _
    have hs3 : s = (solve_attempt w kw (prepCols df.cols) mr (blankSolved mr)).2 := by
      rcases hatt2 : solve_attempt w kw (prepCols df.cols) mr (blankSolved mr) with ⟨o, s'⟩
      rw [hatt2] at hs2
      cases o with
      | ok u => exact (Except.ok.inj hs2).symm
      | error e =>
        simp only [caught] at hs2
        split at hs2
        · exact (Except.ok.inj hs2).symm
        · cases hs2
    have hra : r' "alkalinity" = .num cert' := by rw [hsc _ (by decide), hs3, hal]
    refine ⟨hra, ?_⟩
    rw [hra] at ha
    have hac : a = cert' := by
      subst hy
      simpa [cellNum, Val.isNull, Flt.isNaN, Val.toFlt] using ha.symm
    have hcc : c = cert' := by
      rw [prepRow_other (by decide)] at hcert hgo
      unfold cellNum at hc
      rw [if_neg] at hc
      · rw [hcert] at hc; simpa using hc.symm
      · intro hn; rw [hn] at hgo; cases hgo
    rw [hoff, hac, hcc, hy]; simp
  · rw [hmr, put_eq, hmean, put_ne _ _ (by decide)]
    simp only [Bool.and_eq_true] at hgo ⊢
    exact ⟨by simp [Val.isNull, isNaN_false_iff.mpr hxn], hgo.2⟩

/-- **C44**: if the batch of a row has that row as its only good reference, its calibration reached
zero residual and no `gran_logic` is set, then after `calibrate` its alkalinity is the certified value
and its offset is zero. -/
theorem C44_self_calibrated (w : World) (kw : Dict Val) (df df' : DF)
    (h : dataset_calibrate w kw df = (.ok (), df'))
    (hl : ∀ r ∈ df'.rows, Label (r "analysis_batch")) (i : ℕ) (hi : i < df.rows.length)
    (hi' : i < df'.rows.length) (f : String) (cert S : Flt) (kwb : Dict Val) (res : LsqResult Flt)
    (hcal : rowCalibration w kw (prepCols df.cols) (prepRow w df.cols df.rows[i])
      = .ok (f, cert, S, kwb, res))
    (hz : res.fun_ = [fin 0])
    (hone : goodHere df'.rows (df'.rows[i] "analysis_batch") = [res.x])
    (hhere : ¬ Spec.Null (df'.rows[i] "titrant_molinity_here"))
    (hreg : Regular w f S (get_kwargs_for keys_calibrate kwb
      (some (rowDict (prepCols df.cols) (prepRow w df.cols df.rows[i])))))
    (hg : kwb.get? "gran_logic" = none)
    (hg' : "gran_logic" ∈ df.cols → Spec.Null (df.rows[i] "gran_logic")) :
    df'.rows[i] "titrant_molinity" = .num res.x ∧
    df'.rows[i] "alkalinity" = .num cert ∧ df'.rows[i] "alkalinity_offset" = .num (fin 0) := by
  simp only [← isNull_iff, Bool.not_eq_true] at *
  exact c44_self_calibrated w kw df df' h hl i hi hi' f cert S kwb res hcal hz hone hhere hreg hg hg'

/-! ## C46 -/

/-- **C46**: a first `calibrate` stores a negative `reference_good` for every row that it could not
calibrate, ... -/
theorem C46_flag_stored (w : World) (kw : Dict Val) (df df' : DF)
    (h : dataset_calibrate w kw df = (.ok (), df')) (hno : "reference_good" ∉ df.cols) :
    "reference_good" ∈ df'.cols ∧ ∀ r ∈ df'.rows,
      r "reference_good" = .bool (decide (¬ Spec.Null (r "titrant_molinity_here"))) := by
  constructor
  · exact calibrate_cols h (.inr (by decide))
  · intro r hr
    obtain ⟨r0, _, x, s, hcr⟩ : ∃ r0 ∈ df.rows, ∃ x s, CalRow w kw df.cols r0 r x s :=
      forall₂_mem (calibrate_rows h).flip hr
    rw [hcr.flag, if_neg hno, not_isNull]

/-- ... and a stored flag is final: whatever else has been changed in the dataset, a row whose flag is
negative contributes to no batch in any later `calibrate`. -/
theorem C46_flag_final (w : World) (kw : Dict Val) (df df' : DF)
    (h : dataset_calibrate w kw df = (.ok (), df')) (hrg : "reference_good" ∈ df.cols)
    (i : ℕ) (hi : i < df.rows.length) (hflag : df.rows[i] "reference_good" = .bool false) (b : Val) :
    goodHere df'.rows b = goodHere (df'.rows.eraseIdx i) b := by
  have hlen := (calibrate_rows h).length_eq
  have hi' : i < df'.rows.length := hlen ▸ hi
  obtain ⟨x, s, hcr⟩ := (List.forall₂_iff_get.mp (calibrate_rows h)).2 i hi hi'
  have hf : df'.rows[i] "reference_good" = .bool false := by
    have := hcr.flag
    rw [if_pos hrg] at this
    simp only [List.get_eq_getElem] at this
    rw [this, hflag]
  have hsplit : df'.rows = df'.rows.take i ++ df'.rows[i] :: df'.rows.drop (i + 1) := by
    rw [List.getElem_cons_drop, List.take_append_drop]
  rw [List.eraseIdx_eq_take_drop_succ]
  conv_lhs => rw [hsplit]
  unfold goodHere
  rw [List.filterMap_append, List.filterMap_append, List.filterMap_cons_none]
  cases df'.rows[i] "titrant_molinity_here" with
  | num x =>
    simp only
    rw [if_neg]
    rintro ⟨_, h, _⟩
    rw [hf] at h; cases h
  | _ => rfl

theorem c46_salts_kept (w : World) (kw : Dict Val) (df df' : DF)
    (h : dataset_calibrate w kw df = (.ok (), df')) (c : String)
    (hc : c ∈ ["opt_total_borate", "total_sulfate", "total_borate", "total_fluoride"])
    (hcols : c ∈ df.cols) (i : ℕ) (hi : i < df.rows.length) (hi' : i < df'.rows.length)
    (hn : (df.rows[i] c).isNull = false) : df'.rows[i] c = df.rows[i] c := by
  obtain ⟨x, s, hcr⟩ := (List.forall₂_iff_get.mp (calibrate_rows h)).2 i hi hi'
  simp only [List.get_eq_getElem] at hcr
  have := (by decide : ∀ c ∈ ["opt_total_borate", "total_sulfate", "total_borate", "total_fluoride"],
    c ∉ solvedCols ∧ c ≠ "alkalinity_offset" ∧ c ∉ calCols) c hc
  rw [hcr.keep c this.1 this.2.1 this.2.2, prepRow_keep hcols hn]

/-- **C46**: salt totals (and the borate option) that are already in the dataset are kept by `calibrate`
whatever the salinity is now; -/
theorem C46_salts_kept (w : World) (kw : Dict Val) (df df' : DF)
    (h : dataset_calibrate w kw df = (.ok (), df')) (c : String)
    (hc : c ∈ ["opt_total_borate", "total_sulfate", "total_borate", "total_fluoride"])
    (hcols : c ∈ df.cols) (i : ℕ) (hi : i < df.rows.length) (hi' : i < df'.rows.length)
    (hn : ¬ Spec.Null (df.rows[i] c)) : df'.rows[i] c = df.rows[i] c := by
  simp only [← isNull_iff, Bool.not_eq_true] at *
  exact c46_salts_kept w kw df df' h c hc hcols i hi hi' hn

/-- ... while a dataset without them gets the totals for its present salinity. -/
theorem C46_salts_fresh (w : World) (kw : Dict Val) (df df' : DF)
    (h : dataset_calibrate w kw df = (.ok (), df')) (c : String)
    (hc : c ∈ ["total_sulfate", "total_borate", "total_fluoride"])
    (hcols : c ∉ df.cols) (i : ℕ) (hi : i < df.rows.length) (hi' : i < df'.rows.length) :
    df'.rows[i] c = .num (w.sysSalts (df.rows[i] "salinity") (df'.rows[i] "opt_total_borate") c) := by
  obtain ⟨x, s, hcr⟩ := (List.forall₂_iff_get.mp (calibrate_rows h)).2 i hi hi'
  simp only [List.get_eq_getElem] at hcr
  have := (by decide : ∀ c ∈ ["total_sulfate", "total_borate", "total_fluoride"],
    (c ∉ solvedCols ∧ c ≠ "alkalinity_offset" ∧ c ∉ calCols) ∧ c ∈ salts ∧ c ≠ "analyte_mass" ∧
      c ≠ "titrant_amount_unit" ∧ c ≠ "file_good" ∧ c ≠ "opt_total_borate") c hc
  obtain ⟨⟨h1, h2, h3⟩, h4, h5, h6, h7, h8⟩ := this
  rw [hcr.keep c h1 h2 h3, hcr.keep "opt_total_borate" (by decide) (by decide) (by decide)]
  unfold prepRow
  rw [if_neg h5, if_neg h6, if_neg h7, if_neg (by decide), if_neg (by decide), if_neg (by decide)]
  unfold saltRow
  rw [if_neg h8, if_pos h4, if_neg (fun h => hcols h.1), if_pos rfl]

theorem lsqOnce_reports : ReportsEvaluated lsqOnce := by
  intro x0 hist r h
  simp only [lsqOnce] at h
  split at h
  · simp at h
  · split at h
    · simp only [Except.ok.injEq] at h; subst h; simp
    · cases h

end Calk
