import Verif.Model.Plot
import Verif.Props.CalibrateCases

/-! # C104, C105: the plots of a data set -/

namespace Calk
open Flt Spec

/-! ## Specifications -/

/-- Specification: the position along the axis of row number `i`: its number, or the number in the
column chosen -/
def XOf (df : DF) (xvar : Option String) (x : ℕ → Row → Flt) : Prop :=
  (xvar = none ∧ ∀ i r, x i r = fin (i : ℕ)) ∨
  ∃ c, xvar = some c ∧ c ∈ df.cols ∧ ∀ i r, r ∈ df.rows → cellNum (r c) = .ok (x i r)

/-- Specification: the rows flagged as good (all, if there are no flags) -/
def GoodRow (df : DF) (r : Row) : Prop := "reference_good" ∈ df.cols → r "reference_good" = .bool true

/-- Specification: the rows with `P`, in order, each at its place -/
noncomputable def atRows (df : DF) (x : ℕ → Row → Flt) (y : Row → Flt) (P : Row → Prop) :
    List (Flt × Flt) :=
  open Classical in (df.rows.zipIdx.filter fun p => decide (P p.1)).map fun p => (x p.2 p.1, y p.1)

/-- flags, if there are any, are Booleans -/
def BoolFlags (df : DF) : Prop :=
  "reference_good" ∈ df.cols → ∀ r ∈ df.rows, ∃ b, r "reference_good" = .bool b

/-! ## Lemmas -/

theorem mask_of_list {α β : Type} (l : List α) (p : α → Bool) (f : α → β) :
    mask (l.map p) (l.map f) = (l.filter p).map f := by
  induction l with
  | nil => rfl
  | cons a l ih =>
    cases hp : p a <;> simp [mask_cons_true, mask_cons_false, hp, ih]

theorem rows_zipIdx {β : Type} (l : List Row) (f : Row → β) :
    l.map f = l.zipIdx.map fun p => f p.1 := by
  conv_lhs => rw [← List.zipIdx_map_fst 0 l]
  rw [List.map_map]; rfl

theorem xData_eq {df : DF} {xvar : Option String} {x : ℕ → Row → Flt} (h : XOf df xvar x) :
    xData df xvar = .ok (df.rows.zipIdx.map fun p => x p.2 p.1) := by
  rcases h with ⟨rfl, hx⟩ | ⟨c, rfl, hc, hx⟩
  · simp only [xData, hx]
    congr 1
    have := List.zipIdx_map_snd 0 df.rows
    rw [← List.range_eq_range'] at this
    rw [← this, List.map_map]; rfl
  · simp only [xData]
    rw [if_pos (has_iff.mpr hc)]
    rw [mapPy_of_ok (g := fun r => x 0 r) (fun r hr => hx 0 r hr), rows_zipIdx]
    congr 1
    apply List.map_congr_left
    intro p hp
    have h1 := hx 0 p.1 (List.fst_mem_of_mem_zipIdx hp)
    rw [hx p.2 p.1 (List.fst_mem_of_mem_zipIdx hp)] at h1
    exact (Except.ok.inj h1).symm

theorem nums_eq {df : DF} {c : String} {y : Row → Flt} (hc : c ∈ df.cols)
    (h : ∀ r ∈ df.rows, cellNum (r c) = .ok (y r)) : df.nums c = .ok (df.rows.map y) := by
  unfold DF.nums
  rw [if_pos (has_iff.mpr hc), mapPy_of_ok (g := y) h]

open Classical in
theorem goodFlags_eq {df : DF} (h : BoolFlags df) :
    goodFlags df = .ok (df.rows.map fun r => decide (GoodRow df r)) := by
  unfold goodFlags
  by_cases hc : "reference_good" ∈ df.cols
  · rw [if_pos (has_iff.mpr hc)]
    apply mapPy_of_ok
    intro r hr
    obtain ⟨b, hb⟩ := h hc r hr
    unfold goodFlag GoodRow
    rw [hb]
    cases b <;> simp [hc]
  · rw [if_neg (fun h => hc (has_iff.mp h))]
    simp [GoodRow, hc]

open Classical in
theorem zip_rows {df : DF} {x : ℕ → Row → Flt} {y : Row → Flt} {g : Row → Bool} {P : Row → Prop}
    (h : ∀ r ∈ df.rows, g r = true ↔ P r) :
    (mask (df.rows.map g) (df.rows.zipIdx.map fun p => x p.2 p.1)).zip
      (mask (df.rows.map g) (df.rows.map y)) = atRows df x y P := by
  rw [mask_of_list df.rows g y, ← mask_of_list df.rows g y, rows_zipIdx _ g, rows_zipIdx _ y,
    mask_of_list, mask_of_list, List.zip_map']
  unfold atRows
  congr 1
  apply List.filter_congr
  intro p hp
  have := h p.1 (List.fst_mem_of_mem_zipIdx hp)
  rw [Bool.eq_iff_iff, decide_eq_true_iff]
  exact this

open Classical in
theorem goodScatters_eq {df : DF} {x : ℕ → Row → Flt} {y : Row → Flt} (show_bad : Bool) :
    goodScatters show_bad (df.rows.map fun r => decide (GoodRow df r))
        (df.rows.zipIdx.map fun p => x p.2 p.1) (df.rows.map y) =
      [.points (some "Good data") true (atRows df x y (GoodRow df))] ++
        if show_bad then [.points (some "Bad data") false (atRows df x y fun r => ¬ GoodRow df r)]
        else [] := by
  unfold goodScatters
  rw [zip_rows (P := GoodRow df) (by simp), List.map_map, zip_rows (P := fun r => ¬ GoodRow df r) (by simp)]

theorem sameLabel_self {v : Val} (h : Label v) : v.sameLabel v = true := (sameLabel_iff h h).mpr rfl

theorem distinctLabels_spec : ∀ l : List Val, (∀ v ∈ l, Label v) →
    (distinctLabels l).Nodup ∧ ∀ v, v ∈ distinctLabels l ↔ v ∈ l
  | [], _ => ⟨by simp [distinctLabels], by simp [distinctLabels]⟩
  | v :: l, h => by
    obtain ⟨h1, h2⟩ := distinctLabels_spec l fun v hv => h v (List.mem_cons_of_mem _ hv)
    have hm : ∀ v', v' ∈ (distinctLabels l).filter (fun v' => !v'.sameLabel v) ↔ v' ∈ l ∧ v' ≠ v := by
      intro v'
      rw [List.mem_filter, h2]
      refine and_congr_right fun hv' => ?_
      rw [Bool.not_eq_true', ← Bool.not_eq_true,
        sameLabel_iff (h v' (List.mem_cons_of_mem _ hv')) (h v (by simp))]
    unfold distinctLabels
    refine ⟨List.nodup_cons.mpr ⟨fun hc => ((hm v).mp hc).2 rfl, h1.filter _⟩, fun v' => ?_⟩
    rw [List.mem_cons, hm, List.mem_cons]
    by_cases hv : v' = v <;> simp [hv]

/-- the label of every row is an ordinary one -/
def Labelled (df : DF) : Prop := ∀ r ∈ df.rows, Label (r "analysis_batch")

theorem label_notNull {v : Val} (h : Label v) : v.isNull = false := by
  rcases h with ⟨s, rfl⟩ | ⟨x, rfl, hx⟩
  · rfl
  · exact isNaN_false_iff.mpr hx

theorem batchLabels_flags {order : List Val → List Val} (ho : ∀ l, (order l).Perm l) {df : DF}
    (hc : ∀ c ∈ batchCols, c ∈ df.cols)
    (hb : ∀ r ∈ df.rows, (refFlag (r "reference_good")).isSome = true) (hl : Labelled df) :
    ∃ bs, batchLabels order df = .ok bs ∧ bs.Nodup ∧
      ∀ b, b ∈ bs ↔ ∃ r ∈ df.rows, r "analysis_batch" = b := by
  unfold batchLabels
  have h1 : (batchCols.find? fun c => !df.has c) = none := by
    rw [List.find?_eq_none]
    intro c hcc
    simp [has_iff.mpr (hc c hcc)]
  rw [h1]
  have h2 : ¬ (df.rows.any fun r => !(r "analysis_batch").isNull && (refFlag (r "reference_good")).isNone)
      = true := by
    simp only [List.any_eq_true, Bool.and_eq_true, not_exists, not_and]
    intro r hr _
    obtain ⟨b, h3⟩ := Option.isSome_iff_exists.mp (hb r hr)
    rw [h3]
    simp
  simp only
  rw [if_neg h2]
  have h3 : ((df.rows.map fun r => r "analysis_batch").filter fun v => !v.isNull)
      = df.rows.map fun r => r "analysis_batch" := by
    rw [List.filter_eq_self]
    intro v hv
    obtain ⟨r, hr, rfl⟩ := List.mem_map.mp hv
    rw [label_notNull (hl r hr)]; rfl
  rw [h3]
  obtain ⟨d1, d2⟩ := distinctLabels_spec (df.rows.map fun r => r "analysis_batch") (by
    intro v hv
    obtain ⟨r, hr, rfl⟩ := List.mem_map.mp hv
    exact hl r hr)
  refine ⟨_, rfl, (ho _).nodup_iff.mpr d1, fun b => ?_⟩
  rw [(ho _).mem_iff, d2, List.mem_map]

theorem batchLabels_eq {order : List Val → List Val} (ho : ∀ l, (order l).Perm l) {df : DF}
    (hc : ∀ c ∈ batchCols, c ∈ df.cols) (hb : BoolFlags df) (hl : Labelled df) :
    ∃ bs, batchLabels order df = .ok bs ∧ bs.Nodup ∧
      ∀ b, b ∈ bs ↔ ∃ r ∈ df.rows, r "analysis_batch" = b :=
  batchLabels_flags ho hc (fun r hr => by
    obtain ⟨b, h⟩ := hb (hc _ (by decide)) r hr
    rw [h]; rfl) hl

/-! ## C104 -/

/-- **C104**: without batches, every row is drawn once: with the good data if it is flagged as good (or
if there are no flags), else with the bad data, if these are shown at all. -/
theorem C104_points (order : List Val → List Val) (df : DF) (xvar : Option String)
    (x : ℕ → Row → Flt) (hx : XOf df xvar x) (hb : BoolFlags df) (here : Row → Flt)
    (hh : "titrant_molinity_here" ∈ df.cols)
    (hy : ∀ r ∈ df.rows, cellNum (r "titrant_molinity_here") = .ok (here r)) (show_bad : Bool) :
    plot_titrant_molinity order df xvar show_bad false = .ok { artists :=
      [.points (some "Good data") true (atRows df x here (GoodRow df))] ++
        if show_bad then [.points (some "Bad data") false (atRows df x here fun r => ¬ GoodRow df r)]
        else [] } := by
  unfold plot_titrant_molinity
  rw [xData_eq hx, bind_ok, goodFlags_eq hb, bind_ok, nums_eq hh hy, bind_ok]
  simp only [batchLines, bind_ok, goodScatters_eq, List.append_nil]
  rfl

/-- the columns of a calibrated data set -/
theorem calibrated_cols {w : World} {kw : Dict Val} {df df' : DF}
    (h : dataset_calibrate w kw df = (.ok (), df')) :
    (∀ c ∈ batchCols, c ∈ df'.cols) ∧ "titrant_molinity" ∈ df'.cols ∧ "alkalinity_offset" ∈ df'.cols := by
  obtain ⟨hS, hmv, hc, rows, hrows, _, hsol⟩ := dataset_calibrate_ok_iff.mp h
  obtain ⟨_, _, _, hm, hcols, _⟩ := dataset_solve_ok_iff.mp hsol
  have key : ∀ c, c ∈ (withDefaults ⟨hereCols df.cols, rows⟩).cols →
      c ∈ (withMolinity (withDefaults ⟨hereCols df.cols, rows⟩)).cols := by
    intro c hc
    unfold withMolinity DF.setCol
    exact mem_addCol.mpr (.inl hc)
  have hdef : ∀ c ∈ batchCols, c ∈ (withDefaults ⟨hereCols df.cols, rows⟩).cols := by
    intro c hc
    rw [mem_withDefaults]
    simp only [batchCols, List.mem_cons, List.not_mem_nil, or_false] at hc
    rcases hc with rfl | rfl | rfl
    · exact .inr (.inl rfl)
    · exact .inl (mem_addCol.mpr (.inr rfl))
    · exact .inr (.inr rfl)
  have hcert : "alkalinity_certified" ∈ (withDefaults ⟨hereCols df.cols, rows⟩).cols := by
    rw [mem_withDefaults]
    exact .inl (mem_addCol.mpr (.inl (mem_prepCols.mpr (.inl hc))))
  rw [hcols]
  refine ⟨fun c hc => mem_doneCols.mpr (.inl (key c (hdef c hc))), mem_doneCols.mpr (.inl hm), ?_⟩
  exact mem_doneCols.mpr (.inr (.inr (.inr (.inr (.inr (.inr ⟨key _ hcert, rfl⟩))))))

/-- the rows of a calibrated data set -/
theorem calibrated_row {w : World} {kw : Dict Val} {df df' : DF}
    (h : dataset_calibrate w kw df = (.ok (), df')) :
    ∀ r' ∈ df'.rows, ∃ r ∈ df.rows, ∃ x s, CalRow w kw df.cols r r' x s := by
  intro r' hr'
  have := calibrate_rows h
  obtain ⟨i, hi, rfl⟩ := List.getElem_of_mem hr'
  have hl := this.length_eq
  refine ⟨df.rows[i], List.getElem_mem _, ?_⟩
  exact (List.forall₂_iff_get.mp this).2 i (by omega) hi

theorem calibrated_flags {w : World} {kw : Dict Val} {df df' : DF}
    (h : dataset_calibrate w kw df = (.ok (), df')) (hb : BoolFlags df) : BoolFlags df' := by
  intro _ r' hr'
  obtain ⟨r, hr, x, s, hcr⟩ := calibrated_row h r' hr'
  by_cases hc : "reference_good" ∈ df.cols
  · obtain ⟨b, hb⟩ := hb hc r hr
    exact ⟨b, by rw [hcr.flag, if_pos hc, hb]⟩
  · exact ⟨_, by rw [hcr.flag, if_neg hc]⟩

theorem cellNum_num (x : Flt) : cellNum (.num x) = .ok x := by
  unfold cellNum
  cases x <;> rfl

theorem good_eq {df : DF} (h : "reference_good" ∈ df.cols) :
    GoodRow df = fun r : Row => r "reference_good" = .bool true := by
  funext r
  simp only [GoodRow, h, forall_const]

theorem atRows_congr {df : DF} {x : ℕ → Row → Flt} {y : Row → Flt} {P Q : Row → Prop}
    (h : ∀ r ∈ df.rows, P r ↔ Q r) : atRows df x y P = atRows df x y Q := by
  unfold atRows
  congr 1
  apply List.filter_congr
  intro p hp
  rw [decide_eq_decide]
  exact h p.1 (List.fst_mem_of_mem_zipIdx hp)

theorem bad_eq {df : DF} {x : ℕ → Row → Flt} {y : Row → Flt} (hb : BoolFlags df)
    (h : "reference_good" ∈ df.cols) : atRows df x y (fun r => ¬ GoodRow df r)
      = atRows df x y fun r => r "reference_good" = .bool false := by
  apply atRows_congr
  intro r hr
  obtain ⟨b, hbb⟩ := hb h r hr
  rw [good_eq h]
  simp only [hbb]
  cases b <;> simp

open Classical in
/-- **C104**: the plot of a calibrated data set shows each row once, as C104_points says, and for each
batch one line through the places of its rows. That line is level: its height is the mean of the good
molinities of the batch, those drawn as good data that are not NaN. -/
theorem C104_calibrated (order : List Val → List Val) (ho : ∀ l, (order l).Perm l) (w : World)
    (kw : Dict Val) (df df' : DF) (h : dataset_calibrate w kw df = (.ok (), df')) (hb : BoolFlags df)
    (hl : Labelled df') (xvar : Option String) (x : ℕ → Row → Flt) (hx : XOf df' xvar x)
    (show_bad : Bool) :
    ∃ (here : Row → Flt) (bs : List Val),
      (∀ r ∈ df'.rows, r "titrant_molinity_here" = .num (here r)) ∧
      bs.Nodup ∧ (∀ b, b ∈ bs ↔ ∃ r ∈ df'.rows, r "analysis_batch" = b) ∧
      plot_titrant_molinity order df' xvar show_bad true = .ok { artists :=
        [.points (some "Good data") true
          (atRows df' x here fun r => r "reference_good" = .bool true)] ++
        (if show_bad then [.points (some "Bad data") false
          (atRows df' x here fun r => r "reference_good" = .bool false)] else []) ++
        (bs.map fun b => .line none
          (atRows df' x (fun _ => npMean (goodHere df'.rows b)) fun r => r "analysis_batch" = b)) } := by
  obtain ⟨c1, c2, -⟩ := calibrated_cols h
  have hb' := calibrated_flags h hb
  have hh : ∀ r ∈ df'.rows, ∃ y, r "titrant_molinity_here" = .num y := by
    intro r hr
    obtain ⟨_, _, y, _, hcr⟩ := calibrated_row h r hr
    exact ⟨y, hcr.here'⟩
  obtain ⟨bs, b1, b2, b3⟩ := batchLabels_eq ho c1 hb' hl
  have : ∃ here : Row → Flt, ∀ r ∈ df'.rows, r "titrant_molinity_here" = .num (here r) := by
    refine ⟨fun r => match r "titrant_molinity_here" with | .num y => y | _ => nan, fun r hr => ?_⟩
    obtain ⟨y, hy⟩ := hh r hr
    simp only [hy]
  obtain ⟨here, hhere⟩ := this
  have e1 := good_eq (c1 "reference_good" (by decide))
  have e2 := bad_eq (x := x) (y := here) hb' (c1 "reference_good" (by decide))
  refine ⟨here, bs, hhere, b2, b3, ?_⟩
  unfold plot_titrant_molinity
  rw [xData_eq hx, bind_ok, goodFlags_eq hb', bind_ok,
    nums_eq (c1 _ (by decide)) (y := here) (fun r hr => by rw [hhere r hr, cellNum_num]), bind_ok]
  have hmol := C43_batch_mean w kw df df' h hl
  simp only [batchLines, b1, bind_ok]
  rw [nums_eq c2 (y := fun r => npMean (goodHere df'.rows (r "analysis_batch")))
    (fun r hr => by rw [hmol r hr, cellNum_num])]
  simp only [bind_ok, pure_ok, goodScatters_eq, e2]
  rw [e1]
  congr 3
  apply List.map_congr_left
  intro b hbb
  obtain ⟨r0, hr0, hr0'⟩ := (b3 b).mp hbb
  have hlb : Label b := hr0' ▸ hl r0 hr0
  congr 1
  unfold inBatch
  rw [zip_rows (P := fun r => r "analysis_batch" = b) (fun r hr => sameLabel_iff (hl r hr) hlb)]
  unfold atRows
  apply List.map_congr_left
  intro p hp
  have := (List.mem_filter.mp hp).2
  rw [decide_eq_true_iff] at this
  simp only [this]

/-! ## C105 -/

/-- **C105**: without batches, the differences from the certified values are drawn in the same way, with
a line at zero. -/
theorem C105_points (order : List Val → List Val) (df : DF) (xvar : Option String)
    (x : ℕ → Row → Flt) (hx : XOf df xvar x) (hb : BoolFlags df) (off : Row → Flt)
    (hh : "alkalinity_offset" ∈ df.cols)
    (hy : ∀ r ∈ df.rows, cellNum (r "alkalinity_offset") = .ok (off r)) (show_bad : Bool) :
    plot_alkalinity_offset order df xvar show_bad false = .ok ({ artists :=
      [.points (some "Good data") true (atRows df x off (GoodRow df))] ++
        (if show_bad then [.points (some "Bad data") false (atRows df x off fun r => ¬ GoodRow df r)]
        else []) ++ [.hline (fin 0)] }, none) := by
  unfold plot_alkalinity_offset
  rw [xData_eq hx, bind_ok, goodFlags_eq hb, bind_ok]
  simp only [batchColours, bind_ok]
  rw [nums_eq hh hy]
  simp only [bind_ok, goodScatters_eq]
  rfl

open Classical in
/-- **C105**: the plot of a calibrated data set shows, for each row, how far the alkalinity is from the
certified value. The colour of each of the good data is the number of its batch: two have the same colour
just if they are from the same batch. -/
theorem C105_calibrated (order : List Val → List Val) (ho : ∀ l, (order l).Perm l) (w : World)
    (kw : Dict Val) (df df' : DF) (h : dataset_calibrate w kw df = (.ok (), df')) (hb : BoolFlags df)
    (hl : Labelled df') (xvar : Option String) (x : ℕ → Row → Flt) (hx : XOf df' xvar x)
    (show_bad : Bool) :
    ∃ (off : Row → Flt) (colour : Row → ℤ),
      (∀ r ∈ df'.rows, ∃ a c, cellNum (r "alkalinity") = .ok a ∧
        cellNum (r "alkalinity_certified") = .ok c ∧ off r = a - c) ∧
      (∀ r ∈ df'.rows, ∀ s ∈ df'.rows,
        colour r = colour s ↔ r "analysis_batch" = s "analysis_batch") ∧
      plot_alkalinity_offset order df' xvar show_bad true = .ok ({ artists :=
        [.points (some "Good data") true
          (atRows df' x off fun r => r "reference_good" = .bool true)] ++
        (if show_bad then [.points (some "Bad data") false
          (atRows df' x off fun r => r "reference_good" = .bool false)] else []) ++
        [.hline (fin 0)] },
        some ((df'.rows.filter fun r => decide (r "reference_good" = .bool true)).map colour)) := by
  obtain ⟨c1, -, c2⟩ := calibrated_cols h
  have hb' := calibrated_flags h hb
  have hrg := c1 "reference_good" (by decide)
  have hh : ∀ r ∈ df'.rows, ∃ a c, cellNum (r "alkalinity") = .ok a ∧
        cellNum (r "alkalinity_certified") = .ok c ∧ r "alkalinity_offset" = .num (a - c) := by
    intro r hr
    obtain ⟨r0, _, y, _, hcr⟩ := calibrated_row h r hr
    obtain ⟨a, c, h1, h2, h3⟩ := hcr.offset
    refine ⟨a, c, h1, ?_, h3⟩
    rw [hcr.keep _ (by decide) (by decide) (by decide), prepRow_other (by decide), h2]
  obtain ⟨bs, b1, b2, b3⟩ := batchLabels_eq ho c1 hb' hl
  have : ∃ off : Row → Flt, ∀ r ∈ df'.rows, r "alkalinity_offset" = .num (off r) := by
    refine ⟨fun r => match r "alkalinity_offset" with | .num y => y | _ => nan, fun r hr => ?_⟩
    obtain ⟨_, _, _, _, hy⟩ := hh r hr
    simp only [hy]
  obtain ⟨off, hoff⟩ := this
  have e1 := good_eq hrg
  have e2 := bad_eq (x := x) (y := off) hb' hrg
  have hidx : ∀ r ∈ df'.rows, ∃ i, (bs.findIdx? fun b => (r "analysis_batch").sameLabel b) = some i ∧
      bs[i]? = some (r "analysis_batch") := by
    intro r hr
    have hmem := (b3 _).mpr ⟨r, hr, rfl⟩
    cases hf : bs.findIdx? fun b => (r "analysis_batch").sameLabel b with
    | none =>
      rw [List.findIdx?_eq_none_iff] at hf
      have := hf _ hmem
      rw [sameLabel_self (hl r hr)] at this
      cases this
    | some i =>
      rw [List.findIdx?_eq_some_iff_getElem] at hf
      obtain ⟨hi, hs, -⟩ := hf
      obtain ⟨r1, hr1, hr1'⟩ := (b3 _).mp (List.getElem_mem hi)
      refine ⟨i, rfl, ?_⟩
      rw [List.getElem?_eq_getElem hi,
        (sameLabel_iff (hl r hr) (hr1' ▸ hl r1 hr1)).mp hs]
  refine ⟨off, fun r => match bs.findIdx? fun b => (r "analysis_batch").sameLabel b with
    | some i => (i : ℤ)
    | none => -1, ?_, ?_, ?_⟩
  · intro r hr
    obtain ⟨a, c, h1, h2, h3⟩ := hh r hr
    rw [hoff r hr] at h3
    exact ⟨a, c, h1, h2, Val.num.inj h3⟩
  · intro r hr s hs
    obtain ⟨i, hi, hi'⟩ := hidx r hr
    obtain ⟨j, hj, hj'⟩ := hidx s hs
    simp only [hi, hj, Nat.cast_inj]
    constructor
    · rintro rfl
      rw [hi'] at hj'
      exact Option.some.inj hj'
    · intro he
      rw [he, ← hj'] at hi'
      exact (List.getElem?_inj (List.getElem?_eq_some_iff.mp (hi'.trans hj')).1 b2).mp hi'
  · unfold plot_alkalinity_offset
    rw [xData_eq hx, bind_ok, goodFlags_eq hb', bind_ok]
    simp only [batchColours, b1, bind_ok, pure_ok]
    rw [nums_eq c2 (y := off) (fun r hr => by rw [hoff r hr, cellNum_num])]
    simp only [bind_ok, goodScatters_eq, e2]
    unfold batchNumbers
    rw [mask_of_list]
    simp only [e1]
    rfl

/-- **C105**: with `show_batches`, which is the default, the plot needs the columns that `calibrate` makes,
although nothing that it draws is in them: otherwise it raises `KeyError`. -/
theorem C105_needs_calibrate (order : List Val → List Val) (df : DF) (xvar : Option String)
    (x : ℕ → Row → Flt) (hx : XOf df xvar x) (hb : BoolFlags df) (show_bad : Bool)
    (hno : ∃ c ∈ ["analysis_batch", "titrant_molinity_here", "reference_good"], c ∉ df.cols) :
    ∃ c, c ∉ df.cols ∧ plot_alkalinity_offset order df xvar show_bad true = .error (.KeyError c) := by
  obtain ⟨c0, hc0, hc0'⟩ := hno
  unfold plot_alkalinity_offset
  rw [xData_eq hx, bind_ok, goodFlags_eq hb, bind_ok]
  cases hf : batchCols.find? fun c => !df.has c with
  | none =>
    rw [List.find?_eq_none] at hf
    have := hf c0 hc0
    rw [Bool.not_eq_true, Bool.not_eq_false', has_iff] at this
    exact absurd this hc0'
  | some c =>
    have h1 := List.find?_some hf
    refine ⟨c, fun hc => ?_, ?_⟩
    · rw [has_iff.mpr hc] at h1
      cases h1
    · simp only [batchColours, batchLabels, hf, bind_error]

/-- **C105**: so after `solve` alone, for references of known molinity, the plot cannot be made with the
defaults, but without batches it can. -/
theorem C105_solved (order : List Val → List Val) (w : World) (kw : Dict Val) (df df' : DF)
    (h : dataset_solve w kw df = (.ok (), df')) (hb : BoolFlags df)
    (hcert : "alkalinity_certified" ∈ df.cols) (hno : "titrant_molinity_here" ∉ df.cols) :
    (∃ c, plot_alkalinity_offset order df' = .error (.KeyError c)) ∧
    ∃ off : Row → Flt,
      (∀ r ∈ df'.rows, ∃ a c, cellNum (r "alkalinity") = .ok a ∧
        cellNum (r "alkalinity_certified") = .ok c ∧ off r = a - c) ∧
      plot_alkalinity_offset order df' (show_batches := false) = .ok ({ artists :=
        [.points (some "Good data") true (atRows df' (fun i _ => fin (i : ℕ)) off (GoodRow df')),
          .points (some "Bad data") false
            (atRows df' (fun i _ => fin (i : ℕ)) off fun r => ¬ GoodRow df' r),
          .hline (fin 0)] }, none) := by
  obtain ⟨-, -, -, -, hcols, hrows⟩ := dataset_solve_ok_iff.mp h
  have hrow : ∀ r' ∈ df'.rows, ∃ r ∈ df.rows, solvedRow w kw df.cols r = .ok r' := by
    intro r' hr'
    obtain ⟨i, hi, rfl⟩ := List.getElem_of_mem hr'
    have hl := hrows.length_eq
    exact ⟨df.rows[i], List.getElem_mem _, (List.forall₂_iff_get.mp hrows).2 i (by omega) hi⟩
  have hb' : BoolFlags df' := by
    intro hc r' hr'
    obtain ⟨r, hr, hs⟩ := hrow r' hr'
    have hin : "reference_good" ∈ df.cols := by
      rw [hcols, mem_doneCols] at hc
      rcases hc with hc | hc | hc | hc | hc | hc | hc
      · exact hc
      · exact absurd hc (by decide)
      · exact absurd hc (by decide)
      · exact absurd hc (by decide)
      · exact absurd hc (by decide)
      · exact absurd hc (by decide)
      · exact absurd hc.2 (by decide)
    obtain ⟨b, hbb⟩ := hb hin r hr
    exact ⟨b, by rw [solvedRow_keeps hs _ (.inl (by decide)) (by decide), prepRow_other (by decide), hbb]⟩
  have hx : XOf df' none (fun i _ => fin (i : ℕ)) := .inl ⟨rfl, fun _ _ => rfl⟩
  refine ⟨?_, ?_⟩
  · obtain ⟨c, -, hc⟩ := C105_needs_calibrate order df' none _ hx hb' true ⟨"titrant_molinity_here", by decide, by
      rw [hcols, mem_doneCols]
      rintro (hc | hc | hc | hc | hc | hc | hc)
      · exact hno hc
      · exact absurd hc (by decide)
      · exact absurd hc (by decide)
      · exact absurd hc (by decide)
      · exact absurd hc (by decide)
      · exact absurd hc (by decide)
      · exact absurd hc.2 (by decide)⟩
    exact ⟨c, hc⟩
  · have hh : ∀ r ∈ df'.rows, ∃ a c, cellNum (r "alkalinity") = .ok a ∧
        cellNum (r "alkalinity_certified") = .ok c ∧ r "alkalinity_offset" = .num (a - c) := by
      intro r' hr'
      obtain ⟨r, hr, hs⟩ := hrow r' hr'
      unfold solvedRow at hs
      obtain ⟨m, hm, hs⟩ := bind_ok_iff.mp hs
      unfold offsetRow at hs
      rw [if_pos hcert] at hs
      simp only [bind_ok_iff, pure_ok, Except.ok.injEq] at hs
      obtain ⟨a, ha, c, hc, rfl⟩ := hs
      exact ⟨a, c, by rw [put_ne _ _ (by decide)]; exact ha, by rw [put_ne _ _ (by decide)]; exact hc,
        put_eq _ _ _⟩
    have : ∃ off : Row → Flt, ∀ r ∈ df'.rows, r "alkalinity_offset" = .num (off r) := by
      refine ⟨fun r => match r "alkalinity_offset" with | .num y => y | _ => nan, fun r hr => ?_⟩
      obtain ⟨_, _, _, _, hy⟩ := hh r hr
      simp only [hy]
    obtain ⟨off, hoff⟩ := this
    refine ⟨off, fun r hr => ?_, ?_⟩
    · obtain ⟨a, c, h1, h2, h3⟩ := hh r hr
      rw [hoff r hr] at h3
      exact ⟨a, c, h1, h2, Val.num.inj h3⟩
    · rw [C105_points order df' none _ hx hb' off (by
          rw [hcols]; exact mem_doneCols.mpr (.inr (.inr (.inr (.inr (.inr (.inr ⟨hcert, rfl⟩)))))))
        (fun r hr => by rw [hoff r hr, cellNum_num])]
      simp

/-! ## Concrete cases -/

theorem atRows_one {cols : List String} {r : Row} {x : ℕ → Row → Flt} {y : Row → Flt} {P : Row → Prop} :
    (P r → atRows ⟨cols, [r]⟩ x y P = [(x 0 r, y r)]) ∧ (¬ P r → atRows ⟨cols, [r]⟩ x y P = []) := by
  constructor <;> intro h <;> simp [atRows, h]

/-- C104 and C105 apply: a calibrated data set of one reference -/
example : ∃ df', dataset_calibrate gWorld [] (gFrame true) = (.ok (), df') ∧
    plot_titrant_molinity id df' = .ok { artists := [
      .points (some "Good data") true [(fin (0 : ℕ), fin 0.1)], .points (some "Bad data") false [],
      .line none [(fin (0 : ℕ), fin 0.1)]] } ∧
    ∃ c, plot_alkalinity_offset id df' = .ok ({ artists := [
      .points (some "Good data") true [(fin (0 : ℕ), fin 0)], .points (some "Bad data") false [],
      .hline (fin 0)] }, some [c]) := by
  obtain ⟨df0, r0, h0, hr0, h1, h2, h3, -⟩ := g_finishes true
  obtain ⟨df', r', h, hr, -, ha, -⟩ := g_calibrated
  rw [h] at h0
  obtain rfl : df' = df0 := (Prod.mk.inj h0).2
  rw [hr] at hr0
  obtain rfl : r' = r0 := (List.cons.inj hr0).1
  simp only [if_true] at h1
  have hl : Labelled df' := by
    intro r hrr
    rw [hr] at hrr
    rw [List.mem_singleton.mp hrr, h2]
    exact .inr ⟨_, rfl, by simp⟩
  have hb : BoolFlags (gFrame true) := fun hc => absurd hc (show "reference_good" ∉ gCols by decide)
  have hx : XOf df' none (fun i _ => fin (i : ℕ)) := .inl ⟨rfl, fun _ _ => rfl⟩
  have hm : r' ∈ df'.rows := by rw [hr]; simp
  obtain ⟨here, bs, p1, p2, p3, p4⟩ := C104_calibrated id (fun _ => .refl _) gWorld [] _ df' h hb hl none
    _ hx true
  obtain ⟨off, colour, q1, -, q3⟩ := C105_calibrated id (fun _ => .refl _) gWorld [] _ df' h hb hl none
    _ hx true
  obtain ⟨cols, rows⟩ := df'
  simp only at hr
  subst hr
  have hbs : bs = [.num (fin 0)] := by
    have hmem : ∀ b, b ∈ bs ↔ b = .num (fin 0) := by
      intro b
      rw [p3 b]
      simp only [List.mem_singleton, exists_eq_left, h2]
      exact eq_comm
    rcases bs with _ | ⟨b, _ | ⟨b', bs⟩⟩
    · exact absurd ((hmem (.num (fin 0))).mpr rfl) (by simp)
    · rw [(hmem b).mp (by simp)]
    · have e1 := (hmem b).mp (by simp)
      have e2 := (hmem b').mp (by simp)
      subst e1 e2
      simp at p2
  have hhere := p1 r' hm
  rw [h1] at hhere
  have hhere := (Val.num.inj hhere).symm
  obtain ⟨a, c, k1, k2, k3⟩ := q1 r' hm
  rw [ha] at k1
  obtain ⟨r1, -, _, _, hcr⟩ := calibrated_row h r' hm
  have hgood := g_good r' h1 h2 h3
  rw [h2] at hgood
  have hoff : off r' = fin 0 := by
    obtain ⟨df2, r2, h', hr2, -, -, hz⟩ := g_calibrated
    rw [h] at h'
    obtain rfl : _ = df2 := (Prod.mk.inj h').2
    obtain rfl : r' = r2 := (List.cons.inj hr2).1
    obtain ⟨a', c', o1, o2, o3⟩ := hcr.offset
    rw [ha] at o1
    rw [k1] at o1
    have hc' := hcr.keep "alkalinity_certified" (by decide) (by decide) (by decide)
    rw [prepRow_other (by decide)] at hc'
    rw [hc', o2] at k2
    rw [hz] at o3
    rw [k3, Except.ok.inj o1, ← Except.ok.inj k2]
    exact (Val.num.inj o3).symm
  refine ⟨_, h, ?_, colour r', ?_⟩
  · rw [p4, hbs]
    simp only [List.map_cons, List.map_nil, hgood]
    rw [atRows_one.1 h3, (atRows_one (P := fun r : Row => r "reference_good" = .bool false)).2 (by
      rw [h3]; simp), atRows_one.1 h2, hhere]
    simp [npMean_one]
  · rw [q3, atRows_one.1 h3, atRows_one.2 (by rw [h3]; simp), hoff]
    simp [h3]

/-- the reference, with a known molinity -/
noncomputable def kFrame : DF := (gFrame true).setCol "titrant_molinity" fun _ => .num (fin 0.1)

/-- C105_solved applies: solved without calibration -/
example : ∃ df', dataset_solve gWorld [] kFrame = (.ok (), df') ∧
    (∃ c, plot_alkalinity_offset id df' = .error (.KeyError c)) ∧
    ∃ fig, plot_alkalinity_offset id df' (show_batches := false) = .ok (fig, none) := by
  have hcols : kFrame.cols = gCols ++ ["titrant_molinity"] := by decide
  obtain ⟨df', h⟩ := C41_finishes gWorld [] kFrame g_ignored (by rw [hcols]; decide)
    (.inl (by rw [hcols]; decide)) (by rw [hcols]; decide) (by rw [hcols]; decide) (by
      intro _ r hr
      rw [List.mem_singleton.mp hr]
      exact .inr ⟨fin gAlk, rfl⟩)
  obtain ⟨h1, off, -, h2⟩ := C105_solved id gWorld [] kFrame df' h
    (fun hc => absurd hc (by rw [hcols]; decide)) (by rw [hcols]; decide) (by rw [hcols]; decide)
  exact ⟨df', h, h1, _, h2⟩

/-- C104_points and C105_points apply: three rows, one of them bad, placed by a column -/
example : ∃ df : DF, ∃ x : ℕ → Row → Flt, df.rows.length = 3 ∧ XOf df (some "hour") x ∧ BoolFlags df ∧
    plot_titrant_molinity id df (some "hour") true false = .ok { artists := [
      .points (some "Good data") true [(fin 3, fin 1), (fin 1, fin 2)],
      .points (some "Bad data") false [(fin 2, nan)]] } := by
  let row : ℝ → Bool → Flt → Row := fun h b y c =>
    if c = "hour" then .num (fin h) else if c = "reference_good" then .bool b else .num y
  let df : DF := ⟨["hour", "reference_good", "titrant_molinity_here"],
    [row 3 true (fin 1), row 2 false nan, row 1 true (fin 2)]⟩
  let x : ℕ → Row → Flt := fun _ r => match r "hour" with | .num y => y | _ => nan
  let here : Row → Flt := fun r => match r "titrant_molinity_here" with | .num y => y | _ => nan
  have hrow : ∀ r ∈ df.rows, ∃ h b y, r = row h b y := by
    intro r hr
    simp only [df, List.mem_cons, List.not_mem_nil, or_false] at hr
    rcases hr with rfl | rfl | rfl <;> exact ⟨_, _, _, rfl⟩
  have hx : XOf df (some "hour") x := by
    refine .inr ⟨"hour", rfl, by simp [df], fun i r hr => ?_⟩
    obtain ⟨h, b, y, rfl⟩ := hrow r hr
    rfl
  have hb : BoolFlags df := by
    intro _ r hr
    obtain ⟨h, b, y, rfl⟩ := hrow r hr
    exact ⟨b, rfl⟩
  refine ⟨df, x, rfl, hx, hb, ?_⟩
  rw [C104_points id df (some "hour") x hx hb here (by simp [df]) (by
    intro r hr
    obtain ⟨h, b, y, rfl⟩ := hrow r hr
    exact cellNum_num y)]
  have e : ∀ h b y, GoodRow df (row h b y) ↔ b = true := by
    intro h b y
    simp [GoodRow, df, row]
  simp [atRows, df, e, x, here, row]

end Calk
