import Verif.Props.DatasetResults
import Verif.Props.CalibrateCases
import Verif.Props.Backcompat
import Verif.Lemmas.ByName
import Verif.Lemmas.Classes

/-!
# Properties C96, C97: what is solved and calibrated for a row, from what the user gave
-/

namespace Calk
open Flt

/-- the value in the row's own cell, if there is one -/
def ownCell (cols : List String) (r : Row) (k : String) : Option Val :=
  if k ∈ cols ∧ (r k).isNull = false then some (r k) else none

/-- PyCO2SYS's value of a salt for the row, if it is a number -/
noncomputable def saltOf (w : World) (cols : List String) (r : Row) (k : String) : Option Val :=
  let x := w.sysSalts (r "salinity") ((ownCell cols r "opt_total_borate").getD (.num (fin 1))) k
  if x.isNaN then none else some (.num x)

/-- what the package supplies for a setting that the row does not have -/
noncomputable def supplied (w : World) (cols : List String) (r : Row) (k : String) : Option Val :=
  if k = "titrant_amount_unit" then if k ∈ cols then some (.str "ml") else none
  else if k = "opt_total_borate" then some (.num (fin 1))
  else if k ∈ ["total_sulfate", "total_borate", "total_fluoride"] then saltOf w cols r k
  else none

/-- the value of a setting for a row: its own cell; else what the package supplies; else the keyword
argument of the call -/
noncomputable def setting (w : World) (kw : Dict Val) (cols : List String) (r : Row) (k : String) :
    Option Val :=
  ((ownCell cols r k).or (supplied w cols r k)).or (kw.get? k)

theorem prep_setting {keys : List String} (hkeys : "file_good" ∉ keys) (w : World) (kwb : Dict Val)
    (cols : List String) (r : Row) (k : String) :
    (get_kwargs_for keys kwb (some (rowDict (prepCols cols) (prepRow w cols r)))).get? k
      = if k ∈ keys then setting w kwb cols r k else none := by
  rw [C31_value]
  by_cases hk : k ∈ keys
  swap
  · rw [if_neg hk, if_neg hk]
  rw [if_pos hk, if_pos hk]
  have hfg : k ≠ "file_good" := by rintro rfl; exact hkeys hk
  unfold chosen setting
  rw [rowDict_get?]
  by_cases h1 : k = "analyte_mass"
  · subst h1
    have hm : "analyte_mass" ∈ prepCols cols := mem_prepCols.mpr (by simp)
    have hs : supplied w cols r "analyte_mass" = none := by
      unfold supplied; rw [if_neg (by decide), if_neg (by decide), if_neg (by decide)]
    rw [if_pos hm, hs]
    unfold ownCell prepRow
    by_cases hc : "analyte_mass" ∈ cols
    · cases hn : (r "analyte_mass").isNull <;> simp [hc, hn]
    · simp [hc, Val.isNull, Flt.isNaN]
  by_cases h2 : k = "titrant_amount_unit"
  · subst h2
    unfold ownCell supplied prepRow
    by_cases hc : "titrant_amount_unit" ∈ cols
    · have hm : "titrant_amount_unit" ∈ prepCols cols := mem_prepCols.mpr (.inl hc)
      have hml : (Val.str "ml").isNull = false := rfl
      cases hn : (r "titrant_amount_unit").isNull <;> simp [hc, hm, hn, hml]
    · have hm : "titrant_amount_unit" ∉ prepCols cols := by
        rw [mem_prepCols]; simp [hc, salts]
      simp [hc, hm]
  have hborate : prepBorate cols r = (ownCell cols r "opt_total_borate").getD (.num (fin 1)) := by
    unfold prepBorate ownCell
    split <;> rfl
  by_cases h3 : k = "opt_total_borate"
  · subst h3
    have hm : "opt_total_borate" ∈ prepCols cols := mem_prepCols.mpr (by simp)
    have hs : supplied w cols r "opt_total_borate" = some (.num (fin 1)) := by
      unfold supplied; rw [if_neg (by decide), if_pos rfl]
    have hp : prepRow w cols r "opt_total_borate" = prepBorate cols r := by
      simp [prepRow, saltRow]
    rw [if_pos hm, hp, hs]
    unfold prepBorate ownCell
    have h1' : (Val.num (fin 1)).isNull = false := rfl
    by_cases hc : "opt_total_borate" ∈ cols ∧ (r "opt_total_borate").isNull = false
    · simp [hc]
    · simp [hc, h1']
  by_cases h4 : k ∈ ["total_sulfate", "total_borate", "total_fluoride"]
  · have hm : k ∈ prepCols cols := mem_prepCols.mpr (.inr (.inr (.inl h4)))
    have hp : prepRow w cols r k = if k ∈ cols ∧ (r k).isNull = false then r k
        else .num (w.sysSalts (r "salinity") (prepBorate cols r) k) := by
      unfold prepRow saltRow
      rw [if_neg h1, if_neg h2, if_neg hfg, if_neg h3, if_pos (show k ∈ salts from h4)]
    have hs : supplied w cols r k = saltOf w cols r k := by
      unfold supplied; rw [if_neg h2, if_neg h3, if_pos h4]
    rw [if_pos hm, hp, hs]
    unfold saltOf
    rw [hborate]
    generalize w.sysSalts (r "salinity") ((ownCell cols r "opt_total_borate").getD (.num (fin 1))) k = x
    by_cases hc : k ∈ cols ∧ (r k).isNull = false
    · simp [ownCell, hc]
    · have hN : (Val.num x).isNull = x.isNaN := rfl
      rw [if_neg hc]
      simp only [ownCell, if_neg hc, hN]
      cases hx : x.isNaN <;> rfl
  · have hm : k ∈ prepCols cols ↔ k ∈ cols := by
      rw [mem_prepCols]
      constructor
      · rintro (h | h | h | h | h)
        · exact h
        · exact absurd h h3
        · exact absurd h h4
        · exact absurd h h1
        · exact absurd h hfg
      · exact .inl
    have hp : prepRow w cols r k = r k := by
      refine prepRow_other ?_
      simp only [List.mem_cons, List.not_mem_nil, or_false, not_or] at h4
      simp [prepFills, h1, h2, h3, hfg, h4]
    have hs : supplied w cols r k = none := by
      unfold supplied; rw [if_neg h2, if_neg h3, if_neg h4]
    rw [hp, hs]
    unfold ownCell
    by_cases hc : k ∈ cols
    · rw [if_pos (hm.mpr hc)]
      cases hn : (r k).isNull <;> simp [hc, hn]
    · rw [if_neg (fun h => hc (hm.mp h))]
      simp [hc]

/-- old-style names are looked up in the row as the user gave it -/
theorem backcompat_prep (w : World) (kw : Dict Val) (cols : List String) (r : Row) :
    backcompat kw (rowDict (prepCols cols) (prepRow w cols r)) = backcompat kw (rowDict cols r) := by
  apply backcompat_row_congr
  rw [rowDict_get?, rowDict_get?, prepRow_other (by decide)]
  have : "read_dat_method" ∈ prepCols cols ↔ "read_dat_method" ∈ cols := by
    rw [mem_prepCols]; simp [salts]
  simp only [this]

theorem solve_row_reports {w : World} {kw : Dict Val} {cols : List String} {p s : Row}
    (hs : solve_row w kw cols p = .ok s) (hact : (!(p "titrant_molinity").isNull && (p "file_good").truthy) = true)
    (sr : SolveRes) (hc : solve_call w kw cols p = .ok sr) :
    s = (add_solve_results sr (blankSolved p)).2 := by
  unfold solve_row at hs
  rw [if_pos hact] at hs
  have : solve_attempt w kw cols p (blankSolved p) = add_solve_results sr (blankSolved p) := by
    unfold solve_attempt
    rw [PyS.lift_bind, hc]
  rw [this] at hs
  rcases hx : add_solve_results sr (blankSolved p) with ⟨_ | _, s'⟩
  · rw [hx] at hs
    simp only [caught] at hs
    split at hs
    · exact (Except.ok.inj hs).symm
    · cases hs
  · rw [hx] at hs
    exact (Except.ok.inj hs).symm

/-- what solving the prepared row (with some titrant molinity) does -/
theorem solve_row_from {w : World} {kw : Dict Val} {cols : List String} {r p s : Row}
    (hp : ∀ c, c ≠ "titrant_molinity" → p c = prepRow w cols r c)
    (hs : solve_row w kw (prepCols cols) p = .ok s) (f : String) (c S : Flt) (kwb : Dict Val)
    (hf : "file_name" ∈ cols) (hfn : r "file_name" = .str f) (hc : p "titrant_molinity" = .num c)
    (hcn : c ≠ nan) (hS : r "salinity" = .num S)
    (hg : "file_good" ∈ cols → Spec.Counts (r "file_good"))
    (hb : backcompat kw (rowDict cols r) = .ok kwb) :
    ∃ st : Dict Val,
      (kw.keys.Nodup → st.keys.Nodup) ∧
      (∀ k, st.get? k = if k ∈ keys_solve then setting w kwb cols r k else none) ∧
      (∀ sr, files_solve w f c S st = .ok sr → Reports s sr) ∧
      (∀ e, files_solve w f c S st = .error e → s = blankSolved p) := by
  refine ⟨_, fun hk => get_kwargs_nodup (backcompat_nodup hk hb) _,
    prep_setting (keys := keys_solve) (by decide) w kwb cols r, ?_⟩
  have e1 : p "file_name" = .str f := by rw [hp _ (by decide), prepRow_other (by decide), hfn]
  have e3 : p "salinity" = .num S := by rw [hp _ (by decide), prepRow_other (by decide), hS]
  have hgood : (p "file_good").truthy = true := by
    rw [hp _ (by decide)]
    unfold prepRow
    rw [if_neg (by decide), if_neg (by decide), if_pos rfl]
    split
    · rename_i h; exact truthy_iff.mpr (hg h)
    · rfl
  have hact : (!(p "titrant_molinity").isNull && (p "file_good").truthy) = true := by
    rw [hgood, hc]
    have : (Val.num c).isNull = false := by cases c <;> first | rfl | exact absurd rfl hcn
    rw [this]; rfl
  have hrow : ∀ k, k ≠ "titrant_molinity" →
      (rowDict (prepCols cols) p).get? k = (rowDict (prepCols cols) (prepRow w cols r)).get? k := by
    intro k hk
    rw [rowDict_get?, rowDict_get?, hp k hk]
  have hcall : solve_call w kw (prepCols cols) p = files_solve w f c S
      (get_kwargs_for keys_solve kwb (some (rowDict (prepCols cols) (prepRow w cols r)))) := by
    have hf' : (prepCols cols).contains "file_name" = true :=
      List.contains_iff_mem.mpr (mem_prepCols.mpr (.inl hf))
    have hb' : backcompat kw (rowDict (prepCols cols) p) = .ok kwb := by
      rw [backcompat_row_congr (hrow _ (by decide)), backcompat_prep, hb]
    have hk' : get_kwargs_for keys_solve kwb (some (rowDict (prepCols cols) p))
        = get_kwargs_for keys_solve kwb (some (rowDict (prepCols cols) (prepRow w cols r))) :=
      get_kwargs_row_congr fun k hk => hrow k (by rintro rfl; revert hk; decide)
    simp only [solve_call, hb', bind_ok, rowAttr, hf', if_true, e1, Val.toStr, hc, Val.toFlt, e3, hk']
  constructor
  · intro sr hsr
    rw [solve_row_reports hs hact sr (hcall.trans hsr)]
    exact add_solve_results_reports sr p
  · intro e he
    exact solve_row_blank hs ⟨e, hcall.trans he⟩

/-- **C96**: what a row of a data set is solved from.  `files.solve` is called with the row's file,
titrant molinity and salinity, and each setting is the row's own cell if that is not blank; else
"ml" for a blank unit, option 1 for borate, PyCO2SYS's value for a salt; else the keyword argument of
the call (after old-style names have been replaced).  The row reports the outcome. -/
theorem C96_solve (w : World) (kw : Dict Val) (df df' : DF)
    (h : dataset_solve w kw df = (.ok (), df')) :
    List.Forall₂ (fun r r' => ∀ (f : String) (c S : Flt) (kwb : Dict Val),
      "file_name" ∈ df.cols → r "file_name" = .str f → r "titrant_molinity" = .num c → c ≠ nan →
      r "salinity" = .num S → ("file_good" ∈ df.cols → Spec.Counts (r "file_good")) →
      backcompat kw (rowDict df.cols r) = .ok kwb →
      ∃ st : Dict Val,
        (kw.keys.Nodup → st.keys.Nodup) ∧
        (∀ k, st.get? k = if k ∈ keys_solve then setting w kwb df.cols r k else none) ∧
        (∀ sr, files_solve w f c S st = .ok sr → Reports r' sr) ∧
        (∀ e, files_solve w f c S st = .error e → Blank r')) df.rows df'.rows := by
  obtain ⟨-, -, -, -, -, h6⟩ := dataset_solve_ok_iff.mp h
  refine h6.imp fun r r' hr f c S kwb hf hfn hc hcn hS hg hb => ?_
  rw [solvedRow, bind_ok_iff] at hr
  obtain ⟨m, hm, ho⟩ := hr
  obtain ⟨s, hs, rfl⟩ := mergedRow_inv hm
  obtain ⟨st, h0, h1, h2, h3⟩ := solve_row_from (fun _ _ => rfl) hs f c S kwb hf hfn
    ((prepRow_other (by decide)).trans hc) hcn hS hg hb
  refine ⟨st, h0, h1, fun sr hsr => ?_, fun e he => blank_offset ho (blank_of_merge (h3 e he))⟩
  refine (h2 sr hsr).congr fun c hc => ?_
  rw [offsetRow_keeps ho c (by revert c; decide)]
  unfold mergeSolved
  rw [if_pos (by revert c; decide)]

/-- **C97**: what a row is calibrated from.  `titrant_molinity_here` is what `files.calibrate` finds
for the row's file, certified alkalinity and salinity with the row's settings, and NaN if that
raises an exception. -/
theorem C97_calibrate (w : World) (kw : Dict Val) (df df' : DF)
    (h : dataset_calibrate w kw df = (.ok (), df')) :
    List.Forall₂ (fun r r' => ∀ (f : String) (cert S : Flt) (kwb : Dict Val),
      "file_name" ∈ df.cols → r "file_name" = .str f → r "alkalinity_certified" = .num cert →
      cert ≠ nan → r "salinity" = .num S → ("file_good" ∈ df.cols → Spec.Counts (r "file_good")) →
      backcompat kw (rowDict df.cols r) = .ok kwb →
      ∃ st : Dict Val,
        (kw.keys.Nodup → st.keys.Nodup) ∧
        (∀ k, st.get? k = if k ∈ keys_calibrate then setting w kwb df.cols r k else none) ∧
        (∀ cal, files_calibrate w f cert S st = .ok cal → r' "titrant_molinity_here" = .num cal.x) ∧
        (∀ e, files_calibrate w f cert S st = .error e → r' "titrant_molinity_here" = .num nan))
      df.rows df'.rows := by
  refine (calibrate_rows h).imp ?_
  rintro r r' ⟨x, s, hcr⟩ f cert S kwb hf hfn hc hcn hS hg hb
  refine ⟨_, fun hk => get_kwargs_nodup (backcompat_nodup hk hb) _,
    prep_setting (keys := keys_calibrate) (by decide) w kwb df.cols r, ?_⟩
  have e1 : prepRow w df.cols r "file_name" = .str f := (prepRow_other (by decide)).trans hfn
  have e2 : prepRow w df.cols r "alkalinity_certified" = .num cert :=
    (prepRow_other (by decide)).trans hc
  have e3 : prepRow w df.cols r "salinity" = .num S := (prepRow_other (by decide)).trans hS
  have hgood : (prepRow w df.cols r "file_good").truthy = true := by
    unfold prepRow
    rw [if_neg (by decide), if_neg (by decide), if_pos rfl]
    split
    · rename_i h; exact truthy_iff.mpr (hg h)
    · rfl
  have hact : (!(prepRow w df.cols r "alkalinity_certified").isNull &&
      (prepRow w df.cols r "file_good").truthy) = true := by
    rw [hgood, e2]
    have : (Val.num cert).isNull = false := by cases cert <;> first | rfl | exact absurd rfl hcn
    rw [this]; rfl
  have hf' : (prepCols df.cols).contains "file_name" = true :=
    List.contains_iff_mem.mpr (mem_prepCols.mpr (.inl hf))
  have hatt : calibrate_attempt w kw (prepCols df.cols) (prepRow w df.cols r) = (do
      let cal ← files_calibrate w f cert S (get_kwargs_for keys_calibrate kwb
        (some (rowDict (prepCols df.cols) (prepRow w df.cols r))))
      return cal.x) := by
    simp only [calibrate_attempt, backcompat_prep, hb, bind_ok, rowAttr, hf', if_true, e1, Val.toStr,
      e2, Val.toFlt, e3]
  have hx := hcr.here
  unfold calibrate_row at hx
  rw [if_pos hact, hatt] at hx
  constructor
  · intro cal hcal
    rw [hcal] at hx
    simp only [bind_ok, pure_ok, Except.ok.injEq] at hx
    rw [hcr.here', ← hx]
  · intro e he
    rw [he] at hx
    simp only [bind_error, caught, hf', if_true, Except.ok.injEq] at hx
    rw [hcr.here', ← hx]

/-- **C97**: after calibration each row is solved with the molinity of its batch and otherwise the
settings that the user gave, as by `dataset.solve`; the offset is the difference to the certified
value. -/
theorem C97_solve (w : World) (kw : Dict Val) (df df' : DF)
    (h : dataset_calibrate w kw df = (.ok (), df')) :
    List.Forall₂ (fun r r' => ∀ (f : String) (c S : Flt) (kwb : Dict Val),
      "file_name" ∈ df.cols → r "file_name" = .str f → r' "titrant_molinity" = .num c → c ≠ nan →
      r "salinity" = .num S → ("file_good" ∈ df.cols → Spec.Counts (r "file_good")) →
      backcompat kw (rowDict df.cols r) = .ok kwb →
      ∃ st : Dict Val,
        (kw.keys.Nodup → st.keys.Nodup) ∧
        (∀ k, st.get? k = if k ∈ keys_solve then setting w kwb df.cols r k else none) ∧
        (∀ sr, files_solve w f c S st = .ok sr → Reports r' sr ∧
          ∀ cert, r "alkalinity_certified" = .num cert →
            r' "alkalinity_offset" = .num (sr.alkalinity - cert)) ∧
        (∀ e, files_solve w f c S st = .error e → Blank r' ∧ r' "alkalinity_offset" = .num nan))
      df.rows df'.rows := by
  refine (calibrate_rows h).imp ?_
  rintro r r' ⟨x, s, hcr⟩ f c S kwb hf hfn hc hcn hS hg hb
  obtain ⟨st, h0, h1, h2, h3⟩ := solve_row_from (r := r) (fun k hk => put_ne _ _ hk) hcr.solved f c S kwb hf
    hfn (by rw [put_eq, hc]) hcn hS hg hb
  have hcell : ∀ y : Flt, cellNum (.num y) = .ok y := by
    intro y; cases y <;> rfl
  obtain ⟨a, b, ha, hb', ho⟩ := hcr.offset
  have hne : ∀ c ∈ foundCols, c ∈ solvedCols := by decide
  refine ⟨st, h0, h1, fun sr hsr => ?_, fun e he => ?_⟩
  · have hrep : Reports r' sr := (h2 sr hsr).congr fun c hc => hcr.solved' c (hne c hc)
    refine ⟨hrep, fun cert hcert => ?_⟩
    have : r' "alkalinity" = .num sr.alkalinity := by
      cases sr <;> exact hrep.1
    rw [this, hcell] at ha
    rw [hcert, hcell] at hb'
    rw [ho, ← Except.ok.inj ha, ← Except.ok.inj hb']
  · have hbl : Blank r' := by
      have hs := h3 e he
      have hm := blank_of_merge (p := r') hs
      have : mergeSolved r' s = r' := by
        funext k
        unfold mergeSolved
        split
        · rename_i hk; exact (hcr.solved' k hk).symm
        · rfl
      rwa [this] at hm
    refine ⟨hbl, ?_⟩
    rw [hbl.2 "alkalinity" (by decide), hcell] at ha
    rw [ho, ← Except.ok.inj ha]
    rfl

/-- **C97**: without an `analysis_batch` column there is one batch; without a `reference_good` column
the rows that could be calibrated are the references. -/
theorem C97_defaults (w : World) (kw : Dict Val) (df df' : DF)
    (h : dataset_calibrate w kw df = (.ok (), df')) :
    List.Forall₂ (fun r r' =>
      (r' "analysis_batch" = if "analysis_batch" ∈ df.cols then r "analysis_batch" else .num (fin 0)) ∧
      (r' "reference_good" = if "reference_good" ∈ df.cols then r "reference_good"
        else .bool (decide (¬ Spec.Null (r' "titrant_molinity_here"))))) df.rows df'.rows := by
  refine (calibrate_rows h).imp ?_
  rintro r r' ⟨x, s, hcr⟩
  exact ⟨hcr.batch, by rw [← not_isNull]; exact hcr.flag⟩

/-! ## Blank columns -/

theorem get_kwargs_blank {keys : List String} {kw row row' : Dict Val}
    (h : ∀ k ∈ keys, row.get? k = row'.get? k ∨
      (∃ v, row.get? k = some v ∧ v.isNull = true) ∧ row'.get? k = none) :
    get_kwargs_for keys kw (some row) = get_kwargs_for keys kw (some row') := by
  have : ∀ (l : List String) (d : Dict Val), (∀ k ∈ l, row.get? k = row'.get? k ∨
      (∃ v, row.get? k = some v ∧ v.isNull = true) ∧ row'.get? k = none) →
      l.foldl (setFromRow row) d = l.foldl (setFromRow row') d := by
    intro l
    induction l with
    | nil => intros; rfl
    | cons k l ih =>
      intro d hl
      rw [List.foldl_cons, List.foldl_cons, ih _ fun k hk => hl k (by simp [hk])]
      congr 1
      unfold setFromRow
      rcases hl k (by simp) with h | ⟨⟨v, hv, hn⟩, h'⟩
      · rw [h]
      · rw [hv, h']; simp only [hn, if_true]
  exact this keys _ h

theorem solvedRow_blank {w : World} {kw : Dict Val} {cols : List String} {r : Row} {k : String}
    (hk : k ∈ keys_solve) (hk' : k ∉ fillCols) (hn : (r k).isNull = true) :
    solvedRow w kw (cols.filter (· ≠ k)) r = solvedRow w kw cols r := by
  have hm : ∀ c, c ≠ k → (c ∈ cols.filter (· ≠ k) ↔ c ∈ cols) := by
    intro c hc; simp [List.mem_filter, hc]
  have hne : ∀ c ∈ prepFills, c ≠ k := by
    rintro c hc rfl; exact hk' (by rwa [fillCols_eq])
  have hb : prepBorate (cols.filter (· ≠ k)) r = prepBorate cols r := by
    unfold prepBorate
    rw [if_congr (and_congr (hm _ (hne _ (by decide))) Iff.rfl) rfl rfl]
  have hp : prepRow w (cols.filter (· ≠ k)) r = prepRow w cols r := by
    funext c
    by_cases hc : c ∈ prepFills
    · have := hm c (hne c hc)
      unfold prepRow saltRow
      simp only [this, hb]
    · rw [prepRow_other hc, prepRow_other hc]
  have hpc : ∀ c, c ≠ k → (c ∈ prepCols (cols.filter (· ≠ k)) ↔ c ∈ prepCols cols) := by
    intro c hc
    rw [mem_prepCols, mem_prepCols, hm c hc]
  have hk2 : k ∉ prepCols (cols.filter (· ≠ k)) := by
    rw [mem_prepCols]
    rintro (h | h | h | h | h)
    · simp [List.mem_filter] at h
    · exact hne _ (by decide) h.symm
    · revert h; unfold salts; intro h
      exact hk' ((by decide : ∀ c ∈ ["total_sulfate", "total_borate", "total_fluoride"], c ∈ fillCols) k h)
    · exact hne _ (by decide) h.symm
    · exact hne _ (by decide) h.symm
  have hpk : prepRow w cols r k = r k := prepRow_other (by rw [← fillCols_eq]; exact hk')
  have hrd : k ≠ "read_dat_method" := by rintro rfl; revert hk; decide
  have hfn : k ≠ "file_name" := by rintro rfl; revert hk; decide
  have hkw : ∀ kw', get_kwargs_for keys_solve kw'
      (some (rowDict (prepCols (cols.filter (· ≠ k))) (prepRow w cols r)))
      = get_kwargs_for keys_solve kw' (some (rowDict (prepCols cols) (prepRow w cols r))) := by
    intro kw'
    symm
    apply get_kwargs_blank
    intro c _
    rw [rowDict_get?, rowDict_get?]
    by_cases hc : c = k
    · subst hc
      rw [if_neg hk2]
      by_cases hin : c ∈ prepCols cols
      · rw [if_pos hin]; exact .inr ⟨⟨_, rfl, by rw [hpk]; exact hn⟩, rfl⟩
      · rw [if_neg hin]; exact .inl rfl
    · left
      simp only [hpc c hc]
  have hbc : backcompat kw (rowDict (prepCols (cols.filter (· ≠ k))) (prepRow w cols r))
      = backcompat kw (rowDict (prepCols cols) (prepRow w cols r)) := by
    apply backcompat_row_congr
    rw [rowDict_get?, rowDict_get?]
    simp only [hpc _ hrd.symm]
  have hf : (prepCols (cols.filter (· ≠ k))).contains "file_name"
      = (prepCols cols).contains "file_name" := contains_congr (hpc _ hfn.symm)
  have hs : solve_row w kw (prepCols (cols.filter (· ≠ k))) (prepRow w cols r)
      = solve_row w kw (prepCols cols) (prepRow w cols r) := by
    simp only [solve_row, solve_attempt, solve_call, hbc, hkw, rowAttr, caught, hf]
  have hac : k ≠ "alkalinity_certified" := by rintro rfl; revert hk; decide
  unfold solvedRow mergedRow
  rw [hp, hs]
  congr 1
  funext m
  unfold offsetRow
  rw [if_congr (hm _ hac.symm) rfl rfl]

theorem c96_blank_column (w : World) (kw : Dict Val) (df df' : DF) (k : String)
    (hk : k ∈ keys_solve) (hk' : k ∉ fillCols) (hv : k = "analyte_volume" → "analyte_mass" ∈ df.cols)
    (hnull : ∀ r ∈ df.rows, (r k).isNull = true) (h : dataset_solve w kw df = (.ok (), df')) :
    ∃ cols', dataset_solve w kw ⟨df.cols.filter (· ≠ k), df.rows⟩ = (.ok (), ⟨cols', df'.rows⟩) ∧
      ∀ c, c ∈ cols' ↔ c ∈ df'.cols ∧ c ≠ k := by
  obtain ⟨h1, h2, h3, h4, h5, h6⟩ := dataset_solve_ok_iff.mp h
  have hm : ∀ c, c ≠ k → c ∈ df.cols → c ∈ df.cols.filter (· ≠ k) := by
    intro c hc h; simp [List.mem_filter, hc, h]
  have hnot : ∀ c ∉ keys_solve, c ≠ k := by rintro c hc rfl; exact hc hk
  refine ⟨doneCols (df.cols.filter (· ≠ k)), ?_, ?_⟩
  · rw [dataset_solve_ok_iff]
    refine ⟨h1, hm _ (hnot _ (by decide)) h2, ?_, hm _ (hnot _ (by decide)) h4, rfl, ?_⟩
    · by_cases hkv : k = "analyte_volume"
      · exact .inl (hm _ (by rw [hkv]; decide) (hv hkv))
      · rcases h3 with h3 | h3
        · exact .inl (hm _ (by rintro rfl; exact hk' (by decide)) h3)
        · exact .inr (hm _ (Ne.symm hkv) h3)
    · have hall : ∀ (l l' : List Row), (∀ r ∈ l, (r k).isNull = true) →
          List.Forall₂ (fun r r' => solvedRow w kw df.cols r = .ok r') l l' →
          List.Forall₂ (fun r r' => solvedRow w kw (df.cols.filter (· ≠ k)) r = .ok r') l l' := by
        intro l l' hl hf
        induction hf with
        | nil => exact .nil
        | cons h0 _ ih =>
          exact .cons (by rw [solvedRow_blank hk hk' (hl _ (by simp))]; exact h0)
            (ih fun r hr => hl r (by simp [hr]))
      exact hall _ _ hnull h6
  · intro c
    rw [h5]
    have hfill : ∀ x ∈ ["opt_total_borate", "total_sulfate", "total_borate", "total_fluoride",
        "analyte_mass", "file_good"], x ≠ k := by
      rintro x hx rfl; revert hx; exact fun hx => hk' ((by decide : ∀ x ∈ ["opt_total_borate",
        "total_sulfate", "total_borate", "total_fluoride", "analyte_mass", "file_good"], x ∈ fillCols) x hx)
    have hsol : ∀ x ∈ solvedCols, x ≠ k := by
      rintro x hx rfl
      exact hk' ((by decide : ∀ x ∈ solvedCols, x ∈ keys_solve → x ∈ fillCols) x hx hk)
    have hoff : "alkalinity_offset" ≠ k := hnot _ (by decide)
    have hcert : "alkalinity_certified" ≠ k := hnot _ (by decide)
    unfold doneCols
    have hcore : ∀ x, x ∈ solvedCols.foldl addCol (prepCols (df.cols.filter (· ≠ k)))
        ↔ x ∈ solvedCols.foldl addCol (prepCols df.cols) ∧ x ≠ k := by
      intro x
      rw [mem_foldl_addCol, mem_foldl_addCol, mem_prepCols, mem_prepCols]
      have hf : x ∈ df.cols.filter (· ≠ k) ↔ x ∈ df.cols ∧ x ≠ k := by simp [List.mem_filter]
      rw [hf]
      by_cases hx : x = k
      · subst hx
        have g1 : x ≠ "opt_total_borate" := fun e => hfill _ (by decide) e.symm
        have g2 : x ∉ salts := fun e => hfill x
          ((by decide : ∀ x ∈ salts, x ∈ ["opt_total_borate", "total_sulfate", "total_borate",
            "total_fluoride", "analyte_mass", "file_good"]) x e) rfl
        have g3 : x ≠ "analyte_mass" := fun e => hfill _ (by decide) e.symm
        have g4 : x ≠ "file_good" := fun e => hfill _ (by decide) e.symm
        have g5 : x ∉ solvedCols := fun e => hsol x e rfl
        simp [g1, g2, g3, g4, g5]
      · simp [hx]
    rw [mem_offsetCols, mem_offsetCols, hcore, hcore]
    constructor
    · rintro (h | ⟨h, rfl⟩)
      · exact ⟨.inl h.1, h.2⟩
      · exact ⟨.inr ⟨h.1, rfl⟩, hoff⟩
    · rintro ⟨h | ⟨h, rfl⟩, hne⟩
      · exact .inl ⟨h, hne⟩
      · exact .inr ⟨⟨h, hcert⟩, rfl⟩

/-- **C96**: a column of settings in which every cell is blank is the same as no column.  (Not so for
the unit of the titrant, see c96_blank_unit; `analyte_volume` may only be dropped if there is an
`analyte_mass`.) -/
theorem C96_blank_column (w : World) (kw : Dict Val) (df df' : DF) (k : String)
    (hk : k ∈ keys_solve) (hk' : k ∉ fillCols) (hv : k = "analyte_volume" → "analyte_mass" ∈ df.cols)
    (hnull : ∀ r ∈ df.rows, Spec.Null (r k)) (h : dataset_solve w kw df = (.ok (), df')) :
    ∃ cols', dataset_solve w kw ⟨df.cols.filter (· ≠ k), df.rows⟩ = (.ok (), ⟨cols', df'.rows⟩) ∧
      ∀ c, c ∈ cols' ↔ c ∈ df'.cols ∧ c ≠ k := by
  simp only [← isNull_iff, Bool.not_eq_true] at *
  exact c96_blank_column w kw df df' k hk hk' hv hnull h

theorem c96_blank_unit (w : World) (kw : Dict Val) (v : Val) (df : DF)
    (hc : "titrant_amount_unit" ∈ df.cols) :
    dataset_solve w (kw.set "titrant_amount_unit" v) df = dataset_solve w kw df ∧
    ∀ r ∈ df.rows, (r "titrant_amount_unit").isNull = true → ∀ kwb,
      setting w kwb df.cols r "titrant_amount_unit" = some (.str "ml") := by
  constructor
  · have h : EqOn (fun k => k ≠ "titrant_amount_unit") (kw.set "titrant_amount_unit" v) kw :=
      EqOn.set_left _ _ _ (by decide)
    have hi := ignored_eqOn h (by decide)
    refine dataset_solve_kw hi.1 hi.2 fun r _ => ?_
    refine solve_row_eqOn (backcompat_eqOn h (by decide) _) ?_ (by decide) (by decide)
    intro k _
    by_cases hk : k = "titrant_amount_unit"
    · subst hk
      refine .inr ⟨prepRow w df.cols r "titrant_amount_unit", ?_, ?_⟩
      · rw [rowDict_get?, if_pos (mem_prepCols.mpr (.inl hc))]
      · unfold prepRow
        rw [if_neg (by decide), if_pos rfl]
        by_cases hn : (r "titrant_amount_unit").isNull = true
        · rw [if_pos ⟨hc, hn⟩]; rfl
        · rw [if_neg (fun h => hn h.2)]; simpa using hn
    · exact .inl (by simpa using hk)
  · intro r _ hn kwb
    simp [setting, ownCell, supplied, hc, hn]

/-- **C96**: a data set with a `titrant_amount_unit` column never uses the keyword argument of that
name, not even for the rows where the cell is blank: these are in ml. -/
theorem C96_blank_unit (w : World) (kw : Dict Val) (v : Val) (df : DF)
    (hc : "titrant_amount_unit" ∈ df.cols) :
    dataset_solve w (kw.set "titrant_amount_unit" v) df = dataset_solve w kw df ∧
    ∀ r ∈ df.rows, Spec.Null (r "titrant_amount_unit") → ∀ kwb,
      setting w kwb df.cols r "titrant_amount_unit" = some (.str "ml") := by
  simp only [← isNull_iff, Bool.not_eq_true] at *
  exact c96_blank_unit w kw v df hc

/-! ## Concrete cases -/

/-- In the calibrated data set of one Gran titration (`gFrame`) the titrant molinity is the 0.1 that
`files.calibrate` finds; borate option and salts are supplied, the mass and the unit are the row's. -/
example : ∃ df' r', dataset_calibrate gWorld [] (gFrame true) = (.ok (), df') ∧ df'.rows = [r'] ∧
    r' "titrant_molinity_here" = .num (fin 0.1) ∧
    (∀ k, gKw.get? k = if k ∈ keys_calibrate then setting gWorld [] gCols (gRow true) k else none) ∧
    setting gWorld [] gCols (gRow true) "opt_total_borate" = some (.num (fin 1)) ∧
    setting gWorld [] gCols (gRow true) "total_sulfate" = some (.num (fin (35 * 0.001))) ∧
    setting gWorld [] gCols (gRow true) "titrant_amount_unit" = some (.str "kg") := by
  obtain ⟨df', r', h, hr, hx, -⟩ := g_finishes true
  have hst : ∀ k, gKw.get? k
      = if k ∈ keys_calibrate then setting gWorld [] gCols (gRow true) k else none := by
    intro k
    rw [← prep_setting (keys := keys_calibrate) (by decide) gWorld [] gCols (gRow true) k, gKw_eq]
  refine ⟨df', r', h, hr, hx, hst, rfl, ?_, rfl⟩
  have : setting gWorld [] gCols (gRow true) "total_sulfate" = gKw.get? "total_sulfate" := by
    rw [hst, if_pos (by decide)]
  rw [this]
  simp [gKw, Dict.get?]

/-- The hypotheses of C97 and C96 are met by this row. -/
example : ∃ df' r', dataset_calibrate gWorld [] (gFrame true) = (.ok (), df') ∧ df'.rows = [r'] ∧
    (∃ st : Dict Val,
      (∀ k, st.get? k = if k ∈ keys_calibrate then setting gWorld [] gCols (gRow true) k else none) ∧
      ∀ cal, files_calibrate gWorld "a.dat" (fin gAlk) (fin 35) st = .ok cal →
        r' "titrant_molinity_here" = .num cal.x) ∧
    (∃ st : Dict Val,
      (∀ k, st.get? k = if k ∈ keys_solve then setting gWorld [] gCols (gRow true) k else none) ∧
      ∀ sr, files_solve gWorld "a.dat" (fin 0.1) (fin 35) st = .ok sr → Reports r' sr ∧
        r' "alkalinity_offset" = .num (sr.alkalinity - fin gAlk)) := by
  obtain ⟨df', r', h, hr, hm, -⟩ := g_calibrated
  refine ⟨df', r', h, hr, ?_, ?_⟩
  · have hall := C97_calibrate gWorld [] (gFrame true) df' h
    rw [hr] at hall
    rcases hall with _ | ⟨h0, -⟩
    obtain ⟨st, -, hs, hok, -⟩ := h0 "a.dat" (fin gAlk) (fin 35) []
      (show "file_name" ∈ gCols by decide) rfl rfl (by simp) rfl (fun _ => truthy_iff.mp rfl)
      (by with_unfolding_all rfl)
    exact ⟨st, hs, hok⟩
  · have hall := C97_solve gWorld [] (gFrame true) df' h
    rw [hr] at hall
    rcases hall with _ | ⟨h0, -⟩
    obtain ⟨st, -, hs, hok, -⟩ := h0 "a.dat" (fin 0.1) (fin 35) []
      (show "file_name" ∈ gCols by decide) rfl hm (by simp) rfl (fun _ => truthy_iff.mp rfl)
      (by with_unfolding_all rfl)
    exact ⟨st, hs, fun sr hsr => ⟨(hok sr hsr).1, (hok sr hsr).2 _ rfl⟩⟩

end Calk
