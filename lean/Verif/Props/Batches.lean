import Verif.Model.Batches
import Verif.Props.Plot
import Verif.Props.PlotDataset
import Verif.Props.DatasetTrue

/-! # Property C141: the table of the batches -/

namespace Calk
open Flt Spec

open Classical in
/-- **Specification**: the rows of the batch `b` that were used to calibrate it -/
noncomputable def Spec.batchRefs (df : DF) (b : Val) : List Row :=
  df.rows.filter fun r => decide (r "analysis_batch" = b ∧ IsReference r)

/-- **Specification**: the molinities that were found with them -/
def Spec.RefValues (df : DF) (b : Val) (xs : List Flt) : Prop :=
  List.Forall₂ (fun r x => r "titrant_molinity_here" = .num x) (batchRefs df b) xs

/-- **Specification**: mean and sample standard deviation -/
structure Spec.StatsOf (xs : List ℝ) (s : BatchStats) : Prop where
  no_mean : xs = [] → s.titrant_molinity = nan
  mean : xs ≠ [] → s.titrant_molinity = fin (xs.sum / xs.length)
  no_std : xs.length < 2 → s.titrant_molinity__std = nan
  std : 2 ≤ xs.length → ∃ σ, 0 ≤ σ ∧ s.titrant_molinity__std = fin σ ∧
    σ ^ 2 * ((xs.length : ℝ) - 1) = (xs.map fun x => (x - xs.sum / xs.length) ^ 2).sum

/-- **Specification**: what the table needs: its columns, ordinary labels, flags that are Booleans or not
given, and molinities that are numbers (NaN where there is none) -/
structure Spec.BatchReady (df : DF) : Prop where
  batch : "analysis_batch" ∈ df.cols
  here : "titrant_molinity_here" ∈ df.cols
  good : "reference_good" ∈ df.cols
  labels : ∀ r ∈ df.rows, Label (r "analysis_batch")
  flags : ∀ r ∈ df.rows, (∃ b, r "reference_good" = .bool b) ∨ Spec.Null (r "reference_good")
  nums : ∀ r ∈ df.rows, ∃ x, r "titrant_molinity_here" = .num x

/-! ## Lemmas -/

theorem isRef_iff {r : Row} {x : Flt} (hx : r "titrant_molinity_here" = .num x) :
    IsReference r ↔ r "reference_good" = .bool true ∧ x ≠ nan := by
  unfold IsReference
  rw [hx]
  simp only [Val.isNull, isNaN_false_iff]

theorem refFlag_isSome {v : Val} (h : (∃ b, v = .bool b) ∨ Spec.Null v) : (refFlag v).isSome = true := by
  rcases h with ⟨b, rfl⟩ | h
  · rfl
  · rw [← isNull_iff] at h
    unfold refFlag
    cases v <;> simp_all [Val.isNull]

theorem refValues_good {df : DF} {b : Val} {xs : List Flt} (h : RefValues df b xs)
    (hn : ∀ r ∈ df.rows, HereNum r) : xs = goodHere df.rows b := by
  obtain ⟨cols, rows⟩ := df
  unfold RefValues batchRefs at h
  simp only at h hn ⊢
  induction rows generalizing xs with
  | nil =>
    simp only [List.filter_nil, List.forall₂_nil_left_iff] at h
    rw [h]; rfl
  | cons r rows ih =>
    obtain ⟨x, hx⟩ := hn r (by simp)
    have ih := fun {ys} h => ih (xs := ys) h (fun r h => hn r (by simp [h]))
    unfold goodHere at ih ⊢
    rw [List.filterMap_cons, hx]
    simp only
    by_cases hc : r "analysis_batch" = b ∧ IsReference r
    · rw [List.filter_cons_of_pos (by simpa using hc), List.forall₂_cons_left_iff] at h
      obtain ⟨y, ys, h1, h2, rfl⟩ := h
      rw [if_pos ⟨hc.1, (isRef_iff hx).mp hc.2⟩]
      simp only
      rw [← ih h2]
      rw [hx] at h1
      rw [Val.num.inj h1]
    · rw [List.filter_cons_of_neg (by simpa using hc)] at h
      rw [if_neg (fun h' => hc ⟨h'.1, (isRef_iff hx).mpr h'.2⟩)]
      exact ih h

theorem refValues_exists (df : DF) (b : Val) (hn : ∀ r ∈ df.rows, HereNum r) : ∃ xs, RefValues df b xs := by
  unfold RefValues
  have : ∀ r ∈ batchRefs df b, ∃ x, r "titrant_molinity_here" = .num x := fun r hr => by
    unfold batchRefs at hr
    exact hn r (List.mem_filter.mp hr).1
  generalize batchRefs df b = l at this
  induction l with
  | nil => exact ⟨[], .nil⟩
  | cons r l ih =>
    obtain ⟨xs, h⟩ := ih fun r hr => this r (by simp [hr])
    obtain ⟨x, hx⟩ := this r (by simp)
    exact ⟨x :: xs, .cons hx h⟩

theorem goodHere_ne_nan {rows : List Row} {b : Val} {x : Flt} (h : x ∈ goodHere rows b) : x ≠ nan := by
  unfold goodHere at h
  obtain ⟨r, -, h⟩ := List.mem_filterMap.mp h
  cases hc : r "titrant_molinity_here" with
  | num y =>
    rw [hc] at h
    simp only [Option.ite_none_right_eq_some, Option.some.injEq] at h
    rw [← h.2]; exact h.1.2.2
  | _ => rw [hc] at h; cases h

/-- mean, standard deviation and number of the values -/
noncomputable def statsOf (xs : List Flt) : BatchStats := ⟨pdMean xs, pdStd xs, fin (xs.length : ℝ)⟩

theorem statsOf_perm {xs ys : List Flt} (h : xs.Perm ys) : statsOf xs = statsOf ys := by
  have hf := h.filter fun x => !x.isNaN
  unfold statsOf pdMean pdStd
  rw [npMean_perm hf, h.length_eq]
  simp only [hf.length_eq, npSum_perm (hf.map _), npMean_perm hf]

theorem statsOf_spec (xs : List ℝ) : StatsOf xs (statsOf (xs.map fin)) where
  no_mean h := by
    rw [h]
    show npMean [] = nan
    exact npMean_nil
  mean h := by
    show npMean _ = _
    rw [filter_fin, npMean_map_fin _ h]; rfl
  no_std h := pdStd_few xs h
  std h := by
    have h2 : (2 : ℝ) ≤ xs.length := by exact_mod_cast h
    refine ⟨sampleStd xs, Real.sqrt_nonneg _, pdStd_fin xs h, ?_⟩
    unfold sampleStd
    rw [Real.sq_sqrt, div_mul_cancel₀ _ (by linarith)]
    refine div_nonneg (List.sum_nonneg ?_) (by linarith)
    intro y hy
    obtain ⟨x, -, rfl⟩ := List.mem_map.mp hy
    positivity

theorem get_batches_eq {order : List Val → List Val} (ho : ∀ l, (order l).Perm l) {df : DF} (h : BatchReady df) :
    ∃ ls : List Val, ls.Nodup ∧ (∀ b, b ∈ ls ↔ ∃ r ∈ df.rows, r "analysis_batch" = b) ∧
      get_batches order df = .ok (ls.map fun b => (b, statsOf (goodHere df.rows b))) := by
  obtain ⟨ls, h1, h2, h3⟩ := batchLabels_flags ho (df := df) (fun c hc => by
      simp only [batchCols, List.mem_cons, List.not_mem_nil, or_false] at hc
      rcases hc with rfl | rfl | rfl
      · exact h.batch
      · exact h.here
      · exact h.good) (fun r hr => refFlag_isSome (h.flags r hr)) h.labels
  refine ⟨ls, h2, h3, ?_⟩
  unfold get_batches
  rw [h1, bind_ok, pure_ok]
  congr 1
  apply List.map_congr_left
  intro b hb
  obtain ⟨r, hr, rfl⟩ := (h3 b).mp hb
  have := batchHere_eq (h.labels r hr) h.labels h.nums
  unfold get_group_calibration statsOf
  rw [← this, List.filter_filter]
  simp only [Bool.and_comm]
  rfl

theorem list_sq_sum_le (ys : List ℝ) : ys.sum ^ 2 ≤ ys.length * (ys.map fun y => y ^ 2).sum := by
  induction ys with
  | nil => simp
  | cons y ys ih =>
    have key : 2 * y * ys.sum ≤ ys.length * y ^ 2 + (ys.map fun y => y ^ 2).sum := by
      clear ih
      induction ys with
      | nil => simp
      | cons z zs ih' =>
        simp only [List.sum_cons, List.map_cons, List.length_cons, Nat.cast_add, Nat.cast_one]
        nlinarith [sq_nonneg (y - z)]
    simp only [List.sum_cons, List.map_cons, List.length_cons, Nat.cast_add, Nat.cast_one]
    nlinarith

theorem sum_sub_const (xs : List ℝ) (m : ℝ) : (xs.map fun x => x - m).sum = xs.sum - xs.length * m := by
  induction xs with
  | nil => simp
  | cons x xs ih => simp only [List.map_cons, List.sum_cons, ih, List.length_cons, Nat.cast_add, Nat.cast_one]; ring

/-- no value is further from the mean than `(n - 1) / sqrt n` standard deviations -/
theorem samuelson {xs : List ℝ} {σ : ℝ} (hσ : 0 ≤ σ) (h2 : 2 ≤ xs.length)
    (h : σ ^ 2 * ((xs.length : ℝ) - 1) = (xs.map fun x => (x - xs.sum / xs.length) ^ 2).sum) {x : ℝ} (hx : x ∈ xs) :
    |x - xs.sum / xs.length| * Real.sqrt xs.length ≤ ((xs.length : ℝ) - 1) * σ := by
  set n : ℝ := (xs.length : ℝ) with hn
  have hn2 : (2 : ℝ) ≤ n := by rw [hn]; exact_mod_cast h2
  set m := xs.sum / n with hm
  have hp := List.perm_cons_erase hx
  have hs := (hp.map fun x => x - m).sum_eq
  have hq := (hp.map fun x => (x - m) ^ 2).sum_eq
  rw [sum_sub_const] at hs
  simp only [List.map_cons, List.sum_cons] at hs hq
  have h0 : xs.sum - n * m = 0 := by rw [hm]; field_simp; ring
  rw [← hn, h0] at hs
  have hc := list_sq_sum_le ((xs.erase x).map fun x => x - m)
  have hl : (((xs.erase x).map fun x => x - m).length : ℝ) = n - 1 := by
    rw [List.length_map, List.length_erase_of_mem hx, hn, Nat.cast_sub (by omega)]; simp
  rw [hl, List.map_map] at hc
  have hfun : ((fun y : ℝ => y ^ 2) ∘ fun x => x - m) = fun x => (x - m) ^ 2 := rfl
  rw [hfun] at hc
  have e1 : ((xs.erase x).map fun x => x - m).sum = -(x - m) := by linarith
  rw [e1] at hc
  have hfin : (x - m) ^ 2 * n ≤ ((n - 1) * σ) ^ 2 := by
    rw [hq] at h
    nlinarith
  have : (|x - m| * Real.sqrt n) ^ 2 ≤ ((n - 1) * σ) ^ 2 := by
    rw [mul_pow, sq_abs, Real.sq_sqrt (by linarith)]; exact hfin
  exact le_of_sq_le_sq this (mul_nonneg (by linarith) hσ)

/-! ## C141 -/

/-- **C141**: the table has every batch of the data set once and no other.  For each it gives how many rows
of the batch are flagged good and have a calibrated molinity, and the mean and the sample standard deviation
of these molinities (no mean without references, no standard deviation with fewer than two). -/
theorem C141_table (order : List Val → List Val) (ho : ∀ l, (order l).Perm l) (df : DF) (h : BatchReady df) :
    ∃ bs, get_batches order df = .ok bs ∧ (bs.map Prod.fst).Nodup ∧
      (∀ b, (∃ s, (b, s) ∈ bs) ↔ ∃ r ∈ df.rows, r "analysis_batch" = b) ∧
      ∀ b s, (b, s) ∈ bs → s.titrant_molinity__count = fin ((batchRefs df b).length : ℝ) ∧
        ∀ xs : List ℝ, RefValues df b (xs.map fin) → StatsOf xs s := by
  obtain ⟨ls, h1, h2, h3⟩ := get_batches_eq ho h
  refine ⟨_, h3, ?_, fun b => ?_, fun b s hbs => ?_⟩
  · rw [List.map_map]
    simpa [Function.comp_def] using h1
  · rw [← h2]
    simp only [List.mem_map, Prod.mk.injEq]
    exact ⟨fun ⟨s, y, hy, e, _⟩ => e ▸ hy, fun hb => ⟨_, b, hb, rfl, rfl⟩⟩
  · simp only [List.mem_map, Prod.mk.injEq] at hbs
    obtain ⟨y, -, rfl, rfl⟩ := hbs
    refine ⟨?_, fun xs hx => ?_⟩
    · obtain ⟨xs, hx⟩ := refValues_exists df y h.nums
      have := refValues_good hx h.nums
      show fin _ = _
      rw [← this, ← List.Forall₂.length_eq hx]
    · rw [← refValues_good hx h.nums]
      exact statsOf_spec xs

/-- **C141**: a missing column is reported. -/
theorem C141_missing (order : List Val → List Val) (df : DF) (h : "analysis_batch" ∉ df.cols ∨
    "titrant_molinity_here" ∉ df.cols ∨ "reference_good" ∉ df.cols) :
    ∃ c, c ∉ df.cols ∧ get_batches order df = .error (.KeyError c) := by
  have : ∃ c ∈ batchCols, c ∉ df.cols := by
    rcases h with h | h | h
    · exact ⟨_, by decide, h⟩
    · exact ⟨_, by decide, h⟩
    · exact ⟨_, by decide, h⟩
  cases hf : batchCols.find? fun c => !df.has c with
  | none =>
    obtain ⟨c, h1, h2⟩ := this
    rw [List.find?_eq_none] at hf
    have := hf c h1
    simp only [Bool.not_eq_true', Bool.not_eq_false, has_iff] at this
    exact absurd this h2
  | some c =>
    refine ⟨c, fun hc => ?_, ?_⟩
    · have := List.find?_some hf
      rw [has_iff.mpr hc] at this
      cases this
    · unfold get_batches batchLabels
      rw [hf]
      rfl

/-- **C141**: with two or more references, none is further from the mean of the batch than `(n - 1) / √n`
times the standard deviation, and the standard deviation is zero exactly if all agree. -/
theorem C141_spread (order : List Val → List Val) (ho : ∀ l, (order l).Perm l) (df : DF) (hr : BatchReady df)
    (bs : List (Val × BatchStats)) (h : get_batches order df = .ok bs) (b : Val) (s : BatchStats)
    (hs : (b, s) ∈ bs) (xs : List ℝ) (hx : RefValues df b (xs.map fin)) (h2 : 2 ≤ xs.length) :
    ∃ m σ, s.titrant_molinity = fin m ∧ s.titrant_molinity__std = fin σ ∧
      (∀ x ∈ xs, |x - m| * Real.sqrt xs.length ≤ ((xs.length : ℝ) - 1) * σ) ∧
      (σ = 0 ↔ ∀ x ∈ xs, x = m) := by
  obtain ⟨bs', h', -, -, hst⟩ := C141_table order ho df hr
  rw [h] at h'
  cases h'
  have hS := (hst b s hs).2 xs hx
  obtain ⟨σ, h0, h3, h4⟩ := hS.std h2
  have hn2 : (2 : ℝ) ≤ xs.length := by exact_mod_cast h2
  refine ⟨_, σ, hS.mean (by rintro rfl; simp at h2), h3, fun x hx => samuelson h0 h2 h4 hx, ?_⟩
  constructor
  · intro hσ x hx
    have := samuelson h0 h2 h4 hx
    rw [hσ, mul_zero] at this
    have hp : 0 < Real.sqrt xs.length := Real.sqrt_pos.mpr (by linarith)
    have := abs_nonpos_iff.mp (nonpos_of_mul_nonpos_left this hp)
    linarith
  · intro hall
    have : (xs.map fun x => (x - xs.sum / xs.length) ^ 2).sum = 0 := by
      apply List.sum_eq_zero
      intro y hy
      obtain ⟨x, hx, rfl⟩ := List.mem_map.mp hy
      rw [← hall x hx]; ring
    rw [this] at h4
    rcases mul_eq_zero.mp h4 with h5 | h5
    · exact pow_eq_zero_iff (by norm_num) |>.mp h5
    · linarith

/-- **C141**: the statistics of a batch depend on nothing but the molinities of its references: not on their
order, on other rows, nor on other columns. -/
theorem C141_local (order : List Val → List Val) (ho : ∀ l, (order l).Perm l) (df df₂ : DF) (hr : BatchReady df)
    (hr₂ : BatchReady df₂) (bs bs₂ : List (Val × BatchStats)) (h : get_batches order df = .ok bs)
    (h₂ : get_batches order df₂ = .ok bs₂) (b b₂ : Val) (s s₂ : BatchStats) (hs : (b, s) ∈ bs) (hs₂ : (b₂, s₂) ∈ bs₂)
    (xs xs₂ : List Flt) (hx : RefValues df b xs) (hx₂ : RefValues df₂ b₂ xs₂) (hp : xs.Perm xs₂) : s = s₂ := by
  have key : ∀ {df : DF} {bs : List (Val × BatchStats)} {b : Val} {s : BatchStats} {xs : List Flt}, BatchReady df →
      get_batches order df = .ok bs → (b, s) ∈ bs → RefValues df b xs → s = statsOf xs := by
    intro df bs b s xs hr h hs hx
    obtain ⟨ls, -, -, h3⟩ := get_batches_eq ho hr
    rw [h] at h3
    rw [Except.ok.inj h3] at hs
    simp only [List.mem_map, Prod.mk.injEq] at hs
    obtain ⟨y, -, rfl, rfl⟩ := hs
    rw [refValues_good hx hr.nums]
  rw [key hr h hs hx, key hr₂ h₂ hs₂ hx₂, statsOf_perm hp]

open Classical in
theorem sum_counts {rows : List Row} {P : Row → Bool} : ∀ {ls : List Val}, ls.Nodup →
    (∀ r ∈ rows, r "analysis_batch" ∈ ls) →
    (ls.map fun b => ((rows.filter fun r => decide (r "analysis_batch" = b) && P r).length)).sum
      = (rows.filter P).length := by
  intro ls hnd hmem
  induction rows with
  | nil => simp
  | cons r rows ih =>
    have ih := ih fun r hr => hmem r (by simp [hr])
    have hr := hmem r (by simp)
    have hone : ∀ ls : List Val, ls.Nodup → r "analysis_batch" ∈ ls →
        (ls.map fun b => if r "analysis_batch" = b then 1 else 0).sum = 1 := by
      intro ls hnd hm
      induction ls with
      | nil => simp at hm
      | cons l ls ih' =>
        obtain ⟨h1, h2⟩ := List.nodup_cons.mp hnd
        rw [List.map_cons, List.sum_cons]
        by_cases hl : r "analysis_batch" = l
        · have hz : (ls.map fun b => if r "analysis_batch" = b then 1 else 0).sum = 0 := by
            apply List.sum_eq_zero
            intro y hy
            obtain ⟨b, hb, rfl⟩ := List.mem_map.mp hy
            have hne : r "analysis_batch" ≠ b := fun e => h1 (by rw [← hl, e]; exact hb)
            exact if_neg hne
          rw [if_pos hl, hz]
        · rw [if_neg hl, ih' h2 ((List.mem_cons.mp hm).resolve_left hl)]
    by_cases hp : P r = true
    · rw [List.filter_cons_of_pos hp, List.length_cons, ← ih, ← hone ls hnd hr, ← List.sum_map_add]
      congr 1
      apply List.map_congr_left
      intro b _
      by_cases hb : r "analysis_batch" = b
      · rw [List.filter_cons_of_pos (by simp [hb, hp]), if_pos hb, List.length_cons]
      · rw [List.filter_cons_of_neg (by simp [hb]), if_neg hb, add_zero]
    · rw [List.filter_cons_of_neg hp, ← ih]
      congr 1
      apply List.map_congr_left
      intro b _
      rw [List.filter_cons_of_neg (by simp [hp])]

open Classical in
/-- **C141**: every reference is counted in exactly one batch. -/
theorem C141_partition (order : List Val → List Val) (ho : ∀ l, (order l).Perm l) (df : DF) (hr : BatchReady df)
    (bs : List (Val × BatchStats)) (h : get_batches order df = .ok bs) :
    (bs.map fun p => p.2.titrant_molinity__count).sum
      = fin ((df.rows.filter fun r => decide (IsReference r)).length : ℝ) := by
  obtain ⟨ls, h1, h2, h3⟩ := get_batches_eq ho hr
  have hcount : ∀ b, ((goodHere df.rows b).length) = (batchRefs df b).length := by
    intro b
    obtain ⟨xs, hx⟩ := refValues_exists df b hr.nums
    rw [← refValues_good hx hr.nums, ← List.Forall₂.length_eq hx]
  rw [h] at h3
  rw [Except.ok.inj h3, List.map_map, ← sum_counts h1 (fun r hr => (h2 _).mpr ⟨r, hr, rfl⟩)]
  have hmap : ls.map ((fun p : Val × BatchStats => p.2.titrant_molinity__count) ∘
      fun b => (b, statsOf (goodHere df.rows b)))
      = (ls.map fun b => ((batchRefs df b).length : ℝ)).map fin := by
    rw [List.map_map]
    apply List.map_congr_left
    intro b _
    show fin _ = fin _
    rw [hcount]
  rw [hmap]
  have := npSum_map_fin (ls.map fun b => ((batchRefs df b).length : ℝ))
  unfold npSum at this
  rw [this, Nat.cast_list_sum, List.map_map]
  congr 2
  apply List.map_congr_left
  intro b _
  show _ = ((_ : ℕ) : ℝ)
  unfold batchRefs
  congr 2
  apply List.filter_congr
  intro r _
  rw [Bool.decide_and]

/-- **C141**: after `calibrate`, the table can be made, and every row has the mean of its batch as its
molinity. -/
theorem C141_calibrate (order : List Val → List Val) (ho : ∀ l, (order l).Perm l) (w : World) (kw : Dict Val)
    (df df' : DF) (h : dataset_calibrate w kw df = (.ok (), df'))
    (hl : ∀ r ∈ df'.rows, Label (r "analysis_batch")) :
    BatchReady df' ∧ ∃ bs, get_batches order df' = .ok bs ∧ ∀ r ∈ df'.rows,
      ∃ s, (r "analysis_batch", s) ∈ bs ∧ r "titrant_molinity" = .num s.titrant_molinity := by
  have hready : BatchReady df' := by
    obtain ⟨_, _, _, rows, hrows, hflags, hsol⟩ := dataset_calibrate_ok_iff.mp h
    have hs := solve_sameRef hsol
    have hm := withMolinity_sameRef (withDefaults ⟨hereCols df.cols, rows⟩)
    have hcols : ∀ c, c ∈ (withDefaults ⟨hereCols df.cols, rows⟩).cols → c ∈ df'.cols := by
      intro c hc
      obtain ⟨_, _, _, _, h5, _⟩ := dataset_solve_ok_iff.mp hsol
      rw [h5, mem_doneCols]
      exact .inl (mem_addCol.mpr (.inl hc))
    have hback : ∀ r' ∈ df'.rows, ∃ r ∈ (withDefaults ⟨hereCols df.cols, rows⟩).rows, SameRef r r' := by
      intro r' hr'
      obtain ⟨r1, hr1, h1⟩ := forall₂_mem_right hs hr'
      obtain ⟨r, hr, h2⟩ := forall₂_mem_right hm hr1
      exact ⟨r, hr, h1.1.1.trans h2.1, h1.1.2.1.trans h2.2.1, h1.1.2.2.trans h2.2.2⟩
    refine ⟨hcols _ (mem_withDefaults.mpr (.inr (.inl rfl))), hcols _ (mem_withDefaults.mpr (.inl ?_)),
      hcols _ (mem_withDefaults.mpr (.inr (.inr rfl))), hl, fun r' hr' => ?_, fun r' hr' => ?_⟩
    · exact mem_addCol.mpr (.inr rfl)
    · obtain ⟨r, hr, -, h2, -⟩ := hback r' hr'
      rw [h2]
      have := (hflags r hr).2
      unfold refFlag at this
      cases hv : r "reference_good" with
      | bool b => exact .inl ⟨b, rfl⟩
      | _ =>
        rw [hv] at this
        simp only at this
        split at this
        · exact .inr (isNull_iff.mp ‹_›)
        · cases this
    · obtain ⟨r, hr, -, -, h2⟩ := hback r' hr'
      rw [h2]
      obtain ⟨f, hf, hk, _⟩ := withDefaults_rows ⟨hereCols df.cols, rows⟩
      rw [hf] at hr
      obtain ⟨y, hy, rfl⟩ := List.mem_map.mp hr
      obtain ⟨z, hz, h2⟩ : ∃ z ∈ df.rows, hereRow w kw df.cols z = .ok y := forall₂_mem hrows.flip hy
      obtain ⟨v, _, rfl⟩ := hereRow_inv h2
      exact ⟨v, by rw [hk _ _ (by decide) (by decide), put_eq]⟩
  refine ⟨hready, ?_⟩
  obtain ⟨ls, h1, h2, h3⟩ := get_batches_eq ho hready
  refine ⟨_, h3, fun r hr => ⟨_, List.mem_map.mpr ⟨r "analysis_batch", (h2 _).mpr ⟨r, hr, rfl⟩, rfl⟩, ?_⟩⟩
  rw [C43_batch_mean w kw df df' h hl r hr]
  show Val.num _ = Val.num (npMean _)
  rw [List.filter_eq_self.mpr]
  intro x hx
  rw [isNaN_false_iff.mpr (goodHere_ne_nan hx)]
  rfl

/-- **C141**: in a data set whose references are titrations with the acid of their batch and have true certified
values (`TrueReference`, C118), the table gives the molinity of that acid for every batch with references, and no
spread if there are two or more. -/
theorem C141_exact (order : List Val → List Val) (ho : ∀ l, (order l).Perm l) (w : World) (kw : Dict Val)
    (df df' : DF) (hkw : kw.keys.Nodup) (h : dataset_calibrate w kw df = (.ok (), df'))
    (hl : ∀ r ∈ df'.rows, Label (r "analysis_batch")) (c : Val → ℝ)
    (href : List.Forall₂ (fun r r' => IsReference r' →
      ∃ A, TrueReference w kw df.cols r A (c (r' "analysis_batch"))) df.rows df'.rows)
    (bs : List (Val × BatchStats)) (hbs : get_batches order df' = .ok bs) (b : Val) (s : BatchStats)
    (hs : (b, s) ∈ bs) :
    (batchRefs df' b ≠ [] → s.titrant_molinity = fin (c b)) ∧
    (2 ≤ (batchRefs df' b).length → s.titrant_molinity__std = fin 0) := by
  obtain ⟨hready, -⟩ := C141_calibrate order ho w kw df df' h hl
  obtain ⟨bs', h', -, -, hst⟩ := C141_table order ho df' hready
  rw [hbs] at h'
  cases h'
  have hx : RefValues df' b ((List.replicate (batchRefs df' b).length (c b)).map fin) := by
    unfold RefValues
    rw [List.map_replicate]
    have : ∀ r ∈ batchRefs df' b, r "titrant_molinity_here" = .num (fin (c b)) := by
      intro r hr
      unfold batchRefs at hr
      obtain ⟨h1, h2⟩ := List.mem_filter.mp hr
      simp only [decide_eq_true_eq] at h2
      rw [← h2.1]
      exact true_here hkw h href r h1 h2.2
    generalize batchRefs df' b = l at this
    induction l with
    | nil => exact .nil
    | cons r l ih => exact .cons (this r (by simp)) (ih fun r hr => this r (by simp [hr]))
  have hS := (hst b s hs).2 _ hx
  have hmean : ∀ n : ℕ, n ≠ 0 →
      (List.replicate n (c b)).sum / ((List.replicate n (c b)).length : ℝ) = c b := by
    intro n hn
    rw [List.sum_replicate, List.length_replicate, nsmul_eq_mul]
    field_simp
  refine ⟨fun hne => ?_, fun h2 => ?_⟩
  · have h0 : (batchRefs df' b).length ≠ 0 := by simpa using hne
    rw [hS.mean (by simpa using hne), hmean _ h0]
  · obtain ⟨m, σ, h3, h4, -, h5⟩ := C141_spread order ho df' hready bs hbs b s hs _ hx (by simpa using h2)
    have h0 : (batchRefs df' b).length ≠ 0 := by omega
    rw [hS.mean (by rw [Ne, List.replicate_eq_nil_iff]; exact h0), hmean _ h0] at h3
    rw [h4, h5.mpr]
    intro x hx
    rw [(List.mem_replicate.mp hx).2]
    exact Flt.fin.inj h3

/-! ### A case: two batches, one with two references and a bad one, the other without -/

def btRow (b : String) (good : Val) (x : Flt) : Row := fun c =>
  if c = "analysis_batch" then .str b else if c = "reference_good" then good else .num x

noncomputable def btFrame : DF :=
  ⟨["analysis_batch", "titrant_molinity_here", "reference_good"],
    [btRow "A" (.bool true) (fin 0.1), btRow "B" (.bool true) nan, btRow "A" (.bool false) (fin 0.2),
     btRow "A" (.bool true) (fin 0.104), btRow "B" .none (fin 0.3)]⟩

theorem bt_ready : BatchReady btFrame := by
  refine ⟨by simp [btFrame], by simp [btFrame], by simp [btFrame], ?_, ?_, ?_⟩ <;>
  · intro r hr
    simp only [btFrame, List.mem_cons, List.not_mem_nil, or_false] at hr
    rcases hr with rfl | rfl | rfl | rfl | rfl <;> simp [btRow, Label, ← isNull_iff, Val.isNull]

theorem bt_refs : batchRefs btFrame (.str "A") = [btRow "A" (.bool true) (fin 0.1), btRow "A" (.bool true) (fin 0.104)] ∧
    batchRefs btFrame (.str "B") = [] := by
  constructor <;> simp [batchRefs, btFrame, btRow, IsReference, Val.isNull, Flt.isNaN]

/-- the table of that frame -/
example : ∃ bs a b, get_batches id btFrame = .ok bs ∧ (Val.str "A", a) ∈ bs ∧ (Val.str "B", b) ∈ bs ∧
    a.titrant_molinity = fin 0.102 ∧ a.titrant_molinity__count = fin 2 ∧
    (∃ σ, a.titrant_molinity__std = fin σ ∧ 0 < σ) ∧
    b.titrant_molinity = nan ∧ b.titrant_molinity__std = nan ∧ b.titrant_molinity__count = fin 0 ∧
    (bs.map fun p => p.2.titrant_molinity__count).sum = fin 2 := by
  obtain ⟨bs, h, -, hmem, hst⟩ := C141_table id (fun _ => .refl _) btFrame bt_ready
  obtain ⟨a, ha⟩ := (hmem (.str "A")).mpr ⟨btRow "A" (.bool true) (fin 0.1), by simp [btFrame], rfl⟩
  obtain ⟨b, hb⟩ := (hmem (.str "B")).mpr ⟨btRow "B" .none (fin 0.3), by simp [btFrame], rfl⟩
  have hxa : RefValues btFrame (.str "A") (([0.1, 0.104] : List ℝ).map fin) := by
    unfold RefValues
    rw [bt_refs.1]
    exact .cons rfl (.cons rfl .nil)
  have hxb : RefValues btFrame (.str "B") (([] : List ℝ).map fin) := by
    unfold RefValues
    rw [bt_refs.2]
    exact .nil
  have sa := (hst _ _ ha).2 _ hxa
  have sb := (hst _ _ hb).2 _ hxb
  have ca := (hst _ _ ha).1
  have cb := (hst _ _ hb).1
  rw [bt_refs.1] at ca
  rw [bt_refs.2] at cb
  obtain ⟨m, σ, h1, h2, h3, h4⟩ := C141_spread id (fun _ => .refl _) btFrame bt_ready bs h _ _ ha _ hxa (by simp)
  have hm := sa.mean (by simp)
  have hp := C141_partition id (fun _ => .refl _) btFrame bt_ready bs h
  refine ⟨bs, a, b, h, ha, hb, ?_, by rw [ca]; norm_num, ⟨σ, h2, ?_⟩, sb.no_mean rfl, sb.no_std (by simp),
    by rw [cb]; norm_num, ?_⟩
  · rw [hm]; norm_num
  · rw [hm] at h1
    have hm' := Flt.fin.inj h1
    have hne : σ ≠ 0 := by
      intro h0
      have := h4.mp h0 0.1 (by simp)
      rw [← hm'] at this
      norm_num at this
    have := h3 0.1 (by simp)
    have h0 : 0 ≤ |(0.1 : ℝ) - m| * Real.sqrt (([0.1, 0.104] : List ℝ).length : ℝ) := by positivity
    norm_num at this h0
    exact lt_of_le_of_ne (le_trans (by positivity) this) (Ne.symm hne)
  · rw [hp]
    have : (btFrame.rows.filter fun r => open Classical in decide (IsReference r)).length = 2 := by
      simp [btFrame, btRow, IsReference, Val.isNull, Flt.isNaN]
    rw [this]; norm_num

/-! ### A case: the same reference measured twice, as in C118 in Gran mode -/

theorem bt_two : ∃ (df' : DF) (r1 r2 : Row), dataset_calibrate (calWorld fgP fgQ) []
      ⟨cellCols fgArgs, [cellRow fgArgs (fin (1e6 * 2e-4)), cellRow fgArgs (fin (1e6 * 2e-4))]⟩ = (.ok (), df') ∧
    df'.rows = [r1, r2] ∧ ∀ r ∈ [r1, r2], r "analysis_batch" = .num (fin 0) ∧ IsReference r := by
  have hnot : ∀ k, k ∉ ["file_name", "salinity", "alkalinity_certified"] → k ∉ fgArgs.keys →
      k ∉ cellCols fgArgs := fun k h1 h2 h => (List.mem_append.mp h).elim h1 h2
  have hbatch := hnot "analysis_batch" (by decide) (by rw [dg_keys]; decide)
  have hrg := hnot "reference_good" (by decide) (by rw [dg_keys]; decide)
  obtain ⟨df', h⟩ := c41_calibrate_finishes (calWorld fgP fgQ) []
    ⟨cellCols fgArgs, [cellRow fgArgs (fin (1e6 * 2e-4)), cellRow fgArgs (fin (1e6 * 2e-4))]⟩ g_ignored
    (by simp [cellCols]) (.inl (List.mem_append_right _ (by rw [dg_keys]; decide))) (by simp [cellCols])
    (by simp [cellCols])
    (by
      intro r hr
      rcases List.mem_cons.mp hr with rfl | hr
      · exact .inr ⟨fin (1e6 * 2e-4), rfl⟩
      · rw [List.mem_singleton.mp hr]; exact .inr ⟨fin (1e6 * 2e-4), rfl⟩)
    (fun h => absurd h hbatch) (fun h => absurd h hrg)
  have hcal := C97_calibrate _ [] _ df' h
  have hdef := C97_defaults _ [] _ df' h
  obtain ⟨r1, r2, hr⟩ : ∃ r1 r2, df'.rows = [r1, r2] := by
    have := (calibrate_rows h).length_eq
    match hd : df'.rows, this with
    | [r1, r2], _ => exact ⟨r1, r2, rfl⟩
  rw [hr] at hcal hdef
  simp only [List.forall₂_cons, List.Forall₂.nil, and_true] at hcal hdef
  have hb : "read_dat_method" ∉ fgArgs.keys := by rw [dg_keys]; decide
  have hf := cell_file fgArgs (fin (1e6 * 2e-4)) (by rw [dg_keys]; decide)
  obtain ⟨st, hn, hget, hok, -⟩ := hcal.1 "a.dat" (fin (1e6 * 2e-4)) (fin 35) []
      hf.column hf.name rfl (by simp) hf.salinity hf.good (cell_backcompat _ _ hb)
  obtain ⟨st', hn', hget', hok', -⟩ := hcal.2 "a.dat" (fin (1e6 * 2e-4)) (fin 35) []
      hf.column hf.name rfl (by simp) hf.salinity hf.good (cell_backcompat _ _ hb)
  have h1 := hok _ (dg_calibrate _ ⟨hn (by decide), [], cell_backcompat _ _ hb, hget⟩)
  have h2 := hok' _ (dg_calibrate _ ⟨hn' (by decide), [], cell_backcompat _ _ hb, hget'⟩)
  refine ⟨df', r1, r2, h, hr, ?_⟩
  intro r hr'
  simp only [List.mem_cons, List.not_mem_nil, or_false] at hr'
  rcases hr' with rfl | rfl
  · exact ⟨hdef.1.1.trans (if_neg hbatch), (hdef.1.2.trans (if_neg hrg)).trans (by rw [h1]; rfl), by rw [h1]; rfl⟩
  · exact ⟨hdef.2.1.trans (if_neg hbatch), (hdef.2.2.trans (if_neg hrg)).trans (by rw [h2]; rfl), by rw [h2]; rfl⟩

example : ∃ (df' : DF) (s : BatchStats), dataset_calibrate (calWorld fgP fgQ) []
      ⟨cellCols fgArgs, [cellRow fgArgs (fin (1e6 * 2e-4)), cellRow fgArgs (fin (1e6 * 2e-4))]⟩ = (.ok (), df') ∧
    get_batches id df' = .ok [(.num (fin 0), s)] ∧ s.titrant_molinity = fin 0.05 ∧
    s.titrant_molinity__std = fin 0 ∧ s.titrant_molinity__count = fin 2 := by
  obtain ⟨df', r1, r2, h, hr, hrefs⟩ := bt_two
  have hl : ∀ r ∈ df'.rows, Label (r "analysis_batch") := by
    rw [hr]
    intro r h1
    rw [(hrefs r h1).1]
    exact .inr ⟨_, rfl, by simp⟩
  obtain ⟨hready, bs, hbs, -⟩ := C141_calibrate id (fun _ => .refl _) _ [] _ df' h hl
  obtain ⟨bs', h', hnd, hmem, hst⟩ := C141_table id (fun _ => .refl _) df' hready
  rw [hbs] at h'
  cases h'
  have hlen : (batchRefs df' (.num (fin 0))).length = 2 := by
    unfold batchRefs
    rw [hr, List.filter_eq_self.mpr]
    · rfl
    · intro r h1
      simpa using hrefs r h1
  obtain ⟨s, hs⟩ := (hmem (.num (fin 0))).mpr ⟨r1, by rw [hr]; simp, (hrefs r1 (by simp)).1⟩
  have hkey : ∀ p ∈ bs, p.1 = .num (fin 0) := by
    intro p hp
    obtain ⟨r, h1, h2⟩ := (hmem p.1).mp ⟨p.2, hp⟩
    rw [hr] at h1
    rw [← h2, (hrefs r h1).1]
  have hone : bs = [(.num (fin 0), s)] := by
    match bs, hnd, hs, hkey with
    | [p], _, hs, _ => rw [List.mem_singleton.mp hs]
    | p :: q :: l, hnd, _, hkey =>
      have h1 := hkey p (by simp)
      have h2 := hkey q (by simp)
      simp only [List.map_cons, List.nodup_cons, List.mem_cons, not_or] at hnd
      exact absurd (h1.trans h2.symm) hnd.1.1
  have hx := C141_exact id (fun _ => .refl _) _ [] _ df' (by decide) h hl (fun _ => 0.05)
    (by
      have href : TrueReference (calWorld fgP fgQ) [] (cellCols fgArgs) (cellRow fgArgs (fin (1e6 * 2e-4))) 2e-4
          0.05 := idealGran_reference (dt_byName fgP fgQ) lsqOnce_reports (by norm_num) (dg_ideal _) dg_calibratable
      rw [hr]
      exact .cons (fun _ => ⟨2e-4, href⟩) (.cons (fun _ => ⟨2e-4, href⟩) .nil))
    bs hbs _ s hs
  refine ⟨df', s, h, hone ▸ hbs, hx.1 ?_, hx.2 (by rw [hlen]), ?_⟩
  · intro h0; rw [h0] at hlen; simp at hlen
  · rw [(hst _ s hs).1, hlen]; norm_num

end Calk
