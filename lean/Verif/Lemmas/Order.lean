import Verif.Lemmas.SolveEmf

/-! Helper lemmas: reordering the points of a titration. -/

namespace Calk
open Flt

/-! ## Largest and smallest value -/

theorem fmax2_comm (a b : Flt) : fmax2 a b = fmax2 b a := by
  cases a <;> cases b <;> simp [fmax2, Flt.isNaN, Flt.le]
  rename_i x y
  split <;> split <;> first | rfl | (congr 1; linarith) | linarith

theorem fmax2_fin (x y : ℝ) : fmax2 (fin x) (fin y) = fin (max x y) := by
  unfold fmax2
  simp only [Flt.isNaN, Bool.or_self, Bool.false_eq_true, if_false, le_fin, decide_eq_true_eq]
  split
  · rename_i h; rw [max_eq_right h]
  · rename_i h; rw [max_eq_left (le_of_not_ge h)]

theorem fmin2_fin (x y : ℝ) : fmin2 (fin x) (fin y) = fin (min x y) := by
  unfold fmin2
  simp only [Flt.isNaN, Bool.or_self, Bool.false_eq_true, if_false, le_fin, decide_eq_true_eq]
  split
  · rename_i h; rw [min_eq_left h]
  · rename_i h; rw [min_eq_right (le_of_not_ge h)]

theorem fmax2_assoc (a b c : Flt) : fmax2 (fmax2 a b) c = fmax2 a (fmax2 b c) := by
  cases a <;> cases b <;> cases c <;>
    first
      | (simp only [fmax2_fin, max_assoc]; done)
      | (simp [fmax2, Flt.isNaN, Flt.le]; done)
      | (rw [fmax2_fin]; simp [fmax2, Flt.isNaN, Flt.le]; done)
      | (rw [fmax2_fin]; simp [fmax2, Flt.isNaN, Flt.le]; rw [max_def]; split <;> rfl)

theorem fmin2_comm (a b : Flt) : fmin2 a b = fmin2 b a := by
  cases a <;> cases b <;> first | (simp only [fmin2_fin, min_comm]) | simp [fmin2, Flt.isNaN, Flt.le]

theorem fmin2_assoc (a b c : Flt) : fmin2 (fmin2 a b) c = fmin2 a (fmin2 b c) := by
  cases a <;> cases b <;> cases c <;>
    first
      | (simp only [fmin2_fin, min_assoc]; done)
      | (simp [fmin2, Flt.isNaN, Flt.le]; done)
      | (rw [fmin2_fin]; simp [fmin2, Flt.isNaN, Flt.le]; done)
      | (rw [fmin2_fin]; simp [fmin2, Flt.isNaN, Flt.le]; rw [min_def]; split <;> rfl)

/-- fold from the first value -/
def headFold (f : Flt → Flt → Flt) : List Flt → Option Flt
  | [] => none
  | x :: l => some (l.foldl f x)

theorem foldl_perm_head {f : Flt → Flt → Flt} (hc : ∀ a b, f a b = f b a) (ha : ∀ a b c, f (f a b) c = f a (f b c))
    {xs ys : List Flt} (h : xs.Perm ys) :
    headFold f xs = headFold f ys := by
  have hr : ∀ a b c, f (f a b) c = f (f a c) b := fun a b c => by rw [ha, hc b c, ← ha]
  induction h with
  | nil => rfl
  | cons x h =>
    simp only [headFold, Option.some.injEq]
    exact h.foldl_eq' (fun a _ b _ z => hr z a b) x
  | swap x y l => simp only [headFold, List.foldl_cons, hc y x]
  | trans _ _ h1 h2 => exact h1.trans h2

theorem npMax_perm {xs ys : List Flt} (h : xs.Perm ys) : npMax xs = npMax ys := by
  have := foldl_perm_head fmax2_comm fmax2_assoc h
  cases xs <;> cases ys <;> simp [npMax, headFold] at this ⊢ <;> exact this

theorem npMin_perm {xs ys : List Flt} (h : xs.Perm ys) : npMin xs = npMin ys := by
  have := foldl_perm_head fmin2_comm fmin2_assoc h
  cases xs <;> cases ys <;> simp [npMin, headFold] at this ⊢ <;> exact this

/-! ## Picking points -/

theorem pick_length {α : Type} (d : α) (idx : List ℕ) (xs : List α) : (pick d idx xs).length = idx.length := by
  simp [pick]

theorem pick_perm {α : Type} (d : α) {I J : List ℕ} (h : I.Perm J) (xs : List α) :
    (pick d I xs).Perm (pick d J xs) := h.map _

theorem pick_range {α : Type} (d : α) (xs : List α) : pick d (List.range xs.length) xs = xs :=
  map_range_getD d xs

theorem pick_map {α β : Type} (d : α) (e : β) (f : α → β) (idx : List ℕ) (xs : List α)
    (hi : ∀ i ∈ idx, i < xs.length) : pick e idx (xs.map f) = (pick d idx xs).map f := by
  unfold pick
  rw [List.map_map]
  refine List.map_congr_left fun i hi' => ?_
  have := hi i hi'
  simp [List.getD_eq_getElem?_getD, List.getElem?_eq_getElem this]

theorem pick_zipWith {α β γ : Type} (d : α) (e : β) (z : γ) (f : α → β → γ) (idx : List ℕ) (xs : List α)
    (ys : List β) (hx : ∀ i ∈ idx, i < xs.length) (hy : ∀ i ∈ idx, i < ys.length) :
    pick z idx (List.zipWith f xs ys) = List.zipWith f (pick d idx xs) (pick e idx ys) := by
  unfold pick
  rw [zipWith_map_same]
  refine List.map_congr_left fun i hi' => ?_
  have h1 := hx i hi'
  have h2 := hy i hi'
  simp [List.getD_eq_getElem?_getD, h1, h2]

/-- the points that are selected among the reordered ones -/
def selIdx (idx : List ℕ) (u : List Bool) : List ℕ := idx.filter fun i => u.getD i false

theorem mask_pick {α : Type} (d : α) (idx : List ℕ) (u : List Bool) (xs : List α) :
    mask (pick false idx u) (pick d idx xs) = pick d (selIdx idx u) xs :=
  mask_map_eq_filter_map _ _ _

theorem maskIdx_eq (u : List Bool) : maskIdx u = selIdx (List.range u.length) u := by
  unfold maskIdx selIdx
  conv_lhs => rw [← map_range_getD false u]
  rw [List.length_map, List.length_range]
  exact mask_eq_filter (fun i => u.getD i false) (List.range u.length)

theorem selIdx_perm {idx : List ℕ} {u : List Bool} (h : idx.Perm (List.range u.length)) :
    (selIdx idx u).Perm (maskIdx u) := by
  rw [maskIdx_eq]
  exact h.filter _

theorem linregress_pick {I J : List ℕ} (h : I.Perm J) (x y : List Flt) :
    linregress (pick nan I x) (pick nan I y) = linregress (pick nan J x) (pick nan J y) := by
  have hx := pick_perm nan h x
  have hy := pick_perm nan h y
  have hxm := npMean_perm hx
  have hym := npMean_perm hy
  have h1 : npMean ((pick nan I x).map fun a => Flt.sq (a - npMean (pick nan I x)))
      = npMean ((pick nan J x).map fun a => Flt.sq (a - npMean (pick nan J x))) := by
    rw [hxm]; exact npMean_perm (hx.map _)
  have h2 : npMean ((pick nan I y).map fun a => Flt.sq (a - npMean (pick nan I y)))
      = npMean ((pick nan J y).map fun a => Flt.sq (a - npMean (pick nan J y))) := by
    rw [hym]; exact npMean_perm (hy.map _)
  have h3 : npMean (List.zipWith (fun a b => (a - npMean (pick nan I x)) * (b - npMean (pick nan I y)))
        (pick nan I x) (pick nan I y))
      = npMean (List.zipWith (fun a b => (a - npMean (pick nan J x)) * (b - npMean (pick nan J y)))
        (pick nan J x) (pick nan J y)) := by
    rw [hxm, hym]
    unfold pick
    rw [zipWith_map_same, zipWith_map_same]
    exact npMean_perm (h.map _)
  unfold linregress
  simp only [h1, h2, h3]
  simp only [pick_length, npMax_perm hx, npMin_perm hx, hxm, hym, h.length_eq]

/-- a reordered list is a choice of indices -/
theorem exists_idx_of_perm {α : Type} (d : α) {xs ys : List α} (h : ys.Perm xs) :
    ∃ σ, σ.Perm (List.range xs.length) ∧ ys = pick d σ xs := by
  induction h with
  | nil => exact ⟨[], .refl _, rfl⟩
  | cons x _ ih =>
    rename_i l l' _
    obtain ⟨σ, h1, h2⟩ := ih
    refine ⟨0 :: σ.map Nat.succ, ?_, ?_⟩
    · rw [List.length_cons, List.range_succ_eq_map]
      exact (h1.map _).cons 0
    · unfold pick at h2 ⊢
      rw [List.map_cons, List.map_map, h2]
      simp [Function.comp_def]
  | swap x y l =>
    refine ⟨1 :: 0 :: (List.range l.length).map fun i => i + 2, ?_, ?_⟩
    · rw [List.length_cons, List.length_cons, List.range_succ_eq_map, List.range_succ_eq_map]
      rw [List.map_cons, List.map_map]
      exact List.Perm.swap _ _ _
    · unfold pick
      rw [List.map_cons, List.map_cons, List.map_map]
      have := map_range_getD d l
      simp only [Function.comp_def]
      conv_lhs => rw [← this]
      simp
  | trans h1 h2 ih1 ih2 =>
    rename_i l1 l2 l3
    obtain ⟨σ, a1, a2⟩ := ih1
    obtain ⟨τ, b1, b2⟩ := ih2
    have hl : l2.length = τ.length := by rw [b2, pick_length]
    refine ⟨pick 0 σ τ, ?_, ?_⟩
    · refine (pick_perm 0 a1 τ).trans ?_
      rw [hl, pick_range]
      exact b1
    · rw [a2, b2]
      unfold pick
      rw [List.map_map]
      refine List.map_congr_left fun i hi => ?_
      have : i < τ.length := by
        have := a1.mem_iff.mp hi
        rw [hl] at this
        simpa using this
      simp [List.getD_eq_getElem?_getD, List.getElem?_eq_getElem this]

theorem pick_pick {α : Type} (d : α) (σ I : List ℕ) (xs : List α) (h : ∀ i ∈ σ, i < I.length) :
    pick d (pick 0 σ I) xs = pick d σ (pick d I xs) := by
  unfold pick
  rw [List.map_map]
  refine List.map_congr_left fun i hi => ?_
  have := h i hi
  simp [List.getD_eq_getElem?_getD, List.getElem?_eq_getElem this]

end Calk
