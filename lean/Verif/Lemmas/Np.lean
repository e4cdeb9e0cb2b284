import Verif.Py

/-! Helper lemmas: numpy-like operations on finite data agree with real arithmetic. -/

namespace Calk

open Flt

/-- A Python call sequence succeeds iff both parts do. -/
theorem bind_ok_iff {α β : Type} {x : Py α} {f : α → Py β} {b : β} :
    (x >>= f) = .ok b ↔ ∃ a, x = .ok a ∧ f a = .ok b := by
  cases x <;> simp [bind, Except.bind]

theorem bind_ok {α β : Type} (a : α) (f : α → Py β) : ((.ok a : Py α) >>= f) = f a := rfl
theorem bind_error {α β : Type} (e : PyErr) (f : α → Py β) :
    ((.error e : Py α) >>= f) = .error e := rfl
theorem pure_ok {α : Type} (a : α) : (pure a : Py α) = .ok a := rfl

theorem fpos_cast {n : ℕ} (h : n ≠ 0) : (n : ℝ) ≠ 0 := by exact_mod_cast h

@[simp] theorem npSum_nil : npSum [] = fin 0 := rfl
theorem npSum_cons (x : Flt) (xs : List Flt) : npSum (x :: xs) = x + npSum xs := by
  simp [npSum]

theorem npSum_append (xs ys : List Flt) : npSum (xs ++ ys) = npSum xs + npSum ys := by
  simp [npSum]

@[simp] theorem npSum_map_fin (xs : List ℝ) : npSum (xs.map fin) = fin xs.sum := by
  induction xs with
  | nil => rfl
  | cons x xs ih => simp [npSum_cons, ih]

/-- Mean of a list of reals. -/
noncomputable def rmean (xs : List ℝ) : ℝ := xs.sum / xs.length

theorem npMean_map_fin (xs : List ℝ) (h : xs ≠ []) : npMean (xs.map fin) = fin (rmean xs) := by
  have : (xs.length : ℝ) ≠ 0 := by
    have := List.length_pos_iff.mpr h
    positivity
  simp [npMean, rmean, div_fin _ _ this]

@[simp] theorem npMean_nil : npMean [] = nan := by
  simp [npMean]
  show (if (0:ℝ) = 0 then infMul 0 else _) = _
  simp [infMul]

theorem npSum_perm {xs ys : List Flt} (h : xs.Perm ys) : npSum xs = npSum ys := h.sum_eq

theorem npMean_perm {xs ys : List Flt} (h : xs.Perm ys) : npMean xs = npMean ys := by
  unfold npMean; rw [npSum_perm h, h.length_eq]

theorem npStd_perm {xs ys : List Flt} (h : xs.Perm ys) : npStd xs = npStd ys := by
  unfold npStd
  rw [npMean_perm h]
  exact congrArg _ (npMean_perm (h.map _))

/-- Population standard deviation of a list of reals. -/
noncomputable def rstd (xs : List ℝ) : ℝ :=
  Real.sqrt (rmean (xs.map fun x => (x - rmean xs) ^ 2))

theorem rmean_nonneg {xs : List ℝ} (h : ∀ x ∈ xs, 0 ≤ x) : 0 ≤ rmean xs := by
  unfold rmean
  exact div_nonneg (List.sum_nonneg h) (Nat.cast_nonneg _)

theorem npStd_map_fin (xs : List ℝ) (h : xs ≠ []) : npStd (xs.map fin) = fin (rstd xs) := by
  unfold npStd
  rw [npMean_map_fin xs h]
  have : (xs.map fin).map (fun x => sq (x - fin (rmean xs)))
      = (xs.map fun x => (x - rmean xs) ^ 2).map fin := by
    simp [Function.comp_def]
  rw [this, npMean_map_fin _ (by simpa using h), sqrt_fin]
  · rfl
  · apply rmean_nonneg
    intro x hx
    simp only [List.mem_map] at hx
    obtain ⟨y, -, rfl⟩ := hx
    positivity

@[simp] theorem npStd_nil : npStd [] = nan := by simp [npStd, Flt.sqrt]

theorem rmean_const (xs : List ℝ) (a : ℝ) (h : xs ≠ []) (hx : ∀ x ∈ xs, x = a) :
    rmean xs = a := by
  have hl : (xs.length : ℝ) ≠ 0 := by
    have := List.length_pos_iff.mpr h
    positivity
  have : xs = List.replicate xs.length a := List.eq_replicate_iff.mpr ⟨rfl, hx⟩
  unfold rmean
  have hs : xs.sum = xs.length * a := by
    conv_lhs => rw [this]
    simp
  rw [hs]; field_simp

theorem rstd_const (xs : List ℝ) (a : ℝ) (h : xs ≠ []) (hx : ∀ x ∈ xs, x = a) :
    rstd xs = 0 := by
  unfold rstd
  rw [rmean_const xs a h hx]
  rw [rmean_const _ 0 (by simpa using h)]
  · simp
  · intro y hy
    simp only [List.mem_map] at hy
    obtain ⟨z, hz, rfl⟩ := hy
    simp [hx z hz]

theorem rmean_le (xs : List ℝ) (b : ℝ) (h : xs ≠ []) (hx : ∀ x ∈ xs, x ≤ b) : rmean xs ≤ b := by
  have hl : (0 : ℝ) < xs.length := by
    have := List.length_pos_iff.mpr h
    positivity
  unfold rmean
  rw [div_le_iff₀ hl]
  have := List.sum_le_card_nsmul xs b hx
  simpa [mul_comm] using this

theorem le_rmean (xs : List ℝ) (b : ℝ) (h : xs ≠ []) (hx : ∀ x ∈ xs, b ≤ x) : b ≤ rmean xs := by
  have hl : (0 : ℝ) < xs.length := by
    have := List.length_pos_iff.mpr h
    positivity
  unfold rmean
  rw [le_div_iff₀ hl]
  have := List.card_nsmul_le_sum xs b hx
  simpa [mul_comm] using this

/-! masks -/

variable {α β γ : Type}

@[simp] theorem mask_nil (xs : List α) : mask [] xs = [] := by simp [mask]
@[simp] theorem mask_nil_right (u : List Bool) : mask u ([] : List α) = [] := by simp [mask]
@[simp] theorem mask_cons_true (u : List Bool) (x : α) (xs : List α) :
    mask (true :: u) (x :: xs) = x :: mask u xs := by simp [mask]
@[simp] theorem mask_cons_false (u : List Bool) (x : α) (xs : List α) :
    mask (false :: u) (x :: xs) = mask u xs := by simp [mask]

theorem mask_subset {α : Type} (u : List Bool) (xs : List α) : mask u xs ⊆ xs := by
  intro y hy
  simp only [mask, List.mem_map, List.mem_filter] at hy
  obtain ⟨⟨b, a⟩, ⟨h, -⟩, rfl⟩ := hy
  exact (List.of_mem_zip h).2

theorem true_mem_of_mask {α : Type} {u : List Bool} {xs : List α} {x : α} (h : x ∈ mask u xs) :
    true ∈ u := by
  induction u generalizing xs with
  | nil => simp [mask] at h
  | cons b u ih =>
    cases xs with
    | nil => simp [mask] at h
    | cons y l =>
      cases b with
      | true => exact List.mem_cons_self ..
      | false =>
        rw [mask_cons_false] at h
        exact List.mem_cons_of_mem _ (ih h)

theorem mask_map (f : α → β) (u : List Bool) (xs : List α) :
    mask u (xs.map f) = (mask u xs).map f := by
  induction u generalizing xs with
  | nil => simp
  | cons b u ih =>
    cases xs with
    | nil => simp
    | cons x xs => cases b <;> simp [ih]

theorem mask_zipWith (f : α → β → γ) (u : List Bool) (xs : List α) (ys : List β) :
    mask u (List.zipWith f xs ys) = List.zipWith f (mask u xs) (mask u ys) := by
  induction u generalizing xs ys with
  | nil => simp
  | cons b u ih =>
    cases xs with
    | nil => simp
    | cons x xs =>
      cases ys with
      | nil => simp
      | cons y ys => cases b <;> simp [ih]

/-- Selecting with a mask computed from the data is filtering. -/
theorem mask_eq_filter (p : α → Bool) (xs : List α) : mask (xs.map p) xs = xs.filter p := by
  induction xs with
  | nil => simp
  | cons x xs ih => cases h : p x <;> simp [h, ih]

theorem mask_map_eq_filter_map (p : α → Bool) (f : α → β) (xs : List α) :
    mask (xs.map p) (xs.map f) = (xs.filter p).map f := by
  rw [mask_map, mask_eq_filter]

theorem mem_of_mem_mask {u : List Bool} {xs : List α} {x : α} (h : x ∈ mask u xs) : x ∈ xs := by
  induction u generalizing xs with
  | nil => simp at h
  | cons b u ih =>
    cases xs with
    | nil => simp at h
    | cons y ys =>
      cases b
      · simp at h; exact List.mem_cons_of_mem _ (ih h)
      · simp at h
        rcases h with rfl | h
        · simp
        · exact List.mem_cons_of_mem _ (ih h)

/-- Lists of real numbers behind lists of finite floats. -/
theorem exists_real_list (xs : List Flt) (h : ∀ x ∈ xs, ∃ r, x = fin r) :
    ∃ rs : List ℝ, xs = rs.map fin := by
  induction xs with
  | nil => exact ⟨[], rfl⟩
  | cons x xs ih =>
    obtain ⟨r, rfl⟩ := h x (by simp)
    obtain ⟨rs, rfl⟩ := ih (fun y hy => h y (by simp [hy]))
    exact ⟨r :: rs, rfl⟩

theorem zipWith_map_same (f : β → γ → δ) (g : α → β) (h : α → γ) (xs : List α) :
    List.zipWith f (xs.map g) (xs.map h) = xs.map fun x => f (g x) (h x) := by
  induction xs with
  | nil => rfl
  | cons x xs ih => simp [ih]

end Calk
