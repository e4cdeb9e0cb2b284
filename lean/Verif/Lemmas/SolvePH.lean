import Verif.Lemmas.Arr

/-! Helper lemmas: closed form of `solve_pH`. -/

namespace Calk
open Flt Spec

/-- all point estimates of `solve_pH` -/
noncomputable def phAll (c : Flt) (tm pH : List Flt) (M : Flt) (totals ks : Dict NpVal) (n : Flt) :
    List Flt :=
  List.zipWith (fun a m => point_alkalinity c n M a m) (alkList totals ks 3 pH) tm

noncomputable def phRes (c : Flt) (tm pH : List Flt) (M : Flt) (totals ks : Dict NpVal)
    (o : PHOpts) : SolvePH :=
  { alkalinity := npMean (mask (pH_used pH o.pH_min o.pH_max) (phAll c tm pH M totals ks o.titrant_normality)),
    used := pH_used pH o.pH_min o.pH_max,
    alkalinity_std := npStd (mask (pH_used pH o.pH_min o.pH_max) (phAll c tm pH M totals ks o.titrant_normality)),
    alkalinity_all := phAll c tm pH M totals ks o.titrant_normality }

theorem solve_pH_eq {c : Flt} {tm pH : List Flt} {M : Flt} {totals ks : Dict NpVal} {o : PHOpts}
    (hw : o.pH_min.lt o.pH_max = true) (hk : HasKsN totals ks 3)
    (hf : dictFits pH.length totals = true) (hf' : dictFits pH.length ks = true)
    (hl : tm.length = pH.length) :
    solve_pH c tm pH M totals ks o = .ok (phRes c tm pH M totals ks o) := by
  simp only [solve_pH, pyAssert, hw, if_true, bind_ok, alkalinity_arr_eq (by simp) hk pH hf hf',
    sameShape2, hl, pure_ok]
  rfl

theorem solve_pH_ok {c : Flt} {tm pH : List Flt} {M : Flt} {totals ks : Dict NpVal} {o : PHOpts}
    {r : SolvePH} (h : solve_pH c tm pH M totals ks o = .ok r) :
    o.pH_min.lt o.pH_max = true ∧ HasKsN totals ks 3 ∧ dictFits pH.length totals = true ∧
      dictFits pH.length ks = true ∧ tm.length = pH.length ∧ r = phRes c tm pH M totals ks o := by
  have h0 := h
  unfold solve_pH at h
  simp only [bind_ok_iff] at h
  obtain ⟨_, hw, a, ha, _, hs, -⟩ := h
  have hw' : o.pH_min.lt o.pH_max = true := by
    by_contra hc; simp [pyAssert, hc] at hw
  obtain ⟨-, hk, hf, hf', -⟩ := alkalinity_arr_ok ha
  have hl : tm.length = pH.length := by
    by_contra hc; simp [sameShape2, hc] at hs
  rw [solve_pH_eq hw' hk hf hf' hl] at h0
  exact ⟨hw', hk, hf, hf', hl, by simpa using h0.symm⟩

theorem phAll_length {c : Flt} {tm pH : List Flt} {M : Flt} {totals ks : Dict NpVal} {n : Flt}
    (hl : tm.length = pH.length) : (phAll c tm pH M totals ks n).length = pH.length := by
  simp [phAll, alkList_length, hl]

theorem phAll_getElem {c : Flt} {tm pH : List Flt} {M : Flt} {totals ks : Dict NpVal} {n : Flt}
    {i : ℕ} (h1 : i < pH.length) (h2 : i < tm.length) :
    (phAll c tm pH M totals ks n)[i]'(by simp [phAll, alkList_length, h1, h2])
      = point_alkalinity c n M (alkAt totals ks 3 pH[i] i) tm[i] := by
  simp [phAll, alkList_getElem _ _ _ _ _ h1]

theorem point_alkalinity_fin {c n M a m : ℝ} (hM : M ≠ 0) (hmM : m + M ≠ 0) :
    point_alkalinity (fin c) (fin n) (fin M) (fin a) (fin m)
      = fin (1e6 * (a * (m + M) + m * c * n) / M) := by
  have h : M / (m + M) ≠ 0 := div_ne_zero hM hmM
  simp only [point_alkalinity, get_dilution_factor_fin hmM, mul_fin, add_fin,
    div_fin _ _ hmM, div_fin _ _ h, fin_inj]
  field_simp

/-- rows of a titration are physically valid at every point -/
def ValidRows (totals ks : Dict NpVal) (n : ℕ) : Prop :=
  ∀ i < n, NonnegDict (rowAt totals i) ∧ PosDict (rowAt ks i)

/-- the textbook alkalinity at point `i` and given pH -/
noncomputable def specAlk (totals ks : Dict NpVal) (i : ℕ) (p : ℝ) : ℝ :=
  (Sol.of (rowAt totals i) (rowAt ks i)).alk 3 ((10 : ℝ) ^ (-p))

theorem alkAt_fin {totals ks : Dict NpVal} {n i : ℕ} (hv : ValidRows totals ks n) (hi : i < n)
    (hk : HasKsN totals ks 3) (p : ℝ) :
    alkAt totals ks 3 (fin p) i = fin (specAlk totals ks i p) := by
  obtain ⟨h1, h2⟩ := hv i hi
  simp only [alkAt, alkV, alkalinity_eq_spec (scale := 3) (by simp) h1 h2 (hasKs_rowAt.mpr hk) p, specAlk]

/-- point estimate over the reals -/
noncomputable def ptR (c n M a m : ℝ) : ℝ := 1e6 * (a * (m + M) + m * c * n) / M

/-- all point estimates for real data -/
noncomputable def phAllR (c : ℝ) (tm pH : List ℝ) (M : ℝ) (totals ks : Dict NpVal) (n : ℝ) : List ℝ :=
  List.zipWith (fun pi m => ptR c n M (specAlk totals ks pi.2 pi.1) m) pH.zipIdx tm

theorem phAll_fin {c n M : ℝ} {tm pH : List ℝ} {totals ks : Dict NpVal}
    (hv : ValidRows totals ks pH.length) (hk : HasKsN totals ks 3) (hM : 0 < M)
    (hm : ∀ m ∈ tm, 0 < m + M) :
    phAll (fin c) (tm.map fin) (pH.map fin) (fin M) totals ks (fin n)
      = (phAllR c tm pH M totals ks n).map fin := by
  apply List.ext_getElem
  · simp [phAll, phAllR, alkList_length]
  · intro i h1 h2
    have hi : i < pH.length ∧ i < tm.length := by
      simpa [phAllR] using h2
    rw [phAll_getElem (by simpa using hi.1) (by simpa using hi.2)]
    simp only [List.getElem_map, phAllR, List.getElem_zipWith, List.getElem_zipIdx, Nat.zero_add]
    rw [alkAt_fin hv hi.1 hk, point_alkalinity_fin hM.ne' (hm _ (List.getElem_mem _)).ne']
    rfl

/-- the window test on real data -/
noncomputable def inWin (lo hi : ℝ) (p : ℝ) : Bool := decide (lo ≤ p) && decide (p ≤ hi)

theorem pH_used_fin (pH : List ℝ) (lo hi : ℝ) :
    pH_used (pH.map fin) (fin lo) (fin hi) = pH.map (inWin lo hi) := by
  simp [pH_used, inWin, Function.comp_def]

theorem mask_ne_nil {α : Type} {u : List Bool} {xs : List α} (hl : u.length = xs.length)
    (h : true ∈ u) : mask u xs ≠ [] := by
  induction u generalizing xs with
  | nil => simp at h
  | cons b u ih =>
    cases xs with
    | nil => simp at hl
    | cons x xs =>
      cases b
      · simp at h hl; simpa using ih hl h
      · simp

theorem mask_all_false {α : Type} {u : List Bool} {xs : List α} (h : true ∉ u) :
    mask u xs = [] := by
  induction u generalizing xs with
  | nil => simp
  | cons b u ih =>
    cases xs with
    | nil => simp
    | cons x xs =>
      cases b
      · simp at h; simpa using ih h
      · simp at h

theorem mem_mask {α : Type} {u : List Bool} {xs : List α} {x : α} :
    x ∈ mask u xs ↔ ∃ i, ∃ (h1 : i < u.length) (h2 : i < xs.length), u[i] = true ∧ xs[i] = x := by
  induction u generalizing xs with
  | nil => simp
  | cons b u ih =>
    cases xs with
    | nil => simp
    | cons y ys =>
      have key : (∃ i, ∃ (h1 : i < (b :: u).length) (h2 : i < (y :: ys).length),
          (b :: u)[i] = true ∧ (y :: ys)[i] = x) ↔ (b = true ∧ y = x) ∨
          ∃ i, ∃ (h1 : i < u.length) (h2 : i < ys.length), u[i] = true ∧ ys[i] = x := by
        constructor
        · rintro ⟨i, h1, h2, h3, h4⟩
          cases i with
          | zero => left; exact ⟨by simpa using h3, by simpa using h4⟩
          | succ i => right; exact ⟨i, by simpa using h1, by simpa using h2, by simpa using h3, by simpa using h4⟩
        · rintro (⟨h3, h4⟩ | ⟨i, h1, h2, h3, h4⟩)
          · exact ⟨0, by simp, by simp, by simpa using h3, by simpa using h4⟩
          · exact ⟨i + 1, by simpa using h1, by simpa using h2, by simpa using h3, by simpa using h4⟩
      rw [key, ← ih]
      cases b
      · simp
      · simp [eq_comm]

theorem mask_length_eq {α β : Type} {u : List Bool} {xs : List α} {ys : List β}
    (h : xs.length = ys.length) : (mask u xs).length = (mask u ys).length := by
  induction u generalizing xs ys with
  | nil => simp
  | cons b u ih =>
    cases xs with
    | nil =>
      have : ys = [] := List.length_eq_zero_iff.mp (by simpa using h.symm)
      simp [this]
    | cons x xs =>
      cases ys with
      | nil => simp at h
      | cons y ys => cases b <;> simp [ih (by simpa using h)]

/-- masks agree if the masks are equal and the data agree where the mask is set -/
theorem mask_congr {α : Type} {u : List Bool} {xs ys : List α} (hx : xs.length = u.length)
    (hy : ys.length = u.length)
    (h : ∀ i, (h1 : i < u.length) → u[i] = true → xs[i]'(by omega) = ys[i]'(by omega)) :
    mask u xs = mask u ys := by
  induction u generalizing xs ys with
  | nil => simp
  | cons b u ih =>
    cases xs with
    | nil => simp at hx
    | cons x xs =>
      cases ys with
      | nil => simp at hy
      | cons y ys =>
        have ih' := ih (xs := xs) (ys := ys) (by simpa using hx) (by simpa using hy) (by
          intro i h1 h2
          have := h (i + 1) (by simpa using h1) (by simpa using h2)
          simpa using this)
        cases b
        · simpa using ih'
        · have := h 0 (by simp) (by simp)
          simp at this
          simp [ih', this]

end Calk
