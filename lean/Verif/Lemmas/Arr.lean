import Verif.Model.Core
import Verif.Props.Simulate

/-! Helper lemmas: `alkalinity` on arrays in closed form, and selecting points. -/

namespace Calk
open Flt Spec

/-- every total that is present has its constants (dicts of arrays) -/
def HasKsN (totals ks : Dict NpVal) (scale : ℕ) : Prop :=
  ∀ tk ∈ requiredKs scale, totals.has tk.1 = true → ks.has tk.2 = true

theorem rowAt_get? (d : Dict NpVal) (i : ℕ) (k : String) :
    (rowAt d i).get? k = (d.get? k).map fun v => v.at_ i := by
  simp [rowAt, Dict.get?_mapKV]

theorem rowAt_has (d : Dict NpVal) (i : ℕ) (k : String) : (rowAt d i).has k = d.has k := by
  simp [Dict.has, rowAt_get?]

theorem hasKs_rowAt {totals ks : Dict NpVal} {scale i j : ℕ} :
    HasKs (rowAt totals i) (rowAt ks j) scale ↔ HasKsN totals ks scale := by
  simp only [HasKs, HasKsN, rowAt_has]

/-- the value of `alkalinity`, NaN where it raises -/
noncomputable def alkV (p : Flt) (totals ks : Dict Flt) (scale : ℕ) : Flt :=
  match alkalinity p totals ks scale with
  | .ok a => a
  | .error _ => nan

theorem alk_eq_alkV {p : Flt} {totals ks : Dict Flt} {scale : ℕ} (hs : scale ∈ [1, 2, 3])
    (h : HasKs totals ks scale) : alkalinity p totals ks scale = .ok (alkV p totals ks scale) := by
  obtain ⟨a, ha⟩ := (C11_succeeds_iff p totals ks scale hs).mpr h
  simp [alkV, ha]

/-- alkalinity at point `i` -/
noncomputable def alkAt (totals ks : Dict NpVal) (scale : ℕ) (p : Flt) (i : ℕ) : Flt :=
  alkV p (rowAt totals i) (rowAt ks i) scale

theorem alkalinity_from_eq {totals ks : Dict NpVal} {scale : ℕ} (hs : scale ∈ [1, 2, 3])
    (h : HasKsN totals ks scale) (pH : List Flt) (i : ℕ) :
    alkalinity_from totals ks scale i pH
      = .ok ((pH.zipIdx i).map fun pi => alkAt totals ks scale pi.1 pi.2) := by
  induction pH generalizing i with
  | nil => rfl
  | cons p ps ih =>
    simp only [alkalinity_from, alk_eq_alkV hs (hasKs_rowAt.mpr h), ih, bind_ok, pure_ok,
      List.zipIdx_cons, List.map_cons]
    rfl

/-- closed form of `alkalinity` on arrays -/
noncomputable def alkList (totals ks : Dict NpVal) (scale : ℕ) (pH : List Flt) : List Flt :=
  pH.zipIdx.map fun pi => alkAt totals ks scale pi.1 pi.2

theorem alkList_length (totals ks : Dict NpVal) (scale : ℕ) (pH : List Flt) :
    (alkList totals ks scale pH).length = pH.length := by simp [alkList]

theorem alkList_getElem (totals ks : Dict NpVal) (scale : ℕ) (pH : List Flt) (i : ℕ)
    (h : i < pH.length) :
    (alkList totals ks scale pH)[i]'(by simpa [alkList] using h) = alkAt totals ks scale pH[i] i := by
  simp [alkList]

/-- What `alkalinity` on arrays does: `AssertionError` for a bad scale, `KeyError` for a missing
constant, `ValueError` for a bad shape, otherwise the point values. -/
theorem alkalinity_arr_eq {totals ks : Dict NpVal} {scale : ℕ} (hs : scale ∈ [1, 2, 3])
    (h : HasKsN totals ks scale) (pH : List Flt) (hf : dictFits pH.length totals = true)
    (hf' : dictFits pH.length ks = true) :
    alkalinity_arr pH totals ks scale = .ok (alkList totals ks scale pH) := by
  simp only [alkalinity_arr, alk_eq_alkV hs (hasKs_rowAt.mpr h), bind_ok, hf, hf',
    alkalinity_from_eq hs h]
  rfl

theorem alkalinity_arr_ok {totals ks : Dict NpVal} {scale : ℕ} {pH a : List Flt}
    (h : alkalinity_arr pH totals ks scale = .ok a) :
    scale ∈ [1, 2, 3] ∧ HasKsN totals ks scale ∧ dictFits pH.length totals = true ∧
      dictFits pH.length ks = true ∧ a = alkList totals ks scale pH := by
  have hs : scale ∈ [1, 2, 3] := by
    by_contra hs
    simp [alkalinity_arr, C11_bad_scale _ _ _ _ hs, bind_error] at h
  have hk : HasKsN totals ks scale := by
    by_contra hk
    obtain ⟨t, k, -, -, -, he⟩ := C11_missing_constant (fin 7) (rowAt totals 0) (rowAt ks 0) scale
      hs (fun hh => hk (hasKs_rowAt.mp hh))
    simp [alkalinity_arr, he, bind_error] at h
  have hf : dictFits pH.length totals = true ∧ dictFits pH.length ks = true := by
    by_contra hf
    have : (dictFits pH.length totals && dictFits pH.length ks) = false := by
      simpa [Bool.and_eq_true, ← Bool.not_eq_true] using hf
    simp only [alkalinity_arr, alk_eq_alkV hs (hasKs_rowAt.mpr hk), bind_ok, this] at h
    simp [bind, Except.bind] at h
  rw [alkalinity_arr_eq hs hk pH hf.1 hf.2] at h
  exact ⟨hs, hk, hf.1, hf.2, by simpa using h.symm⟩

/-! ## selecting / reordering points -/

/-- take the points with the given indices -/
noncomputable def NpVal.reindex (idx : List ℕ) : NpVal → NpVal
  | .scalar x => .scalar x
  | .arr xs => if xs.length ≤ 1 then .arr xs else .arr (idx.map fun i => xs.getD i nan)

noncomputable def reindexD (idx : List ℕ) (d : Dict NpVal) : Dict NpVal :=
  d.mapKV fun _ v => v.reindex idx

def pick {α : Type} (d : α) (idx : List ℕ) (xs : List α) : List α := idx.map fun i => xs.getD i d

theorem reindex_at {n : ℕ} {v : NpVal} (hv : v.fits n = true) {idx : List ℕ} {j : ℕ}
    (hj : j < idx.length) (hidx : ∀ i ∈ idx, i < n) :
    (v.reindex idx).at_ j = v.at_ idx[j] := by
  cases v with
  | scalar x => simp [NpVal.reindex, at_scalar]
  | arr xs =>
    by_cases h1 : xs.length ≤ 1
    · simp only [NpVal.reindex, h1, if_true]
      match xs, h1 with
      | [], _ => simp [NpVal.at_]
      | [x], _ => simp [NpVal.at_]
    · simp only [NpVal.reindex, h1, if_false]
      have hn : xs.length = n := by
        simp only [NpVal.fits, Bool.or_eq_true, beq_iff_eq] at hv
        omega
      have hi : idx[j] < xs.length := by rw [hn]; exact hidx _ (List.getElem_mem _)
      rw [at_arr (by simpa using hj), at_arr hi]
      simp [List.getD_eq_getElem?_getD, List.getElem?_eq_getElem hi]

theorem rowAt_reindex {n : ℕ} {d : Dict NpVal} (hd : dictFits n d = true) {idx : List ℕ} {j : ℕ}
    (hj : j < idx.length) (hidx : ∀ i ∈ idx, i < n) :
    rowAt (reindexD idx d) j = rowAt d idx[j] := by
  simp only [rowAt, reindexD, Dict.mapKV, List.map_map]
  apply List.map_congr_left
  intro kv hkv
  simp only [dictFits, List.all_eq_true] at hd
  simp only [Function.comp_def, reindex_at (hd kv hkv) hj hidx]

theorem reindex_fits {n : ℕ} {v : NpVal} (hv : v.fits n = true) {idx : List ℕ} (hn : n = 0 → idx = []) :
    (v.reindex idx).fits idx.length = true := by
  cases v with
  | scalar x => rfl
  | arr xs =>
    by_cases h1 : xs.length ≤ 1
    · simp only [NpVal.reindex, h1, if_true]
      simp only [NpVal.fits, Bool.or_eq_true, beq_iff_eq] at hv ⊢
      rcases hv with hv | hv
      · match xs, h1 with
        | [], _ => left; rw [hn (by simpa using hv.symm)]; rfl
        | [x], _ => right; rfl
      · right; exact hv
    · simp [NpVal.reindex, h1, NpVal.fits]

theorem reindexD_fits {n : ℕ} {d : Dict NpVal} (hd : dictFits n d = true) {idx : List ℕ}
    (hn : n = 0 → idx = []) : dictFits idx.length (reindexD idx d) = true := by
  simp only [dictFits, List.all_eq_true, reindexD, Dict.mapKV, List.mem_map] at hd ⊢
  rintro _ ⟨kv, hkv, rfl⟩
  exact reindex_fits (hd kv hkv) hn

theorem reindexD_has (idx : List ℕ) (d : Dict NpVal) (k : String) :
    (reindexD idx d).has k = d.has k := by
  simp [Dict.has, reindexD, Dict.get?_mapKV]

theorem hasKsN_reindex {idx : List ℕ} {totals ks : Dict NpVal} {scale : ℕ} :
    HasKsN (reindexD idx totals) (reindexD idx ks) scale ↔ HasKsN totals ks scale := by
  simp only [HasKsN, reindexD_has]

/-- alkalinity commutes with selecting points -/
theorem alkList_reindex {totals ks : Dict NpVal} {scale : ℕ} {pH : List Flt} {idx : List ℕ}
    (ht : dictFits pH.length totals = true) (hk : dictFits pH.length ks = true)
    (hidx : ∀ i ∈ idx, i < pH.length) :
    alkList (reindexD idx totals) (reindexD idx ks) scale (pick nan idx pH)
      = pick nan idx (alkList totals ks scale pH) := by
  apply List.ext_getElem
  · simp [alkList, pick]
  · intro j h1 h2
    have hj : j < idx.length := by simpa [pick] using h2
    have hi : idx[j] < pH.length := hidx _ (List.getElem_mem _)
    rw [alkList_getElem _ _ _ _ _ (by simpa [pick] using hj)]
    simp only [pick, List.getElem_map, alkAt]
    rw [rowAt_reindex ht hj hidx, rowAt_reindex hk hj hidx]
    have e1 : pH.getD idx[j] nan = pH[idx[j]] := by
      simp [List.getD_eq_getElem?_getD, List.getElem?_eq_getElem hi]
    have e2 : (alkList totals ks scale pH).getD idx[j] nan = alkAt totals ks scale pH[idx[j]] idx[j] := by
      rw [List.getD_eq_getElem?_getD, List.getElem?_eq_getElem (by simpa [alkList_length] using hi),
        Option.getD_some, alkList_getElem _ _ _ _ _ hi]
    rw [e1, e2]
    rfl

/-- indices selected by a mask -/
def maskIdx (used : List Bool) : List ℕ := mask used (List.range used.length)

theorem maskIdx_lt {used : List Bool} {i : ℕ} (h : i ∈ maskIdx used) : i < used.length := by
  simpa using mem_of_mem_mask h

theorem map_range_getD {α : Type} (d : α) (xs : List α) :
    (List.range xs.length).map (fun i => xs.getD i d) = xs := by
  apply List.ext_getElem
  · simp
  · intro i h1 h2
    simp [List.getD_eq_getElem?_getD, List.getElem?_eq_getElem h2]

theorem mask_eq_pick {α : Type} (d : α) (used : List Bool) (xs : List α)
    (h : xs.length = used.length) : mask used xs = pick d (maskIdx used) xs := by
  unfold pick maskIdx
  rw [← mask_map, ← h, map_range_getD]

theorem maskIf_eq {used : List Bool} {v : NpVal} (hv : v.fits used.length = true) :
    v.maskIf used = .ok (v.reindex (maskIdx used)) := by
  cases v with
  | scalar x => simp [NpVal.maskIf, NpVal.size, NpVal.reindex]
  | arr xs =>
    by_cases h1 : xs.length ≤ 1
    · have : ¬ (1 < xs.length) := by omega
      simp [NpVal.maskIf, NpVal.size, NpVal.reindex, h1, this]
    · have hn : xs.length = used.length := by
        simp only [NpVal.fits, Bool.or_eq_true, beq_iff_eq] at hv
        omega
      have h2 : (NpVal.arr xs).size > 1 := by simp only [NpVal.size]; omega
      unfold NpVal.maskIf
      rw [if_pos h2]
      simp only [if_pos hn]
      rw [mask_eq_pick nan used xs hn]
      simp [NpVal.reindex, h1, pick]

theorem maskDict_eq {used : List Bool} {d : Dict NpVal} (hd : dictFits used.length d = true) :
    maskDict used d = .ok (reindexD (maskIdx used) d) := by
  unfold maskDict reindexD
  induction d with
  | nil => rfl
  | cons kv d ih =>
    obtain ⟨k, v⟩ := kv
    simp only [dictFits, List.all_cons, Bool.and_eq_true] at hd
    simp only [Dict.mapValsM, maskIf_eq hd.1, ih hd.2, bind_ok, pure_ok]
    rfl

/-- alkalinity on the masked data is the mask of the alkalinities -/
theorem alkalinity_arr_masked {totals ks : Dict NpVal} {used : List Bool} {pH : List Flt}
    {scale : ℕ} (hs : scale ∈ [1, 2, 3]) (h : HasKsN totals ks scale)
    (hl : pH.length = used.length)
    (ht : dictFits pH.length totals = true) (hk : dictFits pH.length ks = true) :
    alkalinity_arr (mask used pH) (reindexD (maskIdx used) totals) (reindexD (maskIdx used) ks)
      scale = .ok (mask used (alkList totals ks scale pH)) := by
  rw [mask_eq_pick nan used pH hl]
  have hlen : (pick nan (maskIdx used) pH).length = (maskIdx used).length := by simp [pick]
  have h0 : pH.length = 0 → maskIdx used = [] := by
    intro h0; rw [hl] at h0
    have : used = [] := List.length_eq_zero_iff.mp h0
    simp [this, maskIdx]
  rw [alkalinity_arr_eq hs (hasKsN_reindex.mpr h) _ (by rw [hlen]; exact reindexD_fits ht h0)
    (by rw [hlen]; exact reindexD_fits hk h0)]
  rw [alkList_reindex ht hk (fun i hi => by rw [hl]; exact maskIdx_lt hi)]
  rw [← mask_eq_pick nan used _ (by rw [alkList_length]; exact hl)]

end Calk
