import Verif.Model.Convert
import Verif.Lemmas.Np

/-! Helper lemmas for `convert`: the model on finite inputs. -/

namespace Calk
open Flt

theorem faraday_pos : 0 < faraday := by norm_num [faraday]
theorem ideal_gas_pos : 0 < ideal_gas := by norm_num [ideal_gas]

/-- Nernst slope `R T / F` in mV. -/
noncomputable def nslope (t : ℝ) : ℝ := ideal_gas * (t + absolute_zero) / faraday

theorem nslope_pos {t : ℝ} (ht : -273.15 < t) : 0 < nslope t := by
  unfold nslope
  have h1 : 0 < t + absolute_zero := by unfold absolute_zero; linarith
  exact div_pos (mul_pos ideal_gas_pos h1) faraday_pos

theorem emf_to_h_fin {e e0 t : ℝ} (ht : -273.15 < t) :
    emf_to_h (fin e) (fin e0) (fin t) = fin (Real.exp ((e - e0) / nslope t)) := by
  have h1 : t + absolute_zero ≠ 0 := by unfold absolute_zero; linarith
  have h2 := ideal_gas_pos.ne'
  have h3 := faraday_pos.ne'
  simp only [emf_to_h, add_fin, sub_fin, mul_fin]
  rw [div_fin _ _ (mul_ne_zero h2 h1)]
  simp only [exp_fin, fin_inj, nslope]
  congr 1
  field_simp

theorem emf_to_pH_fin {e e0 t : ℝ} (ht : -273.15 < t) :
    emf_to_pH (fin e) (fin e0) (fin t) = fin (-((e - e0) / (nslope t * Real.log 10))) := by
  rw [emf_to_pH, emf_to_h_fin ht, log10_fin _ (Real.exp_pos _)]
  simp only [neg_fin, fin_inj, neg_inj, Real.logb, Real.log_exp]
  rw [div_div]

theorem h_to_emf_fin {h e0 t : ℝ} (hh : 0 < h) :
    h_to_emf (fin h) (fin e0) (fin t) = fin (e0 + nslope t * Real.log h) := by
  simp only [h_to_emf, log_fin _ hh, add_fin, mul_fin]
  rw [div_fin _ _ faraday_pos.ne']
  simp only [add_fin, fin_inj, nslope]
  ring

theorem pH_to_emf_fin {p e0 t : ℝ} :
    pH_to_emf (fin p) (fin e0) (fin t) = fin (e0 - nslope t * (p * Real.log 10)) := by
  simp only [pH_to_emf, neg_fin, pow10_fin]
  rw [h_to_emf_fin (by positivity), Real.log_rpow (by norm_num)]
  simp only [fin_inj]; ring

theorem f_to_demf0_fin {f t : ℝ} (hf : 0 < f) :
    f_to_demf0 (fin f) (fin t) = fin (nslope t * Real.log f) := by
  simp only [f_to_demf0, log_fin _ hf, add_fin, mul_fin]
  rw [div_fin _ _ faraday_pos.ne']
  simp only [fin_inj, nslope]
  ring

theorem log10_pos : 0 < Real.log 10 := Real.log_pos (by norm_num)

theorem get_dilution_factor_fin {m M : ℝ} (h : m + M ≠ 0) :
    get_dilution_factor (fin m) (fin M) = fin (M / (m + M)) := by
  simp [get_dilution_factor, div_fin _ _ h]

theorem at_scalar (x : Flt) (i : ℕ) : (NpVal.scalar x).at_ i = x := by
  unfold NpVal.at_; rfl

theorem at_arr {xs : List Flt} {i : ℕ} (h : i < xs.length) : (NpVal.arr xs).at_ i = xs[i] := by
  match xs with
  | [] => simp at h
  | [x] =>
    have : i = 0 := by simpa using h
    subst this; simp [NpVal.at_]
  | x :: y :: ys =>
    show List.getD (x :: y :: ys) i Flt.nan = _
    rw [List.getD_eq_getElem?_getD, List.getElem?_eq_getElem h]; rfl

theorem bcast_length (n : ℕ) (v : NpVal) : (v.bcast n).length = n := by simp [NpVal.bcast]

theorem bcast_arr (xs : List Flt) : (NpVal.arr xs).bcast xs.length = xs := by
  apply List.ext_getElem
  · simp [NpVal.bcast]
  · intro i h1 h2
    simp [NpVal.bcast, at_arr h2]

theorem bcast_scalar (n : ℕ) (x : Flt) : (NpVal.scalar x).bcast n = List.replicate n x := by
  apply List.ext_getElem
  · simp [NpVal.bcast]
  · intro i h1 h2; simp [NpVal.bcast, at_scalar]

theorem zipW_ok {f : Flt → Flt → Flt} {v w : NpVal} {xs : List Flt}
    (h : v.zipW f xs = .ok w) :
    v.fits xs.length = true ∧ w = .arr (List.zipWith f (v.bcast xs.length) xs) := by
  unfold NpVal.zipW at h
  split at h
  · rename_i hf
    simp only [Except.ok.injEq] at h
    exact ⟨hf, h.symm⟩
  · simp at h

/-- Value of an element-wise operation at a valid index. -/
theorem zipW_at {f : Flt → Flt → Flt} {v w : NpVal} {xs : List Flt}
    (h : v.zipW f xs = .ok w) {i : ℕ} (hi : i < xs.length) :
    w.at_ i = f (v.at_ i) xs[i] := by
  obtain ⟨-, rfl⟩ := zipW_ok h
  rw [at_arr (by simpa [bcast_length] using hi)]
  simp [NpVal.bcast]

theorem mapValsM_keys {α β : Type} (f : String → α → Py β) (d : Dict α) (e : Dict β)
    (h : Dict.mapValsM f d = .ok e) : e.keys = d.keys := by
  induction d generalizing e with
  | nil =>
    simp only [Dict.mapValsM, Except.ok.injEq] at h
    subst h; rfl
  | cons kv d ih =>
    obtain ⟨k, v⟩ := kv
    simp only [Dict.mapValsM, bind_ok_iff, pure_ok, Except.ok.injEq] at h
    obtain ⟨w, hw, d', hd', rfl⟩ := h
    have := ih _ hd'
    simp only [Dict.keys, List.map_cons] at this ⊢
    rw [this]

theorem mapValsM_get? {α β : Type} (f : String → α → Py β) (d : Dict α) (e : Dict β)
    (h : Dict.mapValsM f d = .ok e) (k : String) :
    (d.get? k = none ∧ e.get? k = none) ∨
      ∃ v w, d.get? k = some v ∧ f k v = .ok w ∧ e.get? k = some w := by
  induction d generalizing e with
  | nil =>
    simp only [Dict.mapValsM, Except.ok.injEq] at h
    subst h; left; simp
  | cons kv d ih =>
    obtain ⟨k', v⟩ := kv
    simp only [Dict.mapValsM, bind_ok_iff, pure_ok, Except.ok.injEq] at h
    obtain ⟨w, hw, d', hd', rfl⟩ := h
    by_cases hk : k' = k
    · subst hk
      right
      exact ⟨v, w, by simp [Dict.get?_cons], hw, by simp [Dict.get?_cons]⟩
    · rcases ih _ hd' with ⟨h1, h2⟩ | ⟨v', w', h1, h2, h3⟩
      · left; simp [Dict.get?_cons, hk, h1, h2]
      · right; exact ⟨v', w', by simp [Dict.get?_cons, hk, h1], h2, by simp [Dict.get?_cons, hk, h3]⟩

/-- All entries fit: the element-wise map succeeds. -/
theorem mapValsM_isOk {α β : Type} (f : String → α → Py β) (d : Dict α)
    (h : ∀ kv ∈ d, ∃ w, f kv.1 kv.2 = .ok w) : ∃ e, Dict.mapValsM f d = .ok e := by
  induction d with
  | nil => exact ⟨[], rfl⟩
  | cons kv d ih =>
    obtain ⟨k, v⟩ := kv
    obtain ⟨w, hw⟩ := h (k, v) (by simp)
    obtain ⟨e, he⟩ := ih (fun kv hkv => h kv (by simp [hkv]))
    exact ⟨(k, w) :: e, by simp only [Dict.mapValsM, bind, Except.bind]; simp only at hw; rw [hw]; simp [he, pure, Except.pure]⟩

theorem zipW_isOk {f : Flt → Flt → Flt} {v : NpVal} {xs : List Flt}
    (h : v.fits xs.length = true) :
    v.zipW f xs = .ok (.arr (List.zipWith f (v.bcast xs.length) xs)) := by
  unfold NpVal.zipW; rw [if_pos h]

@[simp] theorem dilution_factors_length (tm : List Flt) (M : Flt) :
    (dilution_factors tm M).length = tm.length := by simp [dilution_factors]

end Calk
