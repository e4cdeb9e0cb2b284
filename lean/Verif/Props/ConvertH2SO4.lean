import Verif.Props.Convert

/-! # Property C90: PyCO2SYS-style totals with a sulfuric acid titrant -/

namespace Calk
open Flt

/-- The entries that `dilute_totals_pyco2_H2SO4` only dilutes. -/
def dilutedNotSulfate : List String :=
  ["TB", "TF", "TCa", "alpha", "beta", "TPO4", "TSi", "TNH3", "TH2S"]

theorem H2SO4_parts {totals : Dict NpVal} {c : Flt} {tm : List Flt} {M : Flt} {out : Dict NpVal}
    (h : dilute_totals_pyco2_H2SO4 totals c tm M = .ok out) :
    ∃ (d : Dict NpVal) (s s' : NpVal),
      Dict.mapValsM (fun k v => if k ∈ dilutedNotSulfate
        then v.zipW (fun x y => x * y) (dilution_factors tm M) else .ok v) totals = .ok d ∧
      d.get? "TSO4" = some s ∧
      s.zipW (fun x m => (x * M + c * m) / (M + m)) tm = .ok s' ∧ out = d.set "TSO4" s' := by
  unfold dilute_totals_pyco2_H2SO4 at h
  simp only [bind_ok_iff] at h
  obtain ⟨d, hd, s, hs, s', hs', h⟩ := h
  refine ⟨d, s, s', hd, ?_, hs', (Except.ok.inj h).symm⟩
  unfold Dict.get at hs
  split at hs
  · rename_i v hv; rw [hv, Except.ok.inj hs]
  · cases hs

/-- **C90**: apart from the sulfate exactly the nine listed entries are diluted, and everything else
is returned as given. -/
theorem C90_selective (totals : Dict NpVal) (c : Flt) (tm : List Flt) (M : Flt) (out : Dict NpVal)
    (hout : dilute_totals_pyco2_H2SO4 totals c tm M = .ok out) (k : String) (hk : k ≠ "TSO4")
    (v : NpVal) (hv : totals.get? k = some v) : ∃ w, out.get? k = some w ∧
      (k ∈ dilutedNotSulfate →
        ∀ (i : ℕ) (hi : i < tm.length), w.at_ i = v.at_ i * get_dilution_factor tm[i] M) ∧
      (k ∉ dilutedNotSulfate → w = v) := by
  obtain ⟨d, s, s', hd, -, -, rfl⟩ := H2SO4_parts hout
  rcases mapValsM_get? _ _ _ hd k with ⟨h1, -⟩ | ⟨v', w, h1, h2, h3⟩
  · rw [h1] at hv; cases hv
  rw [h1] at hv
  obtain rfl := Option.some.inj hv
  refine ⟨w, by rw [Dict.get?_set, if_neg hk, h3], ?_, ?_⟩
  · intro hm i hi
    rw [if_pos hm] at h2
    rw [zipW_at h2 (by simpa [dilution_factors] using hi)]
    simp [dilution_factors]
  · intro hm
    rw [if_neg hm] at h2
    exact (Except.ok.inj h2).symm

/-- **C90**: the entries of the result are those given. -/
theorem C90_keys (totals : Dict NpVal) (c : Flt) (tm : List Flt) (M : Flt) (out : Dict NpVal)
    (hout : dilute_totals_pyco2_H2SO4 totals c tm M = .ok out) (k : String) :
    (out.get? k).isSome = (totals.get? k).isSome := by
  obtain ⟨d, s, s', hd, hs, -, rfl⟩ := H2SO4_parts hout
  have e : (d.get? k).isSome = (totals.get? k).isSome := by
    rcases mapValsM_get? _ _ _ hd k with ⟨h1, h2⟩ | ⟨v', w, h1, h2, h3⟩
    · rw [h1, h2]
    · rw [h1, h3]; rfl
  rw [Dict.get?_set]
  split
  · rename_i he; subst he; rw [← e, hs]; rfl
  · exact e

/-- **C90**: the sulfate is that of a mixture of the sample with the acid: the amounts of sulfate
add up. -/
theorem C90_sulfate (totals : Dict NpVal) (c : ℝ) (tm : List ℝ) (M : ℝ) (out : Dict NpVal)
    (hout : dilute_totals_pyco2_H2SO4 totals (fin c) (tm.map fin) (fin M) = .ok out) (v : NpVal)
    (hv : totals.get? "TSO4" = some v) (i : ℕ) (hi : i < tm.length) (x : ℝ)
    (hx : v.at_ i = fin x) (hm : M + tm[i] ≠ 0) : ∃ (w : NpVal) (y : ℝ),
      out.get? "TSO4" = some w ∧ w.at_ i = fin y ∧
      (M + tm[i]) * y = M * x + tm[i] * c := by
  obtain ⟨d, s, s', hd, hs, hs', rfl⟩ := H2SO4_parts hout
  have hsv : s = v := by
    rcases mapValsM_get? _ _ _ hd "TSO4" with ⟨h1, -⟩ | ⟨v', w, h1, h2, h3⟩
    · rw [h1] at hv; cases hv
    rw [h1] at hv
    obtain rfl := Option.some.inj hv
    rw [if_neg (by decide)] at h2
    rw [h3] at hs
    rw [← Option.some.inj hs, ← Except.ok.inj h2]
  subst hsv
  refine ⟨s', (x * M + c * tm[i]) / (M + tm[i]), Dict.get?_set_self _ _ _, ?_, by field_simp⟩
  rw [zipW_at hs' (by simpa using hi), hx]
  simp only [List.getElem_map, mul_fin, add_fin]
  exact div_fin _ _ hm

/-- **C90**: without a sulfate entry there is no result. -/
theorem C90_no_sulfate (totals : Dict NpVal) (c : Flt) (tm : List Flt) (M : Flt)
    (hs : totals.get? "TSO4" = none) :
    ∀ out, dilute_totals_pyco2_H2SO4 totals c tm M ≠ .ok out := by
  intro out h
  have hk := C90_keys totals c tm M out h "TSO4"
  obtain ⟨d, s, s', -, -, -, rfl⟩ := H2SO4_parts h
  rw [Dict.get?_set_self, hs] at hk
  cases hk

/-- **C90**: it differs from `dilute_totals_pyco2`, for the same entries, in the sulfate only. -/
theorem C90_vs_plain (totals : Dict NpVal) (c : Flt) (tm : List Flt) (M : Flt) (out out' : Dict NpVal)
    (h : dilute_totals_pyco2_H2SO4 totals c tm M = .ok out)
    (h' : dilute_totals_pyco2 totals tm M = .ok out') (k : String) (hk : k ≠ "TSO4") :
    out.get? k = out'.get? k := by
  obtain ⟨d, s, s', hd, hs, hs', rfl⟩ := H2SO4_parts h
  rw [Dict.get?_set, if_neg hk]
  unfold dilute_totals_pyco2 at h'
  have hkk : k ∈ pyco2_diluted_keys ↔ k ∈ dilutedNotSulfate := by
    simp [pyco2_diluted_keys, dilutedNotSulfate, hk]
  rcases mapValsM_get? _ _ _ hd k with ⟨h1, h2⟩ | ⟨v, w, h1, h2, h3⟩ <;>
    rcases mapValsM_get? _ _ _ h' k with ⟨h1', h2'⟩ | ⟨v', w', h1', h2', h3'⟩
  · rw [h2, h2']
  · rw [h1] at h1'; cases h1'
  · rw [h1] at h1'; cases h1'
  · rw [h1] at h1'
    obtain rfl := Option.some.inj h1'
    by_cases hm : k ∈ dilutedNotSulfate
    · rw [if_pos hm] at h2
      rw [if_pos (hkk.mpr hm), h2] at h2'
      rw [h3, h3', Except.ok.inj h2']
    · rw [if_neg hm] at h2
      rw [if_neg (fun hc => hm (hkk.mp hc)), h2] at h2'
      rw [h3, h3', Except.ok.inj h2']

/-- sea water with 28 mmol/kg sulfate titrated with sulfuric acid -/
example : ∃ out, dilute_totals_pyco2_H2SO4
    [("TB", .scalar (fin 4e-4)), ("TSO4", .scalar (fin 0.028)), ("Sal", .scalar (fin 35))]
    (fin 0.05) ([0, 0.001].map fin) (fin 0.1) = .ok out := by
  exact ⟨_, by with_unfolding_all rfl⟩

end Calk
