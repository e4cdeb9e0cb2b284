import Verif.Lemmas.Convert

/-!
# Properties C01-C06: unit conversions and dilution

Every theorem is about the model functions of `calkulate/convert.py`; finite inputs are
written `fin x`.
-/

namespace Calk
open Flt

/-! ## C01 -/

/-- C01: pH -> EMF -> pH is the identity. -/
theorem C01_pH_emf_pH (p e0 t : ℝ) (ht : -273.15 < t) :
    emf_to_pH (pH_to_emf (fin p) (fin e0) (fin t)) (fin e0) (fin t) = fin p := by
  rw [pH_to_emf_fin, emf_to_pH_fin ht]
  have := (nslope_pos ht).ne'
  have := log10_pos.ne'
  simp only [fin_inj]
  field_simp
  ring

/-- C01: EMF -> pH -> EMF is the identity. -/
theorem C01_emf_pH_emf (e e0 t : ℝ) (ht : -273.15 < t) :
    pH_to_emf (emf_to_pH (fin e) (fin e0) (fin t)) (fin e0) (fin t) = fin e := by
  rw [emf_to_pH_fin ht, pH_to_emf_fin]
  have := (nslope_pos ht).ne'
  have := log10_pos.ne'
  simp only [fin_inj]
  field_simp
  ring

/-- C01: [H+] -> EMF -> [H+] is the identity for positive [H+]. -/
theorem C01_h_emf_h (h e0 t : ℝ) (hh : 0 < h) (ht : -273.15 < t) :
    emf_to_h (h_to_emf (fin h) (fin e0) (fin t)) (fin e0) (fin t) = fin h := by
  rw [h_to_emf_fin hh, emf_to_h_fin ht]
  have := (nslope_pos ht).ne'
  simp only [fin_inj]
  rw [show e0 + nslope t * Real.log h - e0 = nslope t * Real.log h by ring,
    mul_div_cancel_left₀ _ this, Real.exp_log hh]

/-- C01: EMF -> [H+] -> EMF is the identity. -/
theorem C01_emf_h_emf (e e0 t : ℝ) (ht : -273.15 < t) :
    h_to_emf (emf_to_h (fin e) (fin e0) (fin t)) (fin e0) (fin t) = fin e := by
  rw [emf_to_h_fin ht, h_to_emf_fin (Real.exp_pos _)]
  have := (nslope_pos ht).ne'
  simp only [fin_inj, Real.log_exp]
  rw [mul_div_cancel₀ _ this]; ring

/-- C01: the conversion is the Nernst equation with the CODATA-style constants of
`constants.py`: `[H+] = exp((E - E0) F / (R T))`. -/
theorem C01_nernst (e e0 t : ℝ) (ht : -273.15 < t) :
    emf_to_h (fin e) (fin e0) (fin t)
      = fin (Real.exp ((e - e0) * 96.4853365 / (8.3144621 * (t + 273.15)))) := by
  rw [emf_to_h_fin ht]
  have h1 : t + 273.15 ≠ 0 := by linarith
  simp only [fin_inj, nslope, ideal_gas, faraday, absolute_zero]
  congr 1
  field_simp

example : emf_to_pH (pH_to_emf (fin 3.7) (fin 660) (fin 25)) (fin 660) (fin 25) = fin 3.7 :=
  C01_pH_emf_pH 3.7 660 25 (by norm_num)
/-- The hypothesis is needed: at absolute zero the conversion is not invertible. -/
example : emf_to_h (fin 0) (fin 0) (fin (-273.15)) = nan := by
  simp [emf_to_h, absolute_zero]
  show Flt.exp (if (0:ℝ) = 0 then infMul 0 else _) = _
  simp [infMul, Flt.exp]

/-! ## C02 -/

/-- C02: a larger EMF gives a strictly smaller pH. -/
theorem C02_pH_strictAnti (e₁ e₂ e0 t : ℝ) (ht : -273.15 < t) (h : e₁ < e₂) :
    ∃ p₁ p₂ : ℝ, emf_to_pH (fin e₁) (fin e0) (fin t) = fin p₁ ∧
      emf_to_pH (fin e₂) (fin e0) (fin t) = fin p₂ ∧ p₂ < p₁ := by
  refine ⟨_, _, emf_to_pH_fin ht, emf_to_pH_fin ht, ?_⟩
  have : 0 < nslope t * Real.log 10 := mul_pos (nslope_pos ht) log10_pos
  apply neg_lt_neg
  apply div_lt_div_of_pos_right _ this
  linarith

/-- C02: [H+] is positive and strictly larger for a larger EMF. -/
theorem C02_h_strictMono (e₁ e₂ e0 t : ℝ) (ht : -273.15 < t) (h : e₁ < e₂) :
    ∃ h₁ h₂ : ℝ, emf_to_h (fin e₁) (fin e0) (fin t) = fin h₁ ∧
      emf_to_h (fin e₂) (fin e0) (fin t) = fin h₂ ∧ 0 < h₁ ∧ h₁ < h₂ := by
  refine ⟨_, _, emf_to_h_fin ht, emf_to_h_fin ht, Real.exp_pos _, ?_⟩
  apply Real.exp_lt_exp.mpr
  apply div_lt_div_of_pos_right _ (nslope_pos ht)
  linarith

/-- C02: pH and [H+] depend only on `EMF - EMF0`. -/
theorem C02_shift (e e0 d t : ℝ) :
    emf_to_pH (fin (e + d)) (fin (e0 + d)) (fin t) = emf_to_pH (fin e) (fin e0) (fin t) ∧
    emf_to_h (fin (e + d)) (fin (e0 + d)) (fin t) = emf_to_h (fin e) (fin e0) (fin t) := by
  have : emf_to_h (fin (e + d)) (fin (e0 + d)) (fin t) = emf_to_h (fin e) (fin e0) (fin t) := by
    simp only [emf_to_h, sub_fin, add_sub_add_right_eq_sub]
  exact ⟨by rw [emf_to_pH, this, emf_to_pH], this⟩

/-- C02: pH is the negative decimal logarithm of [H+], and raising the EMF by one Nernst
decade `R T ln 10 / F` lowers the pH by exactly one. -/
theorem C02_decade (e e0 t : ℝ) (ht : -273.15 < t) :
    ∃ p : ℝ, emf_to_pH (fin e) (fin e0) (fin t) = fin p ∧
      emf_to_h (fin e) (fin e0) (fin t) = fin ((10 : ℝ) ^ (-p)) ∧
      emf_to_pH (fin (e + 8.3144621 * (t + 273.15) / 96.4853365 * Real.log 10)) (fin e0) (fin t)
        = fin (p - 1) := by
  have hs := (nslope_pos ht).ne'
  have hl := log10_pos.ne'
  refine ⟨_, emf_to_pH_fin ht, ?_, ?_⟩
  · rw [emf_to_h_fin ht, neg_neg, Real.rpow_def_of_pos (by norm_num)]
    simp only [fin_inj]
    congr 1
    field_simp
  · rw [emf_to_pH_fin ht]
    have : 8.3144621 * (t + 273.15) / 96.4853365 = nslope t := by
      simp [nslope, ideal_gas, faraday, absolute_zero]
    rw [this]
    simp only [fin_inj]
    field_simp
    ring

example : ∃ p₁ p₂ : ℝ, emf_to_pH (fin 400) (fin 660) (fin 25) = fin p₁ ∧
      emf_to_pH (fin 450) (fin 660) (fin 25) = fin p₂ ∧ p₂ < p₁ :=
  C02_pH_strictAnti 400 450 660 25 (by norm_num) (by norm_num)

/-! ## C03 -/

/-- C03: raising EMF0 by the shift computed from Dickson's `f` divides [H+] by `f`. -/
theorem C03_f_divides (f e e0 t : ℝ) (hf : 0 < f) (ht : -273.15 < t) :
    ∃ d h : ℝ, f_to_demf0 (fin f) (fin t) = fin d ∧
      emf_to_h (fin e) (fin e0) (fin t) = fin h ∧
      emf_to_h (fin e) (fin (e0 + d)) (fin t) = fin (h / f) := by
  refine ⟨_, _, f_to_demf0_fin hf, emf_to_h_fin ht, ?_⟩
  rw [emf_to_h_fin ht]
  have hs := (nslope_pos ht).ne'
  simp only [fin_inj]
  rw [show (e - (e0 + nslope t * Real.log f)) / nslope t = (e - e0) / nslope t - Real.log f by
    field_simp; ring, Real.exp_sub, Real.exp_log hf]

/-- C03: two successive corrections add up. -/
theorem C03_f_mul (f g t : ℝ) (hf : 0 < f) (hg : 0 < g) :
    f_to_demf0 (fin (f * g)) (fin t) = f_to_demf0 (fin f) (fin t) + f_to_demf0 (fin g) (fin t) := by
  rw [f_to_demf0_fin hf, f_to_demf0_fin hg, f_to_demf0_fin (mul_pos hf hg),
    Real.log_mul hf.ne' hg.ne']
  simp; ring

/-- C03: `f = 1` is no correction. -/
theorem C03_f_one (t : ℝ) : f_to_demf0 (fin 1) (fin t) = fin 0 := by
  rw [f_to_demf0_fin one_pos]; simp

example : ∃ d h : ℝ, f_to_demf0 (fin 0.998) (fin 25) = fin d ∧
      emf_to_h (fin 450) (fin 660) (fin 25) = fin h ∧
      emf_to_h (fin 450) (fin (660 + d)) (fin 25) = fin (h / 0.998) :=
  C03_f_divides _ _ _ _ (by norm_num) (by norm_num)

/-! ## C04 -/

/-- C04: the dilution factor is in (0, 1], and 1 exactly when no titrant was added. -/
theorem C04_range (m M : ℝ) (hm : 0 ≤ m) (hM : 0 < M) :
    ∃ d : ℝ, get_dilution_factor (fin m) (fin M) = fin d ∧ 0 < d ∧ d ≤ 1 ∧ (d = 1 ↔ m = 0) := by
  have h : 0 < m + M := by linarith
  refine ⟨_, get_dilution_factor_fin h.ne', by positivity, ?_, ?_⟩
  · rw [div_le_one h]; linarith
  · rw [div_eq_one_iff_eq h.ne']; constructor <;> intro h' <;> linarith

/-- C04: more titrant, strictly more dilution. -/
theorem C04_strictAnti (m₁ m₂ M : ℝ) (hm : 0 ≤ m₁) (h : m₁ < m₂) (hM : 0 < M) :
    ∃ d₁ d₂ : ℝ, get_dilution_factor (fin m₁) (fin M) = fin d₁ ∧
      get_dilution_factor (fin m₂) (fin M) = fin d₂ ∧ d₂ < d₁ := by
  have h1 : 0 < m₁ + M := by linarith
  have h2 : 0 < m₂ + M := by linarith
  refine ⟨_, _, get_dilution_factor_fin h1.ne', get_dilution_factor_fin h2.ne', ?_⟩
  exact div_lt_div_of_pos_left hM h1 (by linarith)

/-- C04: amount is conserved: concentration `c * d` in mass `m + M` is `c` in mass `M`. -/
theorem C04_conserves (c m M : ℝ) (h : m + M ≠ 0) :
    (fin c * get_dilution_factor (fin m) (fin M)) * fin (m + M) = fin (c * M) := by
  rw [get_dilution_factor_fin h]
  simp only [mul_fin, fin_inj]
  field_simp

/-- C04: adding titrant in any number of portions dilutes by the same factor as adding it
all at once. -/
theorem C04_compose (ms : List ℝ) (M : ℝ) (hM : 0 < M) (hms : ∀ m ∈ ms, 0 ≤ m) :
    (ms.foldl (fun (s : Flt × Flt) m =>
        (s.1 * get_dilution_factor (fin m) s.2, s.2 + fin m)) (fin 1, fin M)).1
      = get_dilution_factor (fin ms.sum) (fin M) := by
  have key : ∀ (ms : List ℝ) (c M' : ℝ), 0 < M' → (∀ m ∈ ms, 0 ≤ m) →
      (ms.foldl (fun (s : Flt × Flt) m =>
        (s.1 * get_dilution_factor (fin m) s.2, s.2 + fin m)) (fin c, fin M')).1
      = fin (c * M' / (ms.sum + M')) := by
    intro ms
    induction ms with
    | nil => intro c M' hM' _; simp; field_simp
    | cons m ms ih =>
      intro c M' hM' hms
      have hm : 0 ≤ m := hms m (by simp)
      have hs : 0 ≤ ms.sum := List.sum_nonneg (fun x hx => hms x (by simp [hx]))
      simp only [List.foldl_cons]
      rw [get_dilution_factor_fin (by linarith : m + M' ≠ 0)]
      simp only [mul_fin, add_fin]
      rw [ih _ _ (by linarith) (fun x hx => hms x (by simp [hx]))]
      simp only [fin_inj, List.sum_cons]
      have h1 : m + M' ≠ 0 := by linarith
      have h2 : M' + m ≠ 0 := by linarith
      have h3 : ms.sum + (M' + m) ≠ 0 := by linarith
      have h4 : m + ms.sum + M' ≠ 0 := by linarith
      rw [div_eq_div_iff h3 h4]
      field_simp
      ring
  rw [key ms 1 M hM hms, get_dilution_factor_fin]
  · simp
  · have hs : 0 ≤ ms.sum := List.sum_nonneg (fun x hx => hms x hx)
    linarith

example : ∃ d : ℝ, get_dilution_factor (fin 0.004) (fin 0.1) = fin d ∧ 0 < d ∧ d ≤ 1 ∧
    (d = 1 ↔ (0.004 : ℝ) = 0) := C04_range _ _ (by norm_num) (by norm_num)

/-! ## C05 -/

/-- C05: `dilute_totals` keeps the keys in order and, at every titration point, multiplies
every total by that point's dilution factor.  It succeeds exactly when the shapes fit. -/
theorem C05_dilute_totals (totals : Dict NpVal) (tm : List Flt) (M : Flt)
    (hfit : ∀ kv ∈ totals, kv.2.fits tm.length = true) :
    ∃ out, dilute_totals totals tm M = .ok out ∧ out.keys = totals.keys ∧
      ∀ (k : String) (v : NpVal), totals.get? k = some v →
        ∃ w, out.get? k = some w ∧ w.size = tm.length ∧
          ∀ (i : ℕ) (hi : i < tm.length),
            w.at_ i = v.at_ i * get_dilution_factor tm[i] M := by
  unfold dilute_totals
  obtain ⟨out, hout⟩ := mapValsM_isOk
    (fun (_ : String) (v : NpVal) => v.zipW (fun x y => x * y) (dilution_factors tm M)) totals
    (fun kv hkv => ⟨_, zipW_isOk (by simpa using hfit kv hkv)⟩)
  refine ⟨out, hout, mapValsM_keys _ _ _ hout, ?_⟩
  intro k v hv
  rcases mapValsM_get? _ _ _ hout k with ⟨h1, -⟩ | ⟨v', w, h1, h2, h3⟩
  · rw [h1] at hv; simp at hv
  · rw [h1] at hv
    simp only [Option.some.injEq] at hv
    subst hv
    refine ⟨w, h3, ?_, ?_⟩
    · obtain ⟨-, rfl⟩ := zipW_ok h2
      simp [NpVal.size, bcast_length]
    · intro i hi
      rw [zipW_at h2 (by simpa using hi)]
      simp [dilution_factors]

/-- C05: shapes that do not fit raise `ValueError` (never a silent truncation). -/
theorem C05_bad_shape (k : String) (xs : List Flt) (rest : Dict NpVal) (tm : List Flt) (M : Flt)
    (h : xs.length ≠ tm.length) (h1 : xs.length ≠ 1) :
    dilute_totals ((k, .arr xs) :: rest) tm M = .error .ValueError := by
  simp [dilute_totals, Dict.mapValsM, NpVal.zipW, NpVal.fits, h, h1, bind, Except.bind]

/-- C05: the amount of every substance is conserved by the dilution. -/
theorem C05_amount (totals : Dict NpVal) (tm : List ℝ) (M : ℝ) (out : Dict NpVal)
    (hM : ∀ m ∈ tm, m + M ≠ 0)
    (hout : dilute_totals totals (tm.map fin) (fin M) = .ok out)
    (k : String) (v : NpVal) (hv : totals.get? k = some v) (i : ℕ) (hi : i < tm.length) (c : ℝ)
    (hc : v.at_ i = fin c) :
    ∃ w, out.get? k = some w ∧ w.at_ i * fin (tm[i] + M) = fin (c * M) := by
  unfold dilute_totals at hout
  rcases mapValsM_get? _ _ _ hout k with ⟨h1, -⟩ | ⟨v', w, h1, h2, h3⟩
  · rw [h1] at hv; simp at hv
  · rw [h1] at hv
    simp only [Option.some.injEq] at hv
    subst hv
    refine ⟨w, h3, ?_⟩
    rw [zipW_at h2 (by simpa using hi)]
    simp only [dilution_factors, List.getElem_map, hc]
    exact C04_conserves c _ M (hM _ (by simp))

example : ∃ out, dilute_totals [("total_borate", .scalar (fin 4e-4)), ("dic", .scalar (fin 2e-3))]
    [fin 0, fin 0.001, fin 0.002] (fin 0.1) = .ok out ∧ out.keys = ["total_borate", "dic"] := by
  obtain ⟨out, h1, h2, -⟩ := C05_dilute_totals
    [("total_borate", .scalar (fin 4e-4)), ("dic", .scalar (fin 2e-3))]
    [fin 0, fin 0.001, fin 0.002] (fin 0.1) (by simp [NpVal.fits])
  exact ⟨out, h1, h2⟩

/-! ## C06 -/

/-- C06: exactly the ten listed entries are diluted, everything else is returned as given. -/
theorem C06_pyco2_selective (totals : Dict NpVal) (tm : List Flt) (M : Flt) (out : Dict NpVal)
    (hout : dilute_totals_pyco2 totals tm M = .ok out) :
    out.keys = totals.keys ∧
    ∀ (k : String) (v : NpVal), totals.get? k = some v → ∃ w, out.get? k = some w ∧
      (k ∈ ["TB", "TF", "TSO4", "TCa", "alpha", "beta", "TPO4", "TSi", "TNH3", "TH2S"] →
        ∀ (i : ℕ) (hi : i < tm.length), w.at_ i = v.at_ i * get_dilution_factor tm[i] M) ∧
      (k ∉ ["TB", "TF", "TSO4", "TCa", "alpha", "beta", "TPO4", "TSi", "TNH3", "TH2S"] →
        w = v) := by
  unfold dilute_totals_pyco2 at hout
  refine ⟨mapValsM_keys _ _ _ hout, ?_⟩
  intro k v hv
  rcases mapValsM_get? _ _ _ hout k with ⟨h1, -⟩ | ⟨v', w, h1, h2, h3⟩
  · rw [h1] at hv; simp at hv
  · rw [h1] at hv
    simp only [Option.some.injEq] at hv
    subst hv
    refine ⟨w, h3, ?_, ?_⟩
    · intro hk i hi
      have : k ∈ pyco2_diluted_keys := hk
      rw [if_pos this] at h2
      rw [zipW_at h2 (by simpa using hi)]
      simp [dilution_factors]
    · intro hk
      have : k ∉ pyco2_diluted_keys := hk
      rw [if_neg this] at h2
      simpa using h2.symm

/-- C06: in particular the salinity is never diluted. -/
theorem C06_salinity_kept (totals : Dict NpVal) (tm : List Flt) (M : Flt) (out : Dict NpVal)
    (hout : dilute_totals_pyco2 totals tm M = .ok out) : out.get? "Sal" = totals.get? "Sal" := by
  unfold dilute_totals_pyco2 at hout
  rcases mapValsM_get? _ _ _ hout "Sal" with ⟨h1, h2⟩ | ⟨v', w, h1, h2, h3⟩
  · rw [h1, h2]
  · have : "Sal" ∉ pyco2_diluted_keys := by decide
    rw [if_neg this] at h2
    simp only [Except.ok.injEq] at h2
    rw [h1, h3, h2]

/-- C06: `totals_to_pyco2` copies every known total (0 when absent) and sets the salinity. -/
theorem C06_totals_to_pyco2 (totals : Dict NpVal) (sal : NpVal) :
    (totals_to_pyco2 totals sal).get? "Sal" = some sal ∧
    ∀ c p : String, (c, p) ∈ calk_to_pyco2_totals →
      (totals_to_pyco2 totals sal).get? p = some ((totals.get? c).getD (.scalar (fin 0))) := by
  refine ⟨Dict.get?_set_self _ _ _, ?_⟩
  intro c p h
  have hne : p ≠ "Sal" := by
    simp only [calk_to_pyco2_totals, List.mem_cons, Prod.mk.injEq, List.not_mem_nil, or_false] at h
    rcases h with ⟨-, rfl⟩ | ⟨-, rfl⟩ | ⟨-, rfl⟩ | ⟨-, rfl⟩ | ⟨-, rfl⟩ | ⟨-, rfl⟩ | ⟨-, rfl⟩ |
      ⟨-, rfl⟩ | ⟨-, rfl⟩ | ⟨-, rfl⟩ <;> decide
  unfold totals_to_pyco2
  rw [Dict.get?_set_ne _ _ _ _ hne, Dict.get?_mapKV]
  have : pyco2_to_calk_totals.get? p = some c := by
    simp only [calk_to_pyco2_totals, List.mem_cons, Prod.mk.injEq, List.not_mem_nil, or_false] at h
    rcases h with ⟨rfl, rfl⟩ | ⟨rfl, rfl⟩ | ⟨rfl, rfl⟩ | ⟨rfl, rfl⟩ | ⟨rfl, rfl⟩ | ⟨rfl, rfl⟩ |
      ⟨rfl, rfl⟩ | ⟨rfl, rfl⟩ | ⟨rfl, rfl⟩ | ⟨rfl, rfl⟩ <;> decide
  rw [this]; rfl

/-- C06 (consequence, as found in the code): the extra totals that `totals_to_pyco2` names
`total_alpha`, `total_beta` and `total_calcium` are NOT diluted by `dilute_totals_pyco2`,
whatever the masses. -/
theorem C06_extra_not_diluted (totals : Dict NpVal) (sal : NpVal) (tm : List Flt) (M : Flt)
    (out : Dict NpVal)
    (hout : dilute_totals_pyco2 (totals_to_pyco2 totals sal) tm M = .ok out) (k : String)
    (hk : k ∈ ["total_alpha", "total_beta", "total_calcium"]) :
    out.get? k = some ((totals.get? k).getD (.scalar (fin 0))) := by
  obtain ⟨-, h⟩ := C06_pyco2_selective _ _ _ _ hout
  have hk2 : (k, k) ∈ calk_to_pyco2_totals ∧ k ∉ pyco2_diluted_keys := by
    simp only [List.mem_cons, List.not_mem_nil, or_false] at hk
    rcases hk with rfl | rfl | rfl <;> decide
  obtain ⟨w, hw, -, hw2⟩ := h k _ ((C06_totals_to_pyco2 totals sal).2 k k hk2.1)
  rw [hw, hw2 hk2.2]

example : ∃ out, dilute_totals_pyco2 [("TB", .scalar (fin 4e-4)), ("Sal", .scalar (fin 35))]
    [fin 0, fin 0.001] (fin 0.1) = .ok out := by
  apply mapValsM_isOk
  intro kv hkv
  simp only [List.mem_cons, List.not_mem_nil, or_false] at hkv
  rcases hkv with rfl | rfl
  · exact ⟨_, by rw [if_pos (by decide)]; exact zipW_isOk rfl⟩
  · exact ⟨_, by rw [if_neg (by decide)]⟩

end Calk
