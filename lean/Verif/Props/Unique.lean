import Verif.Lemmas.Capacity
import Verif.Props.SimTitration

/-!
# Property C95: when an exact fit is the true one

Exact data are fitted exactly (C27); this file says when nothing but the true alkalinity and EMF0 fits
them.
-/

namespace Calk
open Flt Spec

/-- At this point alkalinity `A` and EMF0 `E` fit: the electrode's acidity gives the alkalinity that
is left after the acid. -/
def FitsAt (c n M A E m e t : ℝ) (s : Sol) (h : ℝ) : Prop :=
  0 < h ∧ e = nernst E t h ∧ s.alk 3 h * (m + M) = A * M - m * c * n

/-- **C95**: two points at the same temperature, the second with clearly more acid than the first (by
more than the buffering of the first), are fitted by one alkalinity and EMF0 only, as long as the
fitted acidity at the first is not below `lo`. -/
theorem C95_two_points (c n M A E A' E' m₁ m₂ e₁ e₂ t h₁ h₂ h₁' h₂' lo : ℝ) (s₁ s₂ : Sol)
    (hM : 0 < M) (hm₁ : 0 < m₁ + M) (hm₂ : 0 < m₂ + M) (ht : -273.15 < t)
    (hs₁ : s₁.Valid) (hs₂ : s₂.Valid)
    (f₁ : FitsAt c n M A E m₁ e₁ t s₁ h₁) (f₂ : FitsAt c n M A E m₂ e₂ t s₂ h₂)
    (f₁' : FitsAt c n M A' E' m₁ e₁ t s₁ h₁') (f₂' : FitsAt c n M A' E' m₂ e₂ t s₂ h₂')
    (hlo : 0 < lo) (hl : lo ≤ h₁) (hl' : lo ≤ h₁')
    (hmore : (1 + s₁.buffering lo) * ((m₁ + M) * h₁) < (m₂ + M) * h₂) : A' = A ∧ E' = E := by
  obtain ⟨p₁, n₁, b₁⟩ := f₁
  obtain ⟨p₂, n₂, b₂⟩ := f₂
  obtain ⟨p₁', n₁', b₁'⟩ := f₁'
  obtain ⟨p₂', n₂', b₂'⟩ := f₂'
  have hσ : (0 : ℝ) < 8.3144621 * (t + 273.15) / 96.4853365 := by
    have : 0 < t + 273.15 := by linarith
    positivity
  set σ := (8.3144621 : ℝ) * (t + 273.15) / 96.4853365 with hσd
  unfold nernst at n₁ n₂ n₁' n₂'
  rw [← hσd] at n₁ n₂ n₁' n₂'
  have hd : Real.log h₁' - Real.log h₁ = Real.log h₂' - Real.log h₂ := by
    have : σ * (Real.log h₁' - Real.log h₁) = σ * (Real.log h₂' - Real.log h₂) := by linarith
    exact mul_left_cancel₀ hσ.ne' this
  have hr : h₁' / h₁ = h₂' / h₂ := by
    rw [← Real.log_div p₁'.ne' p₁.ne', ← Real.log_div p₂'.ne' p₂.ne'] at hd
    exact Real.log_injOn_pos (Set.mem_Ioi.mpr (by positivity)) (Set.mem_Ioi.mpr (by positivity)) hd
  obtain ⟨r, hrd⟩ : ∃ r, r = h₁' / h₁ := ⟨_, rfl⟩
  have e₁ : h₁' = r * h₁ := by rw [hrd]; field_simp
  have e₂ : h₂' = r * h₂ := by rw [hrd, hr]; field_simp
  have hr0 : 0 < r := by rw [hrd]; positivity
  have hbal : (s₁.alk 3 h₁ - s₁.alk 3 h₁') * (m₁ + M) = (s₂.alk 3 h₂ - s₂.alk 3 h₂') * (m₂ + M) := by
    linarith
  rcases lt_trichotomy r 1 with hlt | heq | hgt
  · exfalso
    have g₁ := (alk_fall hs₁ hlo hl' (e₁ ▸ mul_le_of_le_one_left p₁.le hlt.le)).2
    have hl2 : 0 < h₂' := p₂'
    have g₂ := (alk_fall hs₂ hl2 le_rfl (e₂ ▸ mul_le_of_le_one_left p₂.le hlt.le)).1
    have k₁ := mul_le_mul_of_nonneg_right g₁ hm₁.le
    have k₂ := mul_le_mul_of_nonneg_right g₂ hm₂.le
    rw [e₁] at k₁ hbal
    rw [e₂] at k₂ hbal
    have k := mul_lt_mul_of_pos_left hmore (show 0 < 1 - r by linarith)
    have q₁ : (1 + s₁.buffering lo) * (h₁ - r * h₁) * (m₁ + M)
        = (1 - r) * ((1 + s₁.buffering lo) * ((m₁ + M) * h₁)) := by ring
    have q₂ : (h₂ - r * h₂) * (m₂ + M) = (1 - r) * ((m₂ + M) * h₂) := by ring
    rw [q₁] at k₁
    rw [q₂] at k₂
    linarith
  · rw [heq, one_mul] at e₁ e₂
    have hE : E' = E := by rw [e₁] at n₁'; linarith
    refine ⟨?_, hE⟩
    rw [e₁] at b₁'
    have : A' * M = A * M := by linarith
    exact mul_right_cancel₀ hM.ne' this
  · exfalso
    have g₁ := (alk_fall hs₁ hlo hl (e₁ ▸ le_mul_of_one_le_left p₁.le hgt.le)).2
    have g₂ := (alk_fall hs₂ p₂ le_rfl (e₂ ▸ le_mul_of_one_le_left p₂.le hgt.le)).1
    have k₁ := mul_le_mul_of_nonneg_right g₁ hm₁.le
    have k₂ := mul_le_mul_of_nonneg_right g₂ hm₂.le
    rw [e₁] at k₁ hbal
    rw [e₂] at k₂ hbal
    have k := mul_lt_mul_of_pos_left hmore (show 0 < r - 1 by linarith)
    have q₁ : (1 + s₁.buffering lo) * (r * h₁ - h₁) * (m₁ + M)
        = (r - 1) * ((1 + s₁.buffering lo) * ((m₁ + M) * h₁)) := by ring
    have q₂ : (r * h₂ - h₂) * (m₂ + M) = (r - 1) * ((m₂ + M) * h₂) := by ring
    rw [q₁] at k₁
    rw [q₂] at k₂
    linarith

theorem nernst_pHR {E e t : ℝ} (ht : -273.15 < t) : e = nernst E t ((10 : ℝ) ^ (-pHR E e t)) := by
  have hp := nslope_pos ht
  have hl10 : (0 : ℝ) < Real.log 10 := Real.log_pos (by norm_num)
  unfold nernst pHR
  rw [Real.log_rpow (by norm_num)]
  have h : (8.3144621 : ℝ) * (t + 273.15) / 96.4853365 = nslope t := by
    unfold nslope; simp only [ideal_gas, absolute_zero, faraday]
  rw [h]
  field_simp
  ring

/-- **C95**: for exact data, an EMF solve with an optimiser that finds the minimum returns exactly the
alkalinity and the EMF0 that the data were made with, if two of the points used are at the same
temperature, the second with clearly more acid than the first, and the first is still fitted as acid
(acidity at least `lo`). -/
theorem C95_recovers (ls : LsFun (Flt × Flt)) (hls : LsSound ls) (hmin : LsGlobalMin ls)
    (c n M A E A' E' : ℝ) (tm emf T pH : List ℝ) (totals ks : Dict NpVal) (o : EmfOpts) (double : Bool)
    (sr : SolveEmf) (ho : o.titrant_normality = fin n) (hM : 0 < M) (hm : ∀ m ∈ tm, 0 < m + M)
    (hT : ∀ t ∈ T, -273.15 < t) (hv : ValidRows totals ks emf.length)
    (hlp : pH.length = emf.length)
    (hdata : ∀ i, (h1 : i < emf.length) → (h2 : i < T.length) → (h3 : i < tm.length) →
      (h4 : i < pH.length) → emf[i] = nernst E T[i] ((10:ℝ) ^ (-pH[i])) ∧
        specAlk totals ks i pH[i] * (tm[i] + M) = A * M - tm[i] * c * n)
    (hr : solve_emf ls (fin c) (tm.map fin) (emf.map fin) (T.map fin) (fin M) totals ks o double
      = .ok sr)
    (hx : sr.opt_result.x = (fin A', fin E'))
    (i j : ℕ) (hi : i < tm.length) (hj : j < tm.length) (hTi : i < T.length) (hTj : j < T.length)
    (hpi : i < pH.length) (hpj : j < pH.length)
    (hui : sr.used[i]? = some true) (huj : sr.used[j]? = some true) (hTT : T[i] = T[j])
    (lo p' : ℝ) (hlo : 0 < lo) (hpi' : sr.pH[i]? = some (fin p')) (hl' : lo ≤ (10 : ℝ) ^ (-p'))
    (hl : lo ≤ (10 : ℝ) ^ (-pH[i]))
    (hmore : (1 + (Sol.of (rowAt totals i) (rowAt ks i)).buffering lo)
        * ((tm[i] + M) * (10 : ℝ) ^ (-pH[i])) < (tm[j] + M) * (10 : ℝ) ^ (-pH[j])) :
    sr.alkalinity = fin (1e6 * A) ∧ sr.emf0 = fin E := by
  have h0 := C27_exact_fit ls hmin c n M A E tm emf T pH totals ks o double sr ho hm hT hv hlp hdata hr
  obtain ⟨o', -, -, hn, h⟩ := solve_emf_last hr
  obtain ⟨g, opt, hg, -, hk, hf, hf', hopt, rfl⟩ := solve_emf_false_iff.mp h
  obtain ⟨hl1, hl2, -⟩ := gran_guesses_ok hg
  simp only [List.length_map] at hl1 hl2
  rw [hn, ho] at *
  simp only [emfResult] at hx h0 hui huj hpi' ⊢
  have hfun := hls _ _ _ hopt
  simp only [emfProblem, Except.ok.injEq, hx, emfRes_fin hT hm hl2 hv hk] at hfun
  have hrl : (emfResR c n M A' E' tm emf T totals ks).length = tm.length := by
    simp [emfResR, pHRs]; omega
  have fit : ∀ q (hq : q < tm.length) (hq' : q < T.length) (hq'' : q < emf.length),
      (emfStart o' g (emf.map fin) (T.map fin)).used[q]? = some true →
      FitsAt c n M A' E' tm[q] emf[q] T[q] (Sol.of (rowAt totals q) (rowAt ks q))
        ((10 : ℝ) ^ (-pHR E' emf[q] T[q])) := by
    intro q hq hq' hq'' hu
    refine ⟨by positivity, nernst_pHR (hT _ (List.getElem_mem _)), ?_⟩
    obtain ⟨hu1, hu2⟩ := List.getElem?_eq_some_iff.mp hu
    have hz : (emfResR c n M A' E' tm emf T totals ks)[q]'(by omega) = 0 := by
      have : fin ((emfResR c n M A' E' tm emf T totals ks)[q]'(by omega)) ∈ opt.fun_ := by
        rw [← hfun]
        exact mem_mask.mpr ⟨q, hu1, by simp [hrl]; omega, hu2, by simp⟩
      exact Flt.fin.inj (h0 _ this)
    have hpos := hm _ (List.getElem_mem hq)
    simp only [emfResR, List.getElem_zipWith, List.getElem_zipIdx, pHRs, Nat.zero_add, specAlk] at hz
    field_simp at hz
    linarith
  have true_ : ∀ q (hq : q < tm.length) (hq' : q < T.length) (hq'' : q < emf.length) (hq3 : q < pH.length),
      FitsAt c n M A E tm[q] emf[q] T[q] (Sol.of (rowAt totals q) (rowAt ks q))
        ((10 : ℝ) ^ (-pH[q])) := by
    intro q hq hq' hq'' hq3
    obtain ⟨d1, d2⟩ := hdata q hq'' hq' hq hq3
    exact ⟨by positivity, d1, d2⟩
  have hp' : pHR E' (emf[i]'(by omega)) T[i] = p' := by
    rw [hx] at hpi'
    simp only [emf_to_pH_arr_fin hT, List.getElem?_map] at hpi'
    rw [List.getElem?_eq_getElem (by simp [pHRs]; omega)] at hpi'
    simpa [pHRs] using hpi'
  have hi' : i < emf.length := by omega
  have hj' : j < emf.length := by omega
  have vi := hv i hi'
  have vj := hv j hj'
  have fj := fit j hj hTj hj' huj
  have tj := true_ j hj hTj hj' hpj
  rw [← hTT] at fj tj
  obtain ⟨e1, e2⟩ := C95_two_points c n M A E A' E' tm[i] tm[j] emf[i] emf[j] T[i] _ _ _ _ lo _ _ hM
    (hm _ (List.getElem_mem _)) (hm _ (List.getElem_mem _)) (hT _ (List.getElem_mem _))
    (Sol.of_valid vi.1 vi.2) (Sol.of_valid vj.1 vj.2) (true_ i hi hTi hi' hpi) tj (fit i hi hTi hi' hui) fj
    hlo hl (by rw [hp']; exact hl') hmore
  rw [hx, e1, e2]
  simp [mul_comm]

/-- **C95** for simulated titrations: solving one returns the alkalinity and the EMF0 it was simulated
with. -/
theorem C95_simulated (sys : Sys) (hs : SysExact sys) (a : SimArgs) (out : SimOut)
    (A M c E start stop step : ℝ) (ha : SimNumbers a A M c start stop step) (hE : a.emf0 = fin E)
    (h : simulate_titration sys a = .ok out) (T : List ℝ) (hT : out.temperature = T.map fin)
    (hl : T.length = out.titrant_mass.length) (hT' : ∀ t ∈ T, -273.15 < t)
    (hv : ValidRows out.totals out.k_constants T.length) (emf : List Flt) (he : out.emf = .arr emf)
    (ls : LsFun (Flt × Flt)) (hls : LsSound ls) (hmin : LsGlobalMin ls) (o : EmfOpts)
    (ho : o.titrant_normality = fin 1) (double : Bool) (sr : SolveEmf)
    (hr : solve_emf ls (fin c) out.titrant_mass emf out.temperature out.analyte_mass out.totals
      out.k_constants o double = .ok sr)
    (A' E' : ℝ) (hx : sr.opt_result.x = (fin A', fin E'))
    (i j : ℕ) (hui : sr.used[i]? = some true) (huj : sr.used[j]? = some true) (hTi : i < T.length)
    (hTj : j < T.length) (hTT : T[i] = T[j])
    (mi mj pi pj p' lo : ℝ) (hmi : out.titrant_mass[i]? = some (fin mi))
    (hmj : out.titrant_mass[j]? = some (fin mj))
    (hpi : (emf_to_pH_arr emf (fin E) out.temperature)[i]? = some (fin pi))
    (hpj : (emf_to_pH_arr emf (fin E) out.temperature)[j]? = some (fin pj))
    (hpi' : sr.pH[i]? = some (fin p')) (hlo : 0 < lo) (hl1 : lo ≤ (10 : ℝ) ^ (-pi))
    (hl2 : lo ≤ (10 : ℝ) ^ (-p'))
    (hmore : (1 + (Sol.of (rowAt out.totals i) (rowAt out.k_constants i)).buffering lo)
        * ((mi + M) * (10 : ℝ) ^ (-pi)) < (mj + M) * (10 : ℝ) ^ (-pj)) :
    sr.alkalinity = fin A ∧ sr.emf0 = fin E := by
  obtain ⟨tm, emf', pH, h1, h2, h3, h4, h5, h6, h7⟩ := sim_data sys hs a out A M c E start stop step ha
    hE h T hT hl
  rw [h2] at he
  obtain rfl := NpVal.arr.inj he
  have hlt : T.length = tm.length := by rw [hl, h1]; simp
  have hn : T.length = emf'.length := by omega
  have hph : ∀ q p (hq : q < pH.length),
      (emf_to_pH_arr (emf'.map fin) (fin E) out.temperature)[q]? = some (fin p) → pH[q] = p := by
    intro q p hq e
    rw [hT, emf_to_pH_arr_fin hT', List.getElem?_map,
      List.getElem?_eq_getElem (by simp [pHRs]; omega)] at e
    simp only [pHRs, List.getElem_zipWith, Option.map_some, Option.some.injEq, fin_inj] at e
    have d := (h7 q (by omega) (by omega) (by omega) hq).1
    have e2 := nernst_pHR (E := E) (e := emf'[q]'(by omega))
      (hT' _ (List.getElem_mem (show q < T.length by omega)))
    rw [e] at e2
    rw [d] at e2
    unfold nernst at e2
    rw [Real.log_rpow (by norm_num), Real.log_rpow (by norm_num)] at e2
    have hσ := nslope_pos (hT' _ (List.getElem_mem (show q < T.length by omega)))
    have hσ' : (8.3144621 : ℝ) * (T[q] + 273.15) / 96.4853365 ≠ 0 := by
      have : -273.15 < T[q] := hT' _ (List.getElem_mem (show q < T.length by omega))
      have : 0 < T[q] + 273.15 := by linarith
      positivity
    have hl10 : Real.log 10 ≠ 0 := (Real.log_pos (by norm_num)).ne'
    have e3 := mul_left_cancel₀ hσ' (add_left_cancel e2)
    have e4 := mul_right_cancel₀ hl10 e3
    linarith
  have hmass : ∀ q m (hq : q < tm.length), out.titrant_mass[q]? = some (fin m) → tm[q] = m := by
    intro q m hq e
    rw [h1, List.getElem?_map, List.getElem?_eq_getElem hq] at e
    simpa using e
  have ei := hph i pi (by omega) hpi
  have ej := hph j pj (by omega) hpj
  have ki := hmass i mi (by omega) hmi
  have kj := hmass j mj (by omega) hmj
  rw [h1, hT, h3] at hr
  obtain ⟨r1, r2⟩ := C95_recovers ls hls hmin c 1 M (A * 1e-6) E A' E' tm emf' T pH out.totals
    out.k_constants o double sr ho ha.mass_pos
    (fun m hm => by have := h4 m hm; have := ha.mass_pos; linarith) hT' (hn ▸ hv) (by omega) h7 hr hx i j
    (by omega) (by omega) hTi hTj (by omega) (by omega) hui huj hTT lo p' hlo hpi' hl2
    (by rw [ei]; exact hl1) (by rw [ei, ej, ki, kj]; exact hmore)
  refine ⟨?_, r2⟩
  rw [r1]
  congr 1
  norm_num
  ring

theorem pHR_nernst {E t h : ℝ} (ht : -273.15 < t) (hh : 0 < h) :
    pHR E (nernst E t h) t = -Real.logb 10 h := by
  have hp := nslope_pos ht
  have hl10 : (0 : ℝ) < Real.log 10 := Real.log_pos (by norm_num)
  have e : (8.3144621 : ℝ) * (t + 273.15) / 96.4853365 = nslope t := by
    unfold nslope; simp only [ideal_gas, absolute_zero, faraday]
  unfold nernst pHR
  rw [e, Real.logb]
  field_simp
  ring

/-- **C95**, the limit: two points can be fitted exactly by different alkalinities and EMF0s (here 4.5
and 20.25 mol/kg), one of them with the points on the other side of neutral.  So the condition on the
fitted acidity is needed. -/
theorem C95_ambiguous (E : ℝ) : ∃ E' ≠ E, ∀ AE ∈ [((4.5 : ℝ), E), (20.25, E')],
    lsqfun_solve_emf (fin 4.5) [fin 1, fin 2] [fin (nernst E 25 1), fin (nernst E 25 2)] [fin 25, fin 25]
      (fin 1) [] [("k_water", .scalar (fin 1))] (fin 1) (fin AE.1, fin AE.2) = .ok [fin 0, fin 0] := by
  have hσ : (0 : ℝ) < 8.3144621 * (25 + 273.15) / 96.4853365 := by norm_num
  have h10 : ∀ y : ℝ, 0 < y → (10 : ℝ) ^ (Real.logb 10 y) = y := fun y hy =>
    Real.rpow_logb (by norm_num) (by norm_num) hy
  have hs : ∀ i p, specAlk [] [("k_water", .scalar (fin 1))] i p = -(10 : ℝ) ^ (-p) + 1 / (10 : ℝ) ^ (-p) := by
    intro i p
    simp [specAlk, rowAt, Dict.mapKV, Sol.alk, Sol.of, rval, carbAlk, base, phosAlk, extraAlk, acid,
      NpVal.at_, Dict.get?_cons]
  have key : ∀ (A E' x y : ℝ), 0 < x → 0 < y → nernst E 25 1 = nernst E' 25 x → nernst E 25 2 = nernst E' 25 y →
      (-x + 1 / x) * 2 = A - 4.5 → (-y + 1 / y) * 3 = A - 9 →
      lsqfun_solve_emf (fin 4.5) [fin 1, fin 2] [fin (nernst E 25 1), fin (nernst E 25 2)] [fin 25, fin 25]
      (fin 1) [] [("k_water", .scalar (fin 1))] (fin 1) (fin A, fin E') = .ok [fin 0, fin 0] := by
    intro A E' x y hx hy e1 e2 b1 b2
    refine C27_zero 4.5 1 1 A E' [1, 2] [nernst E 25 1, nernst E 25 2] [25, 25]
      [-Real.logb 10 x, -Real.logb 10 y] [] [("k_water", .scalar (fin 1))] rfl rfl rfl ?_ ?_ ?_ ?_ rfl rfl ?_
    · intro m hm; simp at hm; rcases hm with rfl | rfl <;> norm_num
    · intro t ht; simp at ht; subst ht; norm_num
    · intro i _
      constructor
      · intro k v hv; simp [rowAt, Dict.mapKV] at hv
      · intro k v hv
        simp [rowAt, Dict.mapKV, Dict.get?_cons, NpVal.at_] at hv
        exact ⟨1, one_pos, hv.2.symm⟩
    · intro tk _ h; simp [Dict.has] at h
    · intro i h1 h2 h3 h4
      match i, h2 with
      | 0, _ =>
        simp only [List.getElem_cons_zero, hs, neg_neg, h10 x hx]
        exact ⟨e1, by linarith⟩
      | 1, _ =>
        simp only [List.getElem_cons_succ, List.getElem_cons_zero, hs, neg_neg, h10 y hy]
        exact ⟨e2, by linarith⟩
  have hl8 : 0 < Real.log 8 := Real.log_pos (by norm_num)
  refine ⟨E + 8.3144621 * (25 + 273.15) / 96.4853365 * Real.log 8, ?_, ?_⟩
  · have := mul_pos hσ hl8
    linarith
  intro AE hAE
  simp only [List.mem_cons, List.not_mem_nil, or_false] at hAE
  rcases hAE with rfl | rfl
  · exact key 4.5 E 1 2 (by norm_num) (by norm_num) rfl rfl (by norm_num) (by norm_num)
  · refine key 20.25 _ (1 / 8) (1 / 4) (by norm_num) (by norm_num) ?_ ?_ (by norm_num) (by norm_num)
    · unfold nernst
      rw [Real.log_one, one_div, Real.log_inv]; ring
    · unfold nernst
      rw [one_div, Real.log_inv, show (8 : ℝ) = 2 * 4 by norm_num, Real.log_mul (by norm_num) (by norm_num)]
      ring

/-- C95 applies: ideal strong-acid data, points with 1 and 2 kg of titrant. -/
example : ∃ sr, solve_emf lsExact (fin 1) ([1, 2, 3].map fin)
      ([1, 2, 3].map fun m => fin (nernst 400 25 (strongAcidH 0.5 1 1 1 m))) ([25, 25, 25].map fin)
      (fin 1) [] [] { pH_min := fin (-10), pH_max := fin 10 } false = .ok sr ∧
    sr.alkalinity = fin (1e6 * 0.5) ∧ sr.emf0 = fin 400 := by
  obtain ⟨sr, h1, h2, -⟩ := strong_acid_solve
  refine ⟨sr, h1, ?_⟩
  have h10 : ∀ y : ℝ, 0 < y → (10 : ℝ) ^ (Real.logb 10 y) = y := fun y hy =>
    Real.rpow_logb (by norm_num) (by norm_num) hy
  have hs : ∀ i x, specAlk [] [] i x = -(10 : ℝ) ^ (-x) := by
    intro i x
    simp [specAlk, rowAt, Dict.mapKV, Sol.alk, Sol.of, rval, carbAlk, base, phosAlk, extraAlk, acid]
  have hb : ∀ i, (Sol.of (rowAt [] i) (rowAt [] i)).buffering 0.1 = 0 := by
    intro i
    simp [rowAt, Dict.mapKV, Sol.buffering, Sol.of, rval]
  have ht : -273.15 < (25 : ℝ) := by norm_num
  have hT : ∀ t ∈ ([25, 25, 25] : List ℝ), -273.15 < t := by
    intro t ht; simp at ht; subst ht; norm_num
  have w1 : strongAcidH 0.5 1 1 1 1 = 0.25 := by norm_num [strongAcidH]
  have w2 : strongAcidH 0.5 1 1 1 2 = 0.5 := by norm_num [strongAcidH]
  have w3 : strongAcidH 0.5 1 1 1 3 = 0.625 := by norm_num [strongAcidH]
  obtain ⟨g, hg, -, g2, -⟩ := C19_exact 0.5 400 25 1 1 1
    ([1, 2, 3].map fun m => (m, nernst 400 25 (strongAcidH 0.5 1 1 1 m), 25))
    ⟨by simp; norm_num, by simp; norm_num, by simp, by simp⟩ (by norm_num) (by norm_num)
    (by norm_num) (by norm_num)
    ⟨_, List.mem_map.mpr ⟨1, by simp, rfl⟩, _, List.mem_map.mpr ⟨2, by simp, rfl⟩, by norm_num,
      by simp; norm_num, by simp; norm_num⟩
  have hgr := C26_ggr_single _ _ _ _ _ _ _ _ _ sr h1
  simp only [List.map_cons, List.map_nil] at hg hgr h1
  have hgg : sr.ggr = g := by
    have := hgr.symm.trans hg
    exact Except.ok.inj this
  obtain ⟨u1, -, u2⟩ := C24_used _ _ _ _ _ _ _ _ _ sr h1
  have hwin : ∀ h : ℝ, 0.1 ≤ h → h ≤ 1 → (fin (-10)).le (emf_to_pH (fin (nernst 400 25 h)) (fin 400) (fin 25)) = true
      ∧ (emf_to_pH (fin (nernst 400 25 h)) (fin 400) (fin 25)).le (fin 10) = true := by
    intro h ha hb
    have : emf_to_pH (fin (nernst 400 25 h)) (fin 400) (fin 25) = fin (pHR 400 (nernst 400 25 h) 25) :=
      emf_to_pH_fin ht
    rw [this, pHR_nernst ht (by linarith)]
    have a1 : Real.logb 10 h ≤ 0 := Real.logb_nonpos (by norm_num) (by linarith) hb
    have a2 : -1 ≤ Real.logb 10 h := by
      rw [Real.le_logb_iff_rpow_le (by norm_num) (by linarith), Real.rpow_neg (by norm_num)]
      norm_num
      linarith
    constructor <;> simp <;> linarith
  have used : ∀ q : ℕ, q < 2 → sr.used[q]? = some true := by
    intro q hq
    have hq3 : q < sr.used.length := by rw [u1]; simp; omega
    rw [List.getElem?_eq_getElem hq3]
    congr 1
    rw [u2 q (by simp; omega) (by simp; omega) hq3]
    rw [hgg, show g.emf0 = fin 400 from g2]
    rcases q with _ | _ | q
    · simp only [List.getElem_cons_zero, Option.getD_none, w1]
      exact hwin _ (by norm_num) (by norm_num)
    · simp only [List.getElem_cons_succ, List.getElem_cons_zero, Option.getD_none, w2]
      exact hwin _ (by norm_num) (by norm_num)
    · omega
  obtain ⟨g', opt, hg', -, -, -, -, hopt, hsr⟩ := solve_emf_false_iff.mp h1
  have hpH : sr.pH = (pHRs 400 ([0.25, 0.5, 0.625].map (nernst 400 25)) [25, 25, 25]).map fin := by
    have hx : opt.x = (fin 0.5, fin 400) := by rw [hsr] at h2; exact h2
    rw [hsr]
    simp only [emfResult, hx, w1, w2, w3]
    have e := emf_to_pH_arr_fin (E := 400) (emf := [0.25, 0.5, 0.625].map (nernst 400 25)) hT
    exact e
  refine C95_recovers lsExact lsExact_contracts.1 lsExact_contracts.2 1 1 1 0.5 400 0.5 400 [1, 2, 3]
    ([0.25, 0.5, 0.625].map (nernst 400 25)) [25, 25, 25]
    [-Real.logb 10 0.25, -Real.logb 10 0.5, -Real.logb 10 0.625] [] []
    { pH_min := fin (-10), pH_max := fin 10 } false sr rfl (by norm_num) ?_ hT ?_ rfl ?_
    (by simpa [w1, w2, w3] using h1) h2 0 1 (by simp) (by simp) (by simp) (by simp) (by simp) (by simp)
    (used 0 (by norm_num)) (used 1 (by norm_num)) rfl 0.1 (-Real.logb 10 0.25) (by norm_num) ?_ ?_ ?_ ?_
  · intro m hm; simp at hm; rcases hm with rfl | rfl | rfl <;> norm_num
  · intro i _; constructor <;> (intro k v hv; simp [rowAt, Dict.mapKV] at hv)
  · intro i i1 i2 i3 i4
    match i, i2 with
    | 0, _ => simp only [List.map_cons, List.getElem_cons_zero, hs, neg_neg, h10 0.25 (by norm_num)]; norm_num
    | 1, _ => simp only [List.map_cons, List.getElem_cons_succ, List.getElem_cons_zero, hs, neg_neg, h10 0.5 (by norm_num)]; norm_num
    | 2, _ => simp only [List.map_cons, List.getElem_cons_succ, List.getElem_cons_zero, hs, neg_neg, h10 0.625 (by norm_num)]; norm_num
  · rw [hpH]
    simp only [pHRs, List.map_cons, List.zipWith_cons_cons, List.getElem?_cons_zero]
    rw [pHR_nernst ht (by norm_num)]
  · rw [neg_neg, h10 _ (by norm_num)]; norm_num
  · simp only [List.getElem_cons_zero]
    rw [neg_neg, h10 _ (by norm_num)]; norm_num
  · simp only [List.getElem_cons_succ, List.getElem_cons_zero, hb]
    rw [neg_neg, neg_neg, h10 _ (by norm_num), h10 _ (by norm_num)]; norm_num

end Calk
