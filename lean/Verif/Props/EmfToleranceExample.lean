import Verif.Props.EmfTolerance

/-!
# A data set that meets the hypotheses of C136

A reference whose certified value is 5 µmol/kg too high and a sample; an optimiser that takes any fit that is
good enough.
-/

namespace Calk
open Flt Spec

/-- an optimiser that takes a fit from `X` with residuals of at most `τ` -/
noncomputable def lsIn (τ : ℝ) (X : ℝ × ℝ → Prop) : LsFun (Flt × Flt) := fun f _ =>
  open Classical in
  if h : ∃ y : (ℝ × ℝ) × List ℝ, X y.1 ∧ f (fin y.1.1, fin y.1.2) = .ok (y.2.map fin) ∧
      Real.sqrt (y.2.map (· ^ 2)).sum ≤ τ then
    .ok { x := (fin h.choose.1.1, fin h.choose.1.2), fun_ := h.choose.2.map fin }
  else .error .ValueError

theorem lsIn_contracts (τ : ℝ) (X : ℝ × ℝ → Prop) : LsSound (lsIn τ X) ∧ LsNearMin τ (lsIn τ X) := by
  constructor
  · intro f x0 r h
    unfold lsIn at h
    split at h
    next hex => cases h; exact hex.choose_spec.2.1
    next => cases h
  · intro f x0 r h y ρ _
    unfold lsIn at h
    split at h
    next hex =>
      cases h
      refine ⟨_, rfl, hex.choose_spec.2.2.trans ?_⟩
      have := Real.sqrt_nonneg (ρ.map (· ^ 2)).sum
      linarith
    next => cases h

theorem lsIn_takes {τ : ℝ} {X : ℝ × ℝ → Prop} {f : Flt × Flt → Py (List Flt)} (A E : ℝ) (ρ : List ℝ)
    (hX : X (A, E)) (hf : f (fin A, fin E) = .ok (ρ.map fin)) (hρ : Real.sqrt (ρ.map (· ^ 2)).sum ≤ τ) :
    ∃ A' E' r, X (A', E') ∧ r.x = (fin A', fin E') ∧ ∀ x0, lsIn τ X f x0 = .ok r := by
  have h : ∃ y : (ℝ × ℝ) × List ℝ, X y.1 ∧ f (fin y.1.1, fin y.1.2) = .ok (y.2.map fin) ∧
      Real.sqrt (y.2.map (· ^ 2)).sum ≤ τ := ⟨((A, E), ρ), hX, hf, hρ⟩
  refine ⟨h.choose.1.1, h.choose.1.2, { x := (fin h.choose.1.1, fin h.choose.1.2), fun_ := h.choose.2.map fin },
    h.choose_spec.1, rfl, fun x0 => ?_⟩
  unfold lsIn
  exact dif_pos h

noncomputable def etContents (_ : String) : ℝ := 1

noncomputable def etConstants (_ : String) : ℝ := 1e-14

noncomputable def etAlk (m h : ℝ) : ℝ := (mixture etContents etConstants m 0.1 0 0).alk 3 h

noncomputable def etAcid : ℝ := (etAlk 0.001 2e-4 * 0.101 - etAlk 0.002 9e-4 * 0.102) / 0.001

noncomputable def etTrue : ℝ := (etAlk 0.001 2e-4 * 0.101 + 0.001 * etAcid) / 0.1

/-- where the optimiser looks: EMF0s that give up to 3 % more or less acid -/
def etX (y : ℝ × ℝ) : Prop := ∃ k, 0.97 ≤ k ∧ k ≤ 1.03 ∧ y.2 = shiftedEmf0 400 25 k

noncomputable def etWorld : World :=
  { keepWorld with readDat := fun _ _ => .ok (qData 400), ls := lsIn 1.4e-7 etX, opt := lsqAt etAcid }

noncomputable def etArgs : Dict Val :=
  [ ("analyte_mass", .num (fin 0.1)), ("titrant_amount_unit", .str "kg"),
    ("emf0_init", .num (fin 400)), ("alkalinity_init", .num (fin (1e6 * etTrue))) ] ++
  (("dic" :: (optionalContents ++ saltContents)).map fun k => (k, Val.num (fin (etContents k)))) ++
  allConstants.map fun k => (k, Val.num (fin (etConstants k)))

theorem et_totals : ∃ t tp, get_totals etWorld (fin 35)
      ((get_kwargs_for keys_totals_ks etArgs none).filter fun kv => keys_get_totals.contains kv.1)
        = .ok (t, tp) ∧ ∀ kv ∈ t, kv.2.fits 2 = true := by
  have hkw : ((get_kwargs_for keys_totals_ks etArgs none).filter
      fun kv => keys_get_totals.contains kv.1)
        = ("dic" :: (optionalContents ++ saltContents)).map fun k => (k, Val.num (fin 1)) := rfl
  rw [hkw]
  simp [get_totals, etWorld, keepWorld, argNum, argNotNull, Dict.get?, Val.toFlt, bind_ok, pure_ok,
    copyIfPos, Val.isNull, Dict.get, Dict.get?_append, totals_for_pyco2, setIf_get?,
    optionalContents, saltContents, setIfPos, Dict.set, NpVal.fits]
  intro a b h
  rcases h with h | h | h | h | h | h | h | h | h | h <;> rw [h.2]

theorem et_ks : ∃ ks, ∀ tp, get_k_constants etWorld tp [fin 25, fin 25]
      ((get_kwargs_for keys_totals_ks etArgs none).filter
        fun kv => keys_get_k_constants.contains kv.1) = .ok ks := by
  have hkw : ((get_kwargs_for keys_totals_ks etArgs none).filter
      fun kv => keys_get_k_constants.contains kv.1)
        = allConstants.map fun k => (k, Val.num (fin 1e-14)) := rfl
  rw [hkw]
  simp [get_k_constants, etWorld, keepWorld, ks_for_pyco2, argNotNull, Dict.get?, Val.toFlt, bind_ok,
    pure_ok, Val.isNull, calk_to_pyco2_ks, setIf, Dict.set, argVal, Val.eqNum, feq, allConstants]

theorem et_load : ∃ totals ks, load etWorld "a.dat" (fin 35) etArgs = .ok (qCv 400, totals, ks) := by
  obtain ⟨t, tp, h1, hfit⟩ := et_totals
  obtain ⟨ks, h2⟩ := et_ks
  obtain ⟨totals, h3, -⟩ := C05_dilute_totals t [fin 0.001, fin 0.002] (fin 0.1) hfit
  refine ⟨totals, ks, ?_⟩
  unfold load
  have e1 : full_name "a.dat" etArgs = .ok "a.dat" := rfl
  have e2 : etWorld.readDat "a.dat" (get_kwargs_for keys_read_dat etArgs none) = .ok (qData 400) := rfl
  have e3 : amount_units (qData 400) (fin 35) (get_kwargs_for keys_cau etArgs none) = .ok (qCv 400) := by
    have hkw : get_kwargs_for keys_cau etArgs none
      = [("analyte_mass", .num (fin 0.1)), ("titrant_amount_unit", .str "kg")] := rfl
    rw [hkw]
    simp [amount_units, override_temperature, titrant_masses, get_analyte_mass, argOpt, argVal,
      argNotNull, Dict.get?, Val.toFlt, Val.isNull, Val.lower, bind_ok, pure_ok, pyAssert, qData, qCv,
      qPts, show lowerS "kg" = "kg" by decide]
  have e4 : totals_for_ks (qCv 400) tp (get_kwargs_for keys_totals_ks etArgs none) = .ok tp := rfl
  have h3' : dilute_totals t (qCv 400).titrant_mass (qCv 400).analyte_mass = .ok totals := h3
  have h1' : get_totals etWorld (qCv 400).salinity
      ((get_kwargs_for keys_totals_ks etArgs none).filter fun kv => keys_get_totals.contains kv.1)
        = .ok (t, tp) := h1
  have h2' : get_k_constants etWorld tp (qCv 400).temperature
      ((get_kwargs_for keys_totals_ks etArgs none).filter
        fun kv => keys_get_k_constants.contains kv.1) = .ok ks := h2 tp
  rw [e1, bind_ok, e2, bind_ok, e3, bind_ok]
  unfold totals_ks
  simp only [h1', bind_ok, h3', e4, h2']
  rfl

theorem et_run (c : ℝ) :
    EmfRun etWorld "a.dat" (fin 35) etArgs etContents etConstants c 1 0 0.1 (qPts 400) := by
  refine ⟨?_, keepWorld_totals, keepWorld_ks, (lsIn_contracts _ _).1, ?_, .inl rfl, ⟨?_, ?_, ?_⟩,
    .inr ⟨rfl, rfl⟩, rfl, rfl, .inr ⟨rfl, rfl⟩, by norm_num, ?_, ?_, by simp⟩
  · obtain ⟨totals, ks, h⟩ := et_load
    exact ⟨_, _, _, h, rfl, rfl, rfl, rfl⟩
  · have : Dict.keys etArgs = [ "analyte_mass", "titrant_amount_unit", "emf0_init",
      "alkalinity_init" ] ++ ("dic" :: (optionalContents ++ saltContents)) ++ allConstants := rfl
    rw [this]
    decide
  · intro k hk
    refine ⟨?_, by norm_num [etContents]⟩
    simp only [optionalContents, saltContents, List.cons_append, List.nil_append, List.mem_cons,
      List.not_mem_nil, or_false] at hk
    rcases hk with rfl | rfl | rfl | rfl | rfl | rfl | rfl | rfl | rfl | rfl <;> rfl
  · intro k hk
    refine ⟨?_, by norm_num [etConstants]⟩
    simp only [allConstants, List.mem_cons, List.not_mem_nil, or_false] at hk
    rcases hk with rfl | rfl | rfl | rfl | rfl | rfl | rfl | rfl | rfl | rfl | rfl | rfl | rfl | rfl
      <;> rfl
  · exact not_onTotalScale rfl
  · exact (q_run 400).masses
  · exact (q_run 400).temps

theorem et_valid (m : ℝ) (hm : 0 ≤ m) (c : ℝ) : (mixture etContents etConstants m 0.1 c 0).Valid :=
  mixture_valid (by norm_num) hm (by simp) (fun _ _ => by norm_num [etContents])
    (fun _ _ => by norm_num [etConstants])

/-- the points are exact -/
theorem et_exact : ∀ p ∈ qPts 400, pointMisfit etContents etConstants etAcid 1 0 0.1 etTrue 400 p = 0 := by
  intro p hp
  simp only [qPts, List.mem_cons, List.not_mem_nil, or_false] at hp
  unfold pointMisfit
  rcases hp with rfl | rfl
  · rw [read_nernst _ (by norm_num) (by norm_num), mixture_no_sulfate _ _ _ _ _ 0]
    rw [show (mixture etContents etConstants 0.001 0.1 0 0).alk 3 2e-4 = etAlk 0.001 2e-4 from rfl]
    unfold etTrue
    norm_num
  · rw [read_nernst _ (by norm_num) (by norm_num), mixture_no_sulfate _ _ _ _ _ 0]
    rw [show (mixture etContents etConstants 0.002 0.1 0 0).alk 3 9e-4 = etAlk 0.002 9e-4 from rfl]
    unfold etTrue etAcid
    norm_num
    ring

theorem et_true : 5e-5 ≤ etTrue * 0.1 ∧ etTrue * 0.1 ≤ 5.2e-5 ∧ 0.07 ≤ etAcid := by
  have e : etTrue * 0.1 = 2 * (etAlk 0.001 2e-4 * 0.101) - etAlk 0.002 9e-4 * 0.102 := by
    unfold etTrue etAcid; ring
  rw [e]
  unfold etAcid
  have hl : -Real.logb 10 (1e-14 : ℝ) = 14 := by
    rw [show (1e-14 : ℝ) = (10 : ℝ) ^ (-14 : ℝ) by rw [Real.rpow_neg (by norm_num)]; norm_num,
      Real.logb_rpow (by norm_num) (by norm_num)]
    norm_num
  have hx : ∀ T h : ℝ, extraAlk T 1e-14 h = base T 1e-14 h := by
    intro T h
    unfold extraAlk
    rw [hl, if_neg (by norm_num)]
  simp only [etAlk, Sol.alk, mixture, etConstants, hx]
  norm_num [carbAlk, phosAlk, base, acid, mixContent, etContents]


theorem nernst_shifted {E t k h : ℝ} (hk : 0 < k) (hh : 0 < h) :
    nernst E t h = nernst (shiftedEmf0 E t k) t (k * h) := by
  unfold nernst shiftedEmf0
  rw [Real.log_mul hk.ne' hh.ne']
  ring

theorem et_used {k : ℝ} (h1 : 0.97 ≤ k) (h2 : k ≤ 1.03) :
    pH_used (emf_to_pH_arr (((qPts 400).map (·.2.1)).map fin) (fin (shiftedEmf0 400 25 k))
      (((qPts 400).map (·.2.2)).map fin)) (fin 3) (fin 4) = [true, true] := by
  have hk : 0 < k := by linarith
  rw [emf_to_pH_arr_fin (by
      intro t ht; obtain ⟨p, hp, rfl⟩ := List.mem_map.mp ht; exact (q_run 400).temps p hp)]
  simp only [pHRs, qPts, List.map_cons, List.map_nil, List.zipWith_cons_cons, List.zipWith_nil_left]
  rw [nernst_shifted hk (by norm_num : (0:ℝ) < 2e-4), nernst_shifted hk (by norm_num : (0:ℝ) < 9e-4),
    pHR_nernst (by norm_num) (by positivity), pHR_nernst (by norm_num) (by positivity)]
  rw [← List.map_nil (f := fin), ← List.map_cons, ← List.map_cons, pH_used_fin]
  have key : ∀ h : ℝ, 1e-4 ≤ h → h ≤ 1e-3 → inWin 3 4 (-Real.logb 10 h) = true := by
    intro h h1 h2
    have a1 : Real.logb 10 h ≤ -3 := by
      rw [Real.logb_le_iff_le_rpow (by norm_num) (by linarith), Real.rpow_neg (by norm_num)]
      norm_num; linarith
    have a2 : -4 ≤ Real.logb 10 h := by
      rw [Real.le_logb_iff_rpow_le (by norm_num) (by linarith), Real.rpow_neg (by norm_num)]
      norm_num; linarith
    simp only [inWin, Bool.and_eq_true, decide_eq_true_eq]
    constructor <;> linarith
  simp only [List.map_cons, List.map_nil]
  rw [key _ (by norm_num at h1 ⊢; linarith) (by norm_num at h2 ⊢; linarith),
    key _ (by norm_num at h1 ⊢; linarith) (by norm_num at h2 ⊢; linarith)]

/-- what is left of other bases -/
theorem et_leftover {k : ℝ} (h1 : 0.97 ≤ k) (h2 : k ≤ 1.03) :
    ∀ p ∈ qPts 400, leftover etContents etConstants etAcid 0 0.1 400 k p ≤ 3.1e-6 := by
  have hk : 0 < k := by linarith
  have main : ∀ m h : ℝ, (m = 0.001 ∨ m = 0.002) → (h = 2e-4 ∨ h = 9e-4) →
      (mixture etContents etConstants m 0.1 0 0).others.buffering (min h (k * h)) * h ≤ 1e-8 ∧
      |(mixture etContents etConstants m 0.1 0 0).others.alk 3 h + h| ≤ 1.01e-6 := by
    intro m h hm hh
    have hv : (mixture etContents etConstants m 0.1 0 0).Valid := by
      rcases hm with rfl | rfl <;> exact et_valid _ (by norm_num) 0
    have hv' : (mixture etContents etConstants m 0.1 0 0).others.Valid := { hv with ts := le_rfl, tf := le_rfl }
    have hmin : (1.9e-4 : ℝ) ≤ min h (k * h) := by
      rcases hh with rfl | rfl <;> rw [le_min_iff] <;> constructor <;> norm_num at h1 ⊢ <;> linarith
    have hb := buffering_anti hv' (by norm_num) hmin
    have hl : -Real.logb 10 (1e-14 : ℝ) = 14 := by
      rw [show (1e-14 : ℝ) = (10 : ℝ) ^ (-14 : ℝ) by rw [Real.rpow_neg (by norm_num)]; norm_num,
        Real.logb_rpow (by norm_num) (by norm_num)]
      norm_num
    have hx : ∀ T h : ℝ, extraAlk T 1e-14 h = base T 1e-14 h := by
      intro T h
      unfold extraAlk
      rw [hl, if_neg (by norm_num)]
    constructor
    · have hb' : (mixture etContents etConstants m 0.1 0 0).others.buffering 1.9e-4 ≤ 1e-6 := by
        rcases hm with rfl | rfl <;>
          norm_num [Sol.others, Sol.buffering, mono, mixture, mixContent, etContents, etConstants]
      have h0 : 0 ≤ h := by rcases hh with rfl | rfl <;> norm_num
      have h9 : h ≤ 9e-4 := by rcases hh with rfl | rfl <;> norm_num
      calc _ ≤ 1e-6 * h := mul_le_mul_of_nonneg_right (hb.trans hb') h0
        _ ≤ 1e-6 * 9e-4 := mul_le_mul_of_nonneg_left h9 (by norm_num)
        _ ≤ (1e-8 : ℝ) := by norm_num
    · simp only [Sol.alk, Sol.others, mixture, etConstants, hx]
      rcases hm with rfl | rfl <;> rcases hh with rfl | rfl <;>
        norm_num [carbAlk, phosAlk, base, acid, mixContent, etContents, abs_le]
  have tot : ∀ T K h : ℝ, 0 ≤ T → 0 < K → 0 < h → k * (T * (h ^ 2 / ((K + h) * (K + k * h)))) ≤ T := by
    intro T K h hT hK hh
    have hkh : 0 < k * h := by positivity
    rw [show k * (T * (h ^ 2 / ((K + h) * (K + k * h)))) = T * (h * (k * h) / ((K + h) * (K + k * h))) by
      field_simp]
    refine mul_le_of_le_one_right hT ?_
    rw [div_le_one (by positivity)]
    nlinarith
  have both : ∀ m h : ℝ, (m = 0.001 ∨ m = 0.002) → (h = 2e-4 ∨ h = 9e-4) →
      ∀ p : ℝ × ℝ × ℝ, p.1 = m → readAcidity 400 p = h →
      leftover etContents etConstants etAcid 0 0.1 400 k p ≤ 3.1e-6 := by
    intro m h hm hh p hpm hph
    obtain ⟨b1, b2⟩ := main m h hm hh
    have h0 : 0 < h := by rcases hh with rfl | rfl <;> norm_num
    have t1 : (mixture etContents etConstants m 0.1 0 0).ts ≤ 1e-6 ∧
        0 ≤ (mixture etContents etConstants m 0.1 0 0).ts ∧
        (mixture etContents etConstants m 0.1 0 0).tf ≤ 1e-6 ∧
        0 ≤ (mixture etContents etConstants m 0.1 0 0).tf := by
      rcases hm with rfl | rfl <;> norm_num [mixture, mixContent, etContents]
    have k1 := tot _ (mixture etContents etConstants m 0.1 0 0).ks h t1.2.1 (by norm_num [mixture, etConstants]) h0
    have k2 := tot _ (mixture etContents etConstants m 0.1 0 0).kf h t1.2.2.2 (by norm_num [mixture, etConstants]) h0
    unfold leftover acidSulfate
    rw [hpm, hph]
    simp only [mul_add k, mul_zero, zero_div, zero_mul, add_zero]
    norm_num at b1 b2 t1 ⊢
    linarith [t1.1, t1.2.2.1]
  intro p hp
  simp only [qPts, List.mem_cons, List.not_mem_nil, or_false] at hp
  rcases hp with rfl | rfl
  · exact both 0.001 2e-4 (.inl rfl) (.inl rfl) _ rfl (read_nernst _ (by norm_num) (by norm_num))
  · exact both 0.002 9e-4 (.inr rfl) (.inr rfl) _ rfl (read_nernst _ (by norm_num) (by norm_num))

noncomputable def etOpts : EmfOpts :=
  { alkalinity_init := some (fin (1e6 * etTrue)), emf0_init := some (fin 400) }

/-- `k` times alkalinity and molinity is a good fit -/
theorem et_fit {k : ℝ} (h1 : 0.97 ≤ k) (h2 : k ≤ 1.03) : ∀ p ∈ qPts 400,
    |pointMisfit etContents etConstants (k * etAcid) 1 0 0.1 (k * etTrue) (shiftedEmf0 400 25 k) p| ≤ 9.3e-8 := by
  intro p hp
  have hk : 0 < k := by linarith
  have ht : p.2.2 = 25 := by
    simp only [qPts, List.mem_cons, List.not_mem_nil, or_false] at hp
    rcases hp with rfl | rfl <;> rfl
  have hm := (q_run 400).masses p hp
  have hrd : readAcidity (shiftedEmf0 400 25 k) p = k * readAcidity 400 p := by
    rw [← ht]; exact read_shifted ((q_run 400).temps p hp) hk
  have hz := et_exact p hp
  have hlo := (mix_leftover (E := 400) (c := etAcid) (g := 0) (by norm_num) hm (by simp) (et_valid p.1 hm 0) hk).trans
    (mul_le_mul_of_nonneg_left (et_leftover h1 h2 p hp) (abs_nonneg _))
  rw [mixture_no_sulfate _ _ _ _ (k * etAcid) 0, mixture_no_sulfate _ _ _ _ etAcid 0] at hlo
  have hk1 : |k - 1| ≤ 0.03 := abs_le.mpr ⟨by linarith, by linarith⟩
  unfold pointMisfit at hz ⊢
  rw [mixture_no_sulfate _ _ _ _ _ 0] at hz
  rw [hrd, mixture_no_sulfate _ _ _ _ _ 0]
  have hpos : 0 < p.1 + 0.1 := by positivity
  have e : (mixture etContents etConstants p.1 0.1 0 0).alk 3 (k * readAcidity 400 p)
      - (k * etTrue * 0.1 - p.1 * (k * etAcid) * 1) / (p.1 + 0.1)
      = (mixture etContents etConstants p.1 0.1 0 0).alk 3 (k * readAcidity 400 p)
        - k * (mixture etContents etConstants p.1 0.1 0 0).alk 3 (readAcidity 400 p) := by
    rw [sub_eq_zero.mp hz]
    field_simp
  rw [e]
  refine hlo.trans ?_
  calc _ ≤ (0.03 : ℝ) * 3.1e-6 := mul_le_mul_of_nonneg_right hk1 (by norm_num)
    _ ≤ 9.3e-8 := by norm_num

theorem et_solve {k : ℝ} (h1 : 0.97 ≤ k) (h2 : k ≤ 1.03) :
    ∃ sr A' k', files_solve etWorld "a.dat" (fin (k * etAcid)) (fin 35) etArgs
      = .ok (.emf sr ((qPts 400).map fun p => fin p.2.2)) ∧
    sr.opt_result.x = (fin A', fin (shiftedEmf0 400 25 k')) ∧ 0.97 ≤ k' ∧ k' ≤ 1.03 ∧ sr.used = [true, true] := by
  obtain ⟨totals, ks, hs, hv, hk, hf, hf', hsol⟩ := (et_run (k * etAcid)).reduces
  obtain ⟨gg, hg⟩ := (q_gran 400) (k * etAcid)
  have hopts : emf_opts etArgs = .ok (etOpts, true) := by with_unfolding_all rfl
  have hprob := (et_run (k * etAcid)).problem (by rw [List.length_map]; exact hv) hk hsol [true, true]
  have hm : mask [true, true] (qPts 400) = qPts 400 := rfl
  have hnorm : Real.sqrt (((qPts 400).map (pointMisfit etContents etConstants (k * etAcid) 1 0 0.1 (k * etTrue)
      (shiftedEmf0 400 25 k))).map (· ^ 2)).sum ≤ 1.4e-7 := by
    have hsq := sum_sq_le (qPts 400) _ (et_fit h1 h2)
    rw [Real.sqrt_le_left (by norm_num), List.map_map]
    refine hsq.trans ?_
    have : ((qPts 400).length : ℝ) = 2 := by
      show (([_, _] : List (ℝ × ℝ × ℝ)).length : ℝ) = 2
      norm_num
    rw [this]
    norm_num
  obtain ⟨A', E', opt, ⟨k', hk1, hk2, hE⟩, hx, hls⟩ := lsIn_takes (τ := 1.4e-7) (X := etX) (k * etTrue)
    (shiftedEmf0 400 25 k) _ ⟨k, h1, h2, rfl⟩ (hprob (k * etTrue) (shiftedEmf0 400 25 k)) hnorm
  simp only at hE
  subst hE
  have hshift : shiftedEmf0 400 25 1 = 400 := by rw [shiftedEmf0, Real.log_one, mul_zero, sub_zero]
  have hone : ∀ o : EmfOpts, o.gran_logic = "v23.7+" → o.titrant_normality = fin 1 → o.pH_min = fin 3 →
      o.pH_max = fin 4 → (∃ a j, o.alkalinity_init = some (fin a) ∧ o.emf0_init = some (fin (shiftedEmf0 400 25 j)) ∧
        0.97 ≤ j ∧ j ≤ 1.03) →
      ∃ sr, solve_emf etWorld.ls (fin (k * etAcid)) (((qPts 400).map (·.1)).map fin)
      (((qPts 400).map (·.2.1)).map fin) (((qPts 400).map (·.2.2)).map fin) (fin 0.1) totals ks o false
        = .ok sr ∧ sr.opt_result.x = (fin A', fin (shiftedEmf0 400 25 k')) ∧ sr.used = [true, true] ∧
      sr.alkalinity = fin (1e6 * A') ∧ sr.emf0 = fin (shiftedEmf0 400 25 k') := by
    rintro o o1 o2 o3 o4 ⟨a, j, o5, o6, j1, j2⟩
    have hu : (emfStart o gg (((qPts 400).map (·.2.1)).map fin) (((qPts 400).map (·.2.2)).map fin)).used
        = [true, true] := by
      simp only [emfStart, o6, o3, o4]
      exact et_used j1 j2
    have hgo := hls ((emfStart o gg (((qPts 400).map (·.2.1)).map fin) (((qPts 400).map (·.2.2)).map fin)).alk,
      (emfStart o gg (((qPts 400).map (·.2.1)).map fin) (((qPts 400).map (·.2.2)).map fin)).emf0)
    refine ⟨_, solve_emf_false_iff.mpr ⟨gg, opt, by rw [o1, o2]; exact hg, by rw [o3, o4]; norm_num, hk,
      by simpa using hf, by simpa using hf', by rw [hu, o2]; exact hgo, rfl⟩, hx, hu, ?_, ?_⟩
    · simp only [emfResult, hx, mul_fin, mul_comm]
    · simp only [emfResult, hx]
  obtain ⟨sr1, g1, -, -, g4, g5⟩ := hone etOpts rfl rfl rfl rfl ⟨_, 1, rfl, by rw [hshift]; rfl, by norm_num, by norm_num⟩
  obtain ⟨sr, f1, f2, f3, -⟩ := hone
    { alkalinity_init := some sr1.alkalinity, emf0_init := some sr1.emf0, pH_min := etOpts.pH_min,
      pH_max := etOpts.pH_max, titrant_normality := etOpts.titrant_normality } rfl rfl rfl rfl
    ⟨_, k', by rw [g4], by rw [g5], hk1, hk2⟩
  refine ⟨sr, A', k', ?_, f2, hk1, hk2, f3⟩
  have htwo : solve_emf etWorld.ls (fin (k * etAcid)) (((qPts 400).map (·.1)).map fin)
      (((qPts 400).map (·.2.1)).map fin) (((qPts 400).map (·.2.2)).map fin) (fin 0.1) totals ks etOpts true
        = .ok sr := by
    rw [solve_emf_true_eq, g1, bind_ok]
    exact f1
  rw [hs, hopts]
  simp only [bind_ok, htwo]
  rfl

/-! ### The data set -/

theorem et_keys : etArgs.keys = deNames := rfl

noncomputable def etRow (cert : Flt) : Row := cellRow etArgs cert

noncomputable def etSettings : Dict Val := etArgs ++ [("opt_total_borate", .num (fin 1))]

theorem et_not_null : ∀ kv ∈ etArgs, kv.2.isNull = false := by
  intro kv hkv
  simp only [etArgs, List.mem_append, List.mem_cons, List.not_mem_nil, or_false, List.mem_map] at hkv
  rcases hkv with ((rfl | rfl | rfl | rfl) | ⟨k, -, rfl⟩) | ⟨k, -, rfl⟩ <;> rfl

theorem et_solve_settings (cert : Flt) : SettingsOf keys_solve etWorld [] deCols (etRow cert) etSettings :=
  cell_settings etWorld cert etArgs (et_run 1).nodup et_not_null (by rw [et_keys]; decide)
    (by rw [et_keys]; decide) (by rw [et_keys]; decide) (by rw [et_keys]; decide) keys_solve (by decide)
    (by decide)

theorem et_cal_settings (cert : Flt) : SettingsOf keys_calibrate etWorld [] deCols (etRow cert) etSettings :=
  cell_settings etWorld cert etArgs (et_run 1).nodup et_not_null (by rw [et_keys]; decide)
    (by rw [et_keys]; decide) (by rw [et_keys]; decide) (by rw [et_keys]; decide) keys_calibrate (by decide)
    (by decide)

theorem et_same_load : load etWorld "a.dat" (fin 35) etSettings = load etWorld "a.dat" (fin 35) etArgs := by
  with_unfolding_all rfl

theorem et_same (c : Flt) : files_solve etWorld "a.dat" c (fin 35) etSettings
    = files_solve etWorld "a.dat" c (fin 35) etArgs := by
  unfold files_solve
  rw [et_same_load]
  rfl

theorem et_byName : ByName etWorld := fun _ _ _ _ => rfl

theorem et_row_run (c : ℝ) :
    EmfRun etWorld "a.dat" (fin 35) etSettings etContents etConstants c 1 0 0.1 (qPts 400) :=
  let h := et_run c
  have hget : ∀ k ∈ deNames, etSettings.get? k = etArgs.get? k := by
    intro k hk
    unfold etSettings
    rw [Dict.get?_append]
    cases h : etArgs.get? k with
    | some v => rfl
    | none => exact absurd hk ((Dict.get?_eq_none_iff _ _).mp h)
  { loads := by rw [et_same_load]; exact h.loads
    keepsTotals := h.keepsTotals, keepsKs := h.keepsKs, sound := h.sound
    nodup := (et_solve_settings nan).1
    mode := h.mode
    sample :=
      { contents := fun k hk => by
          rw [hget k (List.mem_append_left _ (List.mem_append_right _ hk))]; exact h.sample.contents k hk
        constants := fun k hk => by
          rw [hget k (List.mem_append_right _ hk)]; exact h.sample.constants k hk
        scale := h.sample.scale }
    sulfate := h.sulfate, no_phosphate := rfl, no_fluoride := rfl, normality := h.normality
    mass := h.mass, masses := h.masses, temps := h.temps, acid := h.acid }

/-- solving the file with a molinity that is off by up to 3 %, whatever the order of its settings -/
theorem et_solved {k : ℝ} (h1 : 0.97 ≤ k) (h2 : k ≤ 1.03) :
    ∃ sr T A' k', (∀ st : Dict Val, st.keys.Nodup → SameGet etSettings st →
      files_solve etWorld "a.dat" (fin (k * etAcid)) (fin 35) st = .ok (.emf sr T)) ∧
      sr.opt_result.x = (fin A', fin (shiftedEmf0 400 25 k')) ∧ 0.97 ≤ k' ∧ k' ≤ 1.03 ∧ sr.used = [true, true] ∧
      sr.alkalinity = fin (1e6 * A') := by
  obtain ⟨sr, A', k', h, hx, hk1, hk2, hu⟩ := et_solve h1 h2
  obtain ⟨sr', he, hrep⟩ := C112_estimates etWorld "a.dat" (fin 35) etArgs etContents etConstants (k * etAcid) 1 0 0.1
    (qPts 400) (et_run _) _ h
  cases he
  refine ⟨sr, _, A', k', fun st hn hs => files_solve_alike et_byName (et_solve_settings nan).1 hn
    ⟨fun k _ _ => hs k, fun k _ _ => argNotNull_of_get (hs k)⟩ ((et_same _).trans h), hx, hk1, hk2, hu,
    (hrep _ _ hx (by rw [hu]; simp)).1⟩

theorem et_buffer : 0 ≤ (mixture etContents etConstants 0.001 0.1 etAcid 0).buffering 1.9e-4 ∧
    (mixture etContents etConstants 0.001 0.1 etAcid 0).buffering 1.9e-4 ≤ 0.001 := by
  refine ⟨buffering_nonneg (et_valid _ (by norm_num) _) (by norm_num), ?_⟩
  norm_num [Sol.buffering, mono, mixture, mixContent, etContents, etConstants]

theorem et_excess : 7.1e-5 ≤ acidExcess etContents etConstants etAcid 0 0.1 400 1.9e-4 dePoint1 dePoint2 := by
  unfold acidExcess
  rw [de_read1, de_read2]
  show _ ≤ (0.002 + 0.1) * 9e-4
    - (1 + (mixture etContents etConstants 0.001 0.1 etAcid 0).buffering 1.9e-4) * ((0.001 + 0.1) * 2e-4)
  have := et_buffer.2
  nlinarith

theorem et_gain : alkGain etContents etConstants etAcid 0 0.1 400 1.9e-4 dePoint1 dePoint2 ≤ 0.16 := by
  unfold alkGain
  rw [de_read1]
  obtain ⟨b0, b1⟩ := et_buffer
  have hex := et_excess
  show (0.001 + 0.1) * (1 + (1 + (mixture etContents etConstants 0.001 0.1 etAcid 0).buffering 1.9e-4) * 2e-4
    * (((0.001 + 0.1) + (0.002 + 0.1)) / acidExcess etContents etConstants etAcid 0 0.1 400 1.9e-4 dePoint1 dePoint2))
    ≤ 0.16
  calc _ ≤ ((0.001 : ℝ) + 0.1) * (1 + (1 + 0.001) * 2e-4 * (((0.001 + 0.1) + (0.002 + 0.1)) / 7.1e-5)) := by gcongr
    _ ≤ (0.16 : ℝ) := by norm_num

theorem acidExcess_no_sulfate (x K : String → ℝ) (c c' M E lo : ℝ) (p q : ℝ × ℝ × ℝ) :
    acidExcess x K c 0 M E lo p q = acidExcess x K c' 0 M E lo p q := by
  unfold acidExcess
  rw [mixture_no_sulfate x K p.1 M c c']

theorem alkGain_no_sulfate (x K : String → ℝ) (c c' M E lo : ℝ) (p q : ℝ × ℝ × ℝ) :
    alkGain x K c 0 M E lo p q = alkGain x K c' 0 M E lo p q := by
  unfold alkGain
  rw [acidExcess_no_sulfate x K c c', mixture_no_sulfate x K p.1 M c c']

theorem et_resolved {sr : SolveEmf} {A' k k' : ℝ} (h1 : 0.97 ≤ k) (h2 : k ≤ 1.03)
    (hx : sr.opt_result.x = (fin A', fin (shiftedEmf0 400 25 k'))) (hk1 : 0.97 ≤ k')
    (hu : sr.used = [true, true]) :
    Resolved etContents etConstants etAcid 0 400 0.1 (qPts 400) sr k 3.1e-6 0.16 2.42 := by
  have hm : mask sr.used (qPts 400) = [dePoint1, dePoint2] := by rw [hu]; rfl
  have hex := et_excess
  have hr : readAcidity (shiftedEmf0 400 25 k') dePoint1 = k' * 2e-4 := by
    rw [← de_read1]
    exact read_shifted (p := dePoint1) (by norm_num [dePoint1]) (by linarith)
  refine ⟨1.9e-4, dePoint1, dePoint2, ⟨by norm_num, ?_, by rw [hm]; simp, by rw [hm]; simp,
    ⟨_, _, hx, by rw [hr]; norm_num at hk1 ⊢; linarith⟩,
      by rw [acidExcess_no_sulfate _ _ _ etAcid]; linarith⟩, ?_,
    by rw [alkGain_no_sulfate _ _ _ etAcid]; exact et_gain, ?_⟩
  · intro y hy
    rw [hm] at hy
    simp only [List.mem_cons, List.not_mem_nil, or_false] at hy
    rcases hy with rfl | rfl
    · rw [de_read1]; norm_num at h1 ⊢; linarith
    · rw [de_read2]; norm_num at h1 ⊢; linarith
  · rw [hm]; exact et_leftover h1 h2
  · have hs2 : Real.sqrt 2 ≤ 1.42 := by
      rw [Real.sqrt_le_left (by norm_num)]; norm_num
    have : (([dePoint1, dePoint2] : List (ℝ × ℝ × ℝ)).length : ℝ) = 2 := by norm_num
    rw [hm, this]
    linarith

theorem et_near (cert : Flt) : NearEmf etWorld [] deCols (etRow cert) etTrue etAcid 400 0 "a.dat" (fin 35)
    etContents etConstants 1 0 0.1 25 (qPts 400) where
  file := cell_file etArgs cert (by rw [et_keys]; decide)
  run := ⟨etSettings, et_solve_settings cert, et_row_run _⟩
  positive := by have := et_true.2.2; linarith
  fits p hp := by
    have h3 := et_exact p hp
    have hp' : p ∈ [dePoint1, dePoint2] := hp
    simp only [List.mem_cons, List.not_mem_nil, or_false] at hp'
    rw [h3, abs_zero]
    rcases hp' with rfl | rfl
    · exact ⟨rfl, le_rfl⟩
    · exact ⟨rfl, le_rfl⟩

theorem et_solvable (cert : Flt) : SolvableNear etWorld [] deCols (etRow cert) etAcid (0.03 * etAcid) 400 "a.dat"
    (fin 35) etContents etConstants 0 0.1 (qPts 400) 3.1e-6 0.16 2.42 := by
  intro st hst c' hc'
  have hpos : 0 < etAcid := by have := et_true.2.2; linarith
  have hkc : c' / etAcid * etAcid = c' := div_mul_cancel₀ _ hpos.ne'
  obtain ⟨l1, l2⟩ := abs_le.mp hc'
  have h1 : 0.97 ≤ c' / etAcid := by rw [le_div_iff₀ hpos]; linarith
  have h2 : c' / etAcid ≤ 1.03 := by rw [div_le_iff₀ hpos]; linarith
  obtain ⟨sr, T, A', k', h, hx, hk1, -, hu, -⟩ := et_solved h1 h2
  have h := h st hst.1 ((et_solve_settings cert).same hst)
  rw [hkc] at h
  exact ⟨sr, T, h, et_resolved h1 h2 hx hk1 hu⟩

/-- the certified value, 5 µmol/kg too high -/
noncomputable def etCert : ℝ := etTrue + 5e-6

theorem et_calibrate (cert : Flt) : ∃ ρ, |ρ| ≤ 5.4 ∧ ∀ st,
    SettingsOf keys_calibrate etWorld [] deCols (etRow cert) st →
    files_calibrate etWorld "a.dat" (fin (1e6 * etCert)) (fin 35) st = .ok ⟨fin etAcid, [fin ρ]⟩ := by
  obtain ⟨sr, T, A', k', h, hx, hk1, hk2, hu, ha⟩ := et_solved (k := 1) (by norm_num) (by norm_num)
  obtain ⟨least, p, q, ht, hl, hW, -⟩ := et_resolved (k := 1) (by norm_num) (by norm_num) hx hk1 hu
  obtain ⟨A2, E2, hx2, hl2⟩ := ht.found
  rw [hx] at hx2
  obtain ⟨rfl, rfl⟩ := (by simpa using hx2 : A' = A2 ∧ shiftedEmf0 400 25 k' = E2)
  obtain ⟨-, -, hoff⟩ := C136_solve etWorld "a.dat" (fin 35) etSettings etContents etConstants etAcid 1 1 0 0.1
    (qPts 400) (et_row_run _) one_pos (lsIn_contracts 1.4e-7 etX).2 sr T
    (h _ (et_solve_settings nan).1 fun _ => rfl) etTrue 400 A' _ 25 least 0 3.1e-6 hx ht.least_pos
    (fun y hy => ⟨((et_near cert).fits y (mask_subset _ _ hy)).1, (ht.acid y hy).1, (ht.acid y hy).2,
      ((et_near cert).fits y (mask_subset _ _ hy)).2⟩) hl p q ht.first ht.second hl2 ht.more
  rw [sub_self, abs_zero, zero_mul, mul_zero, add_zero, mul_zero, zero_add, one_mul] at hoff
  have hA : |A' - etTrue| ≤ 3e-7 := by
    have := mul_le_mul_of_nonneg_right hW (show (0 : ℝ) ≤ 1.4e-7 by norm_num)
    norm_num at hoff this ⊢
    linarith
  refine ⟨1e6 * A' - 1e6 * etCert, ?_, ?_⟩
  · unfold etCert
    obtain ⟨a1, a2⟩ := abs_le.mp hA
    rw [abs_le]
    norm_num at a1 a2 ⊢
    constructor <;> linarith
  intro st hst
  have hsame := (et_cal_settings cert).same hst
  have hag := (et_cal_settings cert).agree hst calibrate_keys calibrate_keys
  have h := h st hst.1 hsame
  obtain ⟨totals, ks, hl⟩ := et_load
  have hl' : load etWorld "a.dat" (fin 35) st = .ok (qCv 400, totals, ks) := by
    rw [← hag.load et_byName, et_same_load]; exact hl
  have htt : titrant_totals st = .ok [] := by
    have : st.filter (fun kv => keys_titrant_totals.contains kv.1) = [] := by
      rw [List.filter_eq_nil_iff]
      intro kv hkv hc
      have hg := Dict.mem_get? hst.1 hkv
      rw [← hsame] at hg
      have : kv.1 ∈ keys_titrant_totals := by simpa using hc
      simp only [keys_titrant_totals, List.mem_cons, List.not_mem_nil, or_false] at this
      rcases this with e | e | e <;> (rw [e] at hg; cases hg)
    unfold titrant_totals
    rw [this]; rfl
  have htyped : Typed st "emf" (fin 0.1) (ttArgs []) := by
    refine ⟨?_, ?_, htt, ?_⟩
    · unfold solve_mode argVal
      rw [← hsame "solve_mode"]
      exact ec_typed.mode
    · rw [← hsame.argNum]; rfl
    · rw [← emf_opts_congr hsame]; exact ⟨_, rfl⟩
  have hgl : st.get? "gran_logic" = none := by rw [← hsame]; rfl
  have hc := C32_same_solver etWorld "a.dat" "emf" (fin (1e6 * etCert)) (fin 35) (fin 0.1) st
    (qCv 400) totals ks hl' htyped hgl (by decide) rfl
  rw [one_mul] at h
  have hs : solveRes etWorld "a.dat" (fin 35) (fin (1e6 * etCert)) st (fin etAcid) ()
      = (.ok [fin (1e6 * A' - 1e6 * etCert)], ()) := by
    simp only [solveRes, h, bind_ok, pure_ok, SolveRes.alkalinity, ha, sub_fin, PyS.lift]
  rw [hc]
  show ((lsqAt etAcid).run (solveRes etWorld "a.dat" (fin 35) (fin (1e6 * etCert)) st) (fin 0.1) ()).1 = _
  simp [Lsq.run, Lsq.loop, lsqAt, allFinite, PyS.bind_apply, hs]

theorem et_calibrated : CalibratedNear etWorld [] deCols (etRow (fin (1e6 * etCert))) (1e6 * etCert) 5.4 etAcid 400
    "a.dat" (fin 35) etContents etConstants 0 0.1 (qPts 400) 3.1e-6 0.16 2.42 where
  certified := rfl
  typed := ⟨etSettings, et_cal_settings _, ⟨_, rfl⟩, ⟨_, rfl⟩⟩
  small st hst res hres ρ hρ := by
    obtain ⟨ρ', h, hc⟩ := et_calibrate (fin (1e6 * etCert))
    rw [hc st hst] at hres
    rw [← Except.ok.inj hres] at hρ
    simp only [List.cons.injEq, fin_inj, and_true] at hρ
    rwa [← hρ]
  found st hst res hres := by
    obtain ⟨ρ', -, hc⟩ := et_calibrate (fin (1e6 * etCert))
    rw [hc st hst] at hres
    rw [← Except.ok.inj hres]
    have hpos : 0 < etAcid := by have := et_true.2.2; linarith
    refine ⟨etAcid, rfl, hpos, fun sr T h => ?_⟩
    obtain ⟨sr', T', A', k', h', hx, hk1, -, hu, -⟩ := et_solved (k := 1) (by norm_num) (by norm_num)
    have h' := h' st hst.1 ((et_cal_settings _).same hst)
    rw [one_mul] at h'
    rw [h'] at h
    cases h
    rw [div_self hpos.ne']
    exact et_resolved (by norm_num) (by norm_num) hx hk1 hu

/-- every hypothesis of `C136_dataset` is met: with a reference that is 5 µmol/kg off, the molinity is found
within 3 % and the sample's alkalinity within 17 µmol/kg -/
example : ∃ (df' : DF) (r1 r2 : Row) (c a : ℝ),
    dataset_calibrate etWorld [] ⟨deCols, [etRow (fin (1e6 * etCert)), etRow nan]⟩ = (.ok (), df') ∧
    df'.rows = [r1, r2] ∧ r2 "titrant_molinity" = .num (fin c) ∧ |c - etAcid| ≤ 0.03 * etAcid ∧
    r2 "alkalinity" = .num (fin a) ∧ |a - 1e6 * etTrue| ≤ 17 := by
  obtain ⟨ρ, -, hcal⟩ := et_calibrate (fin (1e6 * etCert))
  obtain ⟨df', r1, r2, h, hr, hb, h1, h2⟩ := cell_frame etWorld etArgs etCert etAcid
    (by rw [et_keys]; decide) (by rw [et_keys]; decide) (by rw [et_keys]; decide)
    (by rw [et_keys]; decide) (by rw [et_keys]; decide) (l := [fin ρ])
    (fun st hst => hcal st hst)
  have hmain := C136_dataset etWorld et_byName (lsqAt_reports _) (lsqAt_finite _) (by norm_num)
    (lsIn_contracts 1.4e-7 etX).2 [] _ df'
    (by decide) h (fun r hr => by rw [hb r hr]; exact .inr ⟨_, rfl, by simp⟩) (fun _ => etAcid)
    (fun _ => 0.03 * etAcid)
  rw [hr] at hmain hb
  simp only [List.forall₂_cons, List.Forall₂.nil, and_true] at hmain
  obtain ⟨t1, t2, t3⟩ := et_true
  have hpos : 0 < etAcid := by linarith
  have hA : |etTrue| * 0.1 = etTrue * 0.1 := by rw [abs_of_pos (by norm_num at t1; linarith)]
  have hcert : |1e6 * etCert - 1e6 * etTrue| = 5 := by
    unfold etCert
    rw [show 1e6 * (etTrue + 5e-6) - 1e6 * etTrue = 5 by ring]
    norm_num
  obtain ⟨-, g2⟩ := hmain
    ⟨fun _ => ⟨etTrue, 400, 0, 3.1e-6, 0.16, 2.42, 1e6 * etCert, 5.4, "a.dat", fin 35, etContents, etConstants, 1, 0, 0.1,
      25, qPts 400, et_near _, le_rfl, by norm_num, et_calibrated, by rw [hA]; norm_num at t1 ⊢; linarith, by
        unfold emfCalibrationError
        rw [hcert, hA, div_le_iff₀ (by norm_num at t1 ⊢; linarith), mul_comm (0.03 : ℝ), mul_assoc]
        refine mul_le_mul_of_nonneg_left ?_ hpos.le
        norm_num at t1 ⊢
        linarith⟩,
      fun hi => absurd hi h2⟩
  obtain ⟨⟨c, hc, hcc⟩, g2⟩ := g2 ⟨r1, by simp, h1, by rw [hb r1 (by simp), hb r2 (by simp)]⟩
  obtain ⟨a, ha, hae, -⟩ := g2 _ _ _ _ _ _ _ _ _ _ _ _ _ _ _ (et_near nan) le_rfl (by norm_num) (et_solvable nan)
    (by linarith)
  refine ⟨df', r1, r2, c, a, h, hr, hc, hcc, ha, hae.trans ?_⟩
  unfold emfError
  rw [hA, mul_div_assoc, div_self hpos.ne']
  norm_num at t2 ⊢
  linarith

end Calk
