import Verif.Props.EmfWritten

/-!
# Property C123: a case

Two points at 200 mV and 230 mV, written in g to a new file and solved from there.
-/

namespace Calk
open Flt Spec

/-- the EMF0 for which 200 mV at 25 °C is an acidity of 2e-4 mol/kg -/
noncomputable def wrQ : ℝ := 200 - 8.3144621 * (25 + 273.15) / 96.4853365 * Real.log 2e-4

/-- the acidity of the second point -/
noncomputable def wrB : ℝ := 2e-4 * Real.exp (30 / (8.3144621 * (25 + 273.15) / 96.4853365))

theorem wrB_bounds : 4.3e-4 ≤ wrB ∧ wrB ≤ 1e-3 := by
  set s : ℝ := 8.3144621 * (25 + 273.15) / 96.4853365 with hs
  have h1 := Real.add_one_le_exp (30 / s)
  have h2 := Real.one_sub_le_exp_neg (7.5 / s)
  have e1 : (1.16 : ℝ) ≤ 30 / s := by norm_num [hs]
  have e2 : (7.5 : ℝ) / s ≤ 0.293 := by norm_num [hs]
  have h3 : (0.707 : ℝ) ≤ Real.exp (-(7.5 / s)) := by linarith
  have h4 : Real.exp (7.5 / s) ≤ 0.707⁻¹ := by
    rw [← neg_neg (7.5 / s), Real.exp_neg]
    exact inv_anti₀ (by norm_num) h3
  have h5 : Real.exp (30 / s) = Real.exp (7.5 / s) ^ 4 := by
    rw [← Real.exp_nat_mul]
    congr 1
    push_cast
    ring
  have h6 : Real.exp (7.5 / s) ^ 4 ≤ (0.707⁻¹ : ℝ) ^ 4 := pow_le_pow_left₀ (Real.exp_pos _).le h4 4
  unfold wrB
  rw [← hs]
  constructor
  · linarith
  · rw [h5]
    norm_num at h6 ⊢
    linarith

theorem wr_first : nernst wrQ 25 2e-4 = 200 := by
  unfold nernst wrQ
  ring

theorem wr_second : nernst wrQ 25 wrB = 230 := by
  unfold nernst wrQ wrB
  rw [Real.log_mul (by norm_num) (Real.exp_pos _).ne', Real.log_exp]
  field_simp
  ring

/-- what is written -/
noncomputable def wrData : List (ℝ × ℝ × ℝ) := [(1, 200, 25), (2, 230, 25)]

/-- what is solved -/
noncomputable def wrPts : List (ℝ × ℝ × ℝ) := wrData.map fun q => (q.1 * 1e-3, q.2.1, q.2.2)

theorem wrPts_eq : wrPts = [(0.001, nernst wrQ 25 2e-4, 25), (0.002, nernst wrQ 25 wrB, 25)] := by
  rw [wr_first, wr_second]
  norm_num [wrPts, wrData]

noncomputable def wrAcid : ℝ := (qAlk 0.001 2e-4 * 0.101 - qAlk 0.002 wrB * 0.102) / 0.001

noncomputable def wrTrue : ℝ := (qAlk 0.001 2e-4 * 0.101 + 0.001 * wrAcid) / 0.1

noncomputable def wrArgs : Dict Val :=
  [ ("analyte_mass", .num (fin 0.1)), ("titrant_amount_unit", .str "g"),
    ("emf0_init", .num (fin wrQ)), ("alkalinity_init", .num (fin (1e6 * wrTrue))) ] ++
  (("dic" :: (optionalContents ++ saltContents)).map fun k => (k, Val.num (fin (pContents k)))) ++
  allConstants.map fun k => (k, Val.num (fin (qConstants k)))

noncomputable def wrWorld (fs : FS) (pd : Pandas) : World :=
  { keepWorld with readDat := readDatFrom fs pd, ls := lsExact }

theorem wr_args (fs : FS) (pd : Pandas) : EmfArgs (wrWorld fs pd) wrArgs pContents qConstants wrAcid 1 0 0.1 := by
  refine ⟨keepWorld_totals, keepWorld_ks, lsExact_contracts.1, ?_, .inl rfl, ⟨?_, ?_, ?_⟩,
    .inr ⟨rfl, rfl⟩, rfl, rfl, .inr ⟨rfl, rfl⟩, by norm_num, by norm_num⟩
  · have : Dict.keys wrArgs = [ "analyte_mass", "titrant_amount_unit", "emf0_init",
      "alkalinity_init" ] ++ ("dic" :: (optionalContents ++ saltContents)) ++ allConstants := rfl
    rw [this]
    decide
  · intro k hk
    refine ⟨?_, by norm_num [pContents]⟩
    simp only [optionalContents, saltContents, List.cons_append, List.nil_append, List.mem_cons,
      List.not_mem_nil, or_false] at hk
    rcases hk with rfl | rfl | rfl | rfl | rfl | rfl | rfl | rfl | rfl | rfl <;> rfl
  · intro k hk
    refine ⟨?_, by norm_num [qConstants]⟩
    simp only [allConstants, List.mem_cons, List.not_mem_nil, or_false] at hk
    rcases hk with rfl | rfl | rfl | rfl | rfl | rfl | rfl | rfl | rfl | rfl | rfl | rfl | rfl | rfl
      <;> rfl
  · exact not_onTotalScale rfl

theorem wr_totals (fs : FS) (pd : Pandas) : ∃ t tp, get_totals (wrWorld fs pd) (fin 35)
      ((get_kwargs_for keys_totals_ks wrArgs none).filter fun kv => keys_get_totals.contains kv.1)
        = .ok (t, tp) ∧ ∀ n, ∀ kv ∈ t, kv.2.fits n = true := by
  have hkw : ((get_kwargs_for keys_totals_ks wrArgs none).filter
      fun kv => keys_get_totals.contains kv.1)
        = ("dic" :: (optionalContents ++ saltContents)).map fun k => (k, Val.num (fin 10)) := rfl
  rw [hkw]
  simp [get_totals, wrWorld, keepWorld, argNum, argNotNull, Dict.get?, Val.toFlt, bind_ok, pure_ok,
    copyIfPos, Val.isNull, Dict.get, Dict.get?_append, totals_for_pyco2, setIf_get?,
    optionalContents, saltContents, setIfPos, Dict.set, NpVal.fits]
  intro n a b h
  rcases h with h | h | h | h | h | h | h | h | h | h <;> rw [h.2]

theorem wr_ks (fs : FS) (pd : Pandas) (T : List Flt) : ∃ ks, ∀ tp, get_k_constants (wrWorld fs pd) tp T
      ((get_kwargs_for keys_totals_ks wrArgs none).filter
        fun kv => keys_get_k_constants.contains kv.1) = .ok ks := by
  have hkw : ((get_kwargs_for keys_totals_ks wrArgs none).filter
      fun kv => keys_get_k_constants.contains kv.1)
        = allConstants.map fun k => (k, Val.num (fin 1e-8)) := rfl
  rw [hkw]
  simp [get_k_constants, wrWorld, keepWorld, ks_for_pyco2, argNotNull, Dict.get?, Val.toFlt, bind_ok,
    pure_ok, Val.isNull, calk_to_pyco2_ks, setIf, Dict.set, argVal, Val.eqNum, feq, allConstants]

theorem wr_load (fs : FS) (pd : Pandas) (f : String) (d : DatData)
    (h : readDatFrom fs pd f [] = .ok d) : ∃ out, load (wrWorld fs pd) f (fin 35) wrArgs = .ok out := by
  set tm := d.titrant_amount.map fun x => x * fin 1e-3 with htm
  obtain ⟨t, tp, h1, hfit⟩ := wr_totals fs pd
  obtain ⟨ks, h2⟩ := wr_ks fs pd d.temperature
  obtain ⟨totals, h3, -⟩ := C05_dilute_totals t tm (fin 0.1) (hfit _)
  refine ⟨(⟨tm, d.measurement, d.temperature, fin 0.1, fin 35⟩, totals, ks), ?_⟩
  unfold load
  have e1 : full_name f wrArgs = .ok f := rfl
  have e2 : (wrWorld fs pd).readDat f (get_kwargs_for keys_read_dat wrArgs none) = .ok d := h
  have e3 : amount_units d (fin 35) (get_kwargs_for keys_cau wrArgs none)
      = .ok ⟨tm, d.measurement, d.temperature, fin 0.1, fin 35⟩ := by
    have hkw : get_kwargs_for keys_cau wrArgs none
      = [("analyte_mass", .num (fin 0.1)), ("titrant_amount_unit", .str "g")] := rfl
    rw [hkw]
    simp [amount_units, override_temperature, titrant_masses, get_analyte_mass, argOpt, argVal,
      argNotNull, Dict.get?, Val.toFlt, Val.isNull, Val.lower, bind_ok, pure_ok, pyAssert, htm,
      show lowerS "g" = "g" by decide]
  have e4 : totals_for_ks ⟨tm, d.measurement, d.temperature, fin 0.1, fin 35⟩ tp
      (get_kwargs_for keys_totals_ks wrArgs none) = .ok tp := rfl
  rw [e1, bind_ok, e2, bind_ok, e3, bind_ok]
  unfold totals_ks
  simp only [h1, bind_ok, h3, e4, h2]
  rfl

/-- the file -/
noncomputable def wrFS : FS :=
  ((write_dat "a.dat" (wrData.map fun q => fin q.1) (wrData.map fun q => fin q.2.1)
    (wrData.map fun q => fin q.2.2) : PyS FS Unit) (fun _ => none)).2

theorem wr_loads (pd : Pandas) : ∃ out, load (wrWorld wrFS pd) "a.dat" (fin 35) wrArgs = .ok out := by
  obtain ⟨fs', d, h1, h2, -⟩ := C53_round_trip (fun _ => none) pd "a.dat" (wrData.map fun q => fin q.1)
    (wrData.map fun q => fin q.2.1) (wrData.map fun q => fin q.2.2)
    "Titration data exported by Calkulate" "titrant_amount\tmeasurement\ttemperature"
    3 3 3 (by constructor <;> decide) (by constructor <;> decide) rfl (by simp [wrData])
  have : wrFS = fs' := by rw [wrFS, h1]
  refine wr_load wrFS pd "a.dat" d ?_
  unfold readDatFrom
  rw [this, h2]
  rfl

theorem wr_noRead : NoReadSettings wrArgs := by
  intro k hk
  simp only [keys_read_dat, List.mem_cons, List.not_mem_nil, or_false] at hk
  rcases hk with rfl | rfl | rfl | rfl | rfl | rfl | rfl | rfl | rfl <;> rfl

theorem wr_decimals : ∀ q ∈ wrData, Thousandths q.1 ∧ Thousandths q.2.1 ∧ Thousandths q.2.2 := by
  intro q hq
  simp only [wrData, List.mem_cons, List.not_mem_nil, or_false] at hq
  rcases hq with rfl | rfl
  · exact ⟨⟨1000, by norm_num⟩, ⟨200000, by norm_num⟩, ⟨25000, by norm_num⟩⟩
  · exact ⟨⟨2000, by norm_num⟩, ⟨230000, by norm_num⟩, ⟨25000, by norm_num⟩⟩

theorem wr_run (pd : Pandas) :
    EmfRun (wrWorld wrFS pd) "a.dat" (fin 35) wrArgs pContents qConstants wrAcid 1 0 0.1 wrPts := by
  refine C123_as_written (wrWorld wrFS pd) (fun _ => none) pd "a.dat" (fin 35) wrArgs pContents qConstants
    wrAcid 1 0 0.1 1e-3 wrData rfl (by simp [wrData]) rfl wr_noRead (.inl ⟨"g", rfl, by decide, rfl⟩)
    (by norm_num) rfl rfl (wr_loads pd) (wr_args _ _) ?_ ?_ wr_decimals
  all_goals
    intro q hq
    simp only [wrData, List.mem_cons, List.not_mem_nil, or_false] at hq
    rcases hq with rfl | rfl <;> norm_num

/-- the points are exact -/
theorem wr_exact : ∀ p ∈ wrPts, 0 < readAcidity wrQ p ∧ p.2.1 = nernst wrQ p.2.2 (readAcidity wrQ p) ∧
    (mixture pContents qConstants p.1 0.1 wrAcid 0).alk 3 (readAcidity wrQ p) * (p.1 + 0.1)
      = wrTrue * 0.1 - p.1 * wrAcid * 1 := by
  intro p hp
  have hb := wrB_bounds
  have hb0 : 0 < wrB := lt_of_lt_of_le (by norm_num) hb.1
  rw [wrPts_eq] at hp
  simp only [List.mem_cons, List.not_mem_nil, or_false] at hp
  rcases hp with rfl | rfl
  · rw [read_nernst _ (by norm_num) (by norm_num), mixture_no_sulfate _ _ _ _ _ 0]
    refine ⟨by norm_num, rfl, ?_⟩
    rw [show (mixture pContents qConstants 0.001 0.1 0 0).alk 3 2e-4 = qAlk 0.001 2e-4 from rfl]
    unfold wrTrue
    ring
  · rw [read_nernst _ (by norm_num) hb0, mixture_no_sulfate _ _ _ _ _ 0]
    refine ⟨hb0, rfl, ?_⟩
    rw [show (mixture pContents qConstants 0.002 0.1 0 0).alk 3 wrB = qAlk 0.002 wrB from rfl]
    unfold wrTrue wrAcid
    ring

theorem wr_gran (pd : Pandas) (c : ℝ) : ∃ g, gran_guesses ((wrPts.map (·.1)).map fin)
    ((wrPts.map (·.2.1)).map fin) ((wrPts.map (·.2.2)).map fin) (fin 0.1) (fin c) (fin 1) "v23.7+" = .ok g := by
  have hT : ∀ p ∈ wrPts, -273.15 < p.2.2 := (wr_run pd).temps
  have hb := wrB_bounds
  have hb0 : 0 < wrB := lt_of_lt_of_le (by norm_num) hb.1
  have hg := gran_gfunc wrPts 0.1 hT
  set k := Real.exp (wrQ * 96.4853365 / (8.3144621 * (25 + 273.15))) with hk
  have hgr : ∀ m h : ℝ, 0 < h → Spec.gran 0.1 (m, nernst wrQ 25 h, 25) = (m + 0.1) * (k * h) := by
    intro m h hh
    simp only [Spec.gran, hk]
    congr 1
    rw [← Real.exp_log hh, ← Real.exp_add, Real.exp_log hh]
    congr 1
    unfold nernst
    field_simp
  have hk0 : 0 < k := Real.exp_pos _
  have hpts : wrPts.map (Spec.gran 0.1) = [0.101 * (k * 2e-4), 0.102 * (k * wrB)] := by
    rw [wrPts_eq]
    simp only [List.map_cons, List.map_nil, hgr _ 2e-4 (by norm_num), hgr _ wrB hb0]
    norm_num
  obtain ⟨j, mx, hmx, hle, ⟨hj, hj'⟩, hlt, hu⟩ := gran_used_default (gs := wrPts.map (Spec.gran 0.1))
    (by simp [wrPts, wrData]) (by
      intro g hg
      rw [hpts] at hg
      simp only [List.mem_cons, List.not_mem_nil, or_false] at hg
      rcases hg with rfl | rfl <;> positivity)
  rw [hpts] at hmx hu hj
  simp only [hpts] at hlt
  have hkb : k * wrB ≤ k * 1e-3 := mul_le_mul_of_nonneg_left hb.2 hk0.le
  have hj0 : j = 0 := by
    by_contra hc
    have := hlt 0 (by simp) (Nat.pos_of_ne_zero hc)
    simp only [List.getElem_cons_zero] at this
    simp only [List.mem_cons, List.not_mem_nil, or_false] at hmx
    rcases hmx with rfl | rfl <;> linarith
  subst hj0
  set g0 := 0.101 * (k * 2e-4)
  set g1 := 0.102 * (k * wrB)
  obtain ⟨lr, hlr, -⟩ := linregress_exact (xs := [0.001, 0.002]) ((g1 - g0) / 0.001) (2 * g0 - g1)
    (by exact ⟨0.001, by simp, 0.002, by simp, by norm_num⟩)
  have e1 : List.map (fun x => fin ((g1 - g0) / 0.001 * x + (2 * g0 - g1))) [0.001, 0.002]
      = [fin g0, fin g1] := by
    simp only [List.map_cons, List.map_nil, List.cons.injEq, fin_inj, and_true]
    constructor <;> ring
  rw [e1] at hlr
  unfold gran_guesses gran_alkalinity
  have hz : zip3With (fun m e t => gran_function m e t (fin 0.1)) ((wrPts.map (·.1)).map fin)
      ((wrPts.map (·.2.1)).map fin) ((wrPts.map (·.2.2)).map fin) = [fin g0, fin g1] := by
    rw [List.map_map, List.map_map, List.map_map]
    refine Eq.trans hg ?_
    rw [hpts]; rfl
  have hu' : gran_used [fin g0, fin g1] "v23.7+" = .ok [true, true] := hu
  have hm : ∀ a b : Flt, mask [true, true] [a, b] = [a, b] := fun _ _ => rfl
  have hl' : linregress [fin 0.001, fin 0.002] [fin g0, fin g1] = .ok lr := hlr
  have hs : sameShape3 ((wrPts.map (·.1)).map fin) ((wrPts.map (·.2.1)).map fin)
      ((wrPts.map (·.2.2)).map fin) = .ok () := by
    simp [sameShape3]
  have hx : mask [true, true] ((wrPts.map (·.1)).map fin) = [fin 0.001, fin 0.002] := by
    rw [wrPts_eq]; rfl
  simp only [hs, bind_ok, hz, hu', hm, hx, hl']
  exact ⟨_, rfl⟩

noncomputable def wrOpts : EmfOpts :=
  { alkalinity_init := some (fin (1e6 * wrTrue)), emf0_init := some (fin wrQ) }

theorem wr_window {h : ℝ} (h1 : 1e-4 ≤ h) (h2 : h ≤ 1e-3) : 3 ≤ -Real.logb 10 h ∧ -Real.logb 10 h ≤ 4 := by
  have a1 : Real.logb 10 h ≤ -3 := by
    rw [Real.logb_le_iff_le_rpow (by norm_num) (by linarith), Real.rpow_neg (by norm_num)]
    norm_num; linarith
  have a2 : -4 ≤ Real.logb 10 h := by
    rw [Real.le_logb_iff_rpow_le (by norm_num) (by linarith), Real.rpow_neg (by norm_num)]
    norm_num; linarith
  constructor <;> linarith

theorem wr_used : (emf_to_pH_arr ((wrPts.map (·.2.1)).map fin) (fin wrQ) ((wrPts.map (·.2.2)).map fin))
    = ([-Real.logb 10 2e-4, -Real.logb 10 wrB].map fin) ∧
    pH_used ([-Real.logb 10 2e-4, -Real.logb 10 wrB].map fin) (fin 3) (fin 4) = [true, true] := by
  have hb := wrB_bounds
  have hb0 : 0 < wrB := lt_of_lt_of_le (by norm_num) hb.1
  constructor
  · rw [emf_to_pH_arr_fin (by
      intro t ht; obtain ⟨p, hp, rfl⟩ := List.mem_map.mp ht
      simp only [wrPts, wrData, List.map_cons, List.map_nil, List.mem_cons, List.not_mem_nil, or_false] at hp
      rcases hp with rfl | rfl <;> norm_num)]
    rw [wrPts_eq]
    simp only [pHRs, List.map_cons, List.map_nil, List.zipWith_cons_cons, List.zipWith_nil_left]
    rw [pHR_nernst (by norm_num) (by norm_num), pHR_nernst (by norm_num) hb0]
  · rw [pH_used_fin]
    have key : ∀ h : ℝ, 1e-4 ≤ h → h ≤ 1e-3 → inWin 3 4 (-Real.logb 10 h) = true := by
      intro h h1 h2
      simp only [inWin, Bool.and_eq_true, decide_eq_true_eq]
      exact wr_window h1 h2
    simp only [List.map_cons, List.map_nil]
    rw [key _ (by norm_num) (by norm_num), key _ (le_trans (by norm_num) hb.1) hb.2]

/-- the run on it: solved twice, as is the default -/
theorem wr_solve (pd : Pandas) : ∃ sr, files_solve (wrWorld wrFS pd) "a.dat" (fin wrAcid) (fin 35) wrArgs
      = .ok (.emf sr (wrPts.map fun p => fin p.2.2)) ∧
    sr.opt_result.x = (fin wrTrue, fin wrQ) ∧ sr.used = [true, true] := by
  obtain ⟨totals, ks, hs, hv, hk, hf, hf', hsol⟩ := (wr_run pd).reduces
  obtain ⟨gg, hg⟩ := wr_gran pd wrAcid
  have hopts : emf_opts wrArgs = .ok (wrOpts, true) := by with_unfolding_all rfl
  have hst : emfStart wrOpts gg ((wrPts.map (·.2.1)).map fin) ((wrPts.map (·.2.2)).map fin)
      = { alk := fin wrTrue, emf0 := fin wrQ, used := [true, true] } := by
    simp only [emfStart, wrOpts, wr_used.1, wr_used.2, mul_fin]
    congr 2
    ring
  have hmis : (mask [true, true] wrPts).map (pointMisfit pContents qConstants wrAcid 1 0 0.1 wrTrue wrQ)
      = List.replicate 2 0 := by
    have hz : ∀ p ∈ wrPts, pointMisfit pContents qConstants wrAcid 1 0 0.1 wrTrue wrQ p = 0 := by
      intro p hp
      have h3 := (wr_exact p hp).2.2
      have hp0 : p.1 + 0.1 ≠ 0 := by have := (wr_run pd).masses p hp; positivity
      rw [pointMisfit, ← h3, mul_div_assoc, div_self hp0, mul_one, sub_self]
    have : mask [true, true] wrPts = wrPts := rfl
    rw [this]
    exact List.eq_replicate_iff.mpr ⟨by simp [wrPts, wrData], fun b hb => by
      obtain ⟨p, hp, rfl⟩ := List.mem_map.mp hb
      exact hz p hp⟩
  have hprob := (wr_run pd).problem (by rw [List.length_map]; exact hv) hk hsol [true, true] wrTrue wrQ
  rw [hmis] at hprob
  have hex : ∃ k, emfProblem (fin wrAcid) (fin 1) (fin 0.1) ((wrPts.map (·.1)).map fin)
      ((wrPts.map (·.2.1)).map fin) ((wrPts.map (·.2.2)).map fin) totals ks [true, true]
      (fin wrTrue, fin wrQ) = .ok ((List.replicate k (0:ℝ)).map fin) := ⟨2, hprob⟩
  obtain ⟨opt, hls, hx⟩ : ∃ opt, (wrWorld wrFS pd).ls (emfProblem (fin wrAcid) (fin 1) (fin 0.1)
      ((wrPts.map (·.1)).map fin) ((wrPts.map (·.2.1)).map fin) ((wrPts.map (·.2.2)).map fin) totals ks
      [true, true]) (fin wrTrue, fin wrQ) = .ok opt ∧ opt.x = (fin wrTrue, fin wrQ) :=
    ⟨_, dif_pos hex, rfl⟩
  have hone : ∃ sr, solve_emf (wrWorld wrFS pd).ls (fin wrAcid) ((wrPts.map (·.1)).map fin)
      ((wrPts.map (·.2.1)).map fin) ((wrPts.map (·.2.2)).map fin) (fin 0.1) totals ks wrOpts false
        = .ok sr ∧ sr.opt_result.x = (fin wrTrue, fin wrQ) ∧ sr.used = [true, true] ∧
      sr.alkalinity = fin (1e6 * wrTrue) ∧ sr.emf0 = fin wrQ := by
    refine ⟨_, solve_emf_false_iff.mpr ⟨gg, opt, hg, by simp [wrOpts]; norm_num, hk, by simpa using hf,
      by simpa using hf', by rw [hst]; exact hls, rfl⟩, hx, by rw [hst]; rfl, ?_, ?_⟩
    · simp only [emfResult, hx, mul_fin, mul_comm]
    · simp only [emfResult, hx]
  obtain ⟨sr, h1, h2, h3, h4, h5⟩ := hone
  refine ⟨sr, ?_, h2, h3⟩
  have htwo : solve_emf (wrWorld wrFS pd).ls (fin wrAcid) ((wrPts.map (·.1)).map fin)
      ((wrPts.map (·.2.1)).map fin) ((wrPts.map (·.2.2)).map fin) (fin 0.1) totals ks wrOpts true
        = .ok sr := by
    rw [solve_emf_true_eq, h1, bind_ok, h4, h5]
    exact h1
  rw [hs, hopts]
  simp only [bind_ok, htwo]
  rfl

theorem wrAcid_nonneg : 0 ≤ wrAcid := by
  have hb := wrB_bounds
  have hv : (mixture pContents qConstants 0.002 0.1 0 0).Valid :=
    mixture_valid (by norm_num) (by norm_num) (by simp) (fun _ _ => by norm_num [pContents])
      (fun _ _ => by norm_num [qConstants])
  have h1 : qAlk 0.002 wrB ≤ qAlk 0.002 4.3e-4 := by
    rcases hb.1.eq_or_lt with h | h
    · rw [← h]
    · exact (Sol.alk_strictAnti hv 3 (by norm_num) h).le
  have : qAlk 0.002 4.3e-4 * 0.102 ≤ qAlk 0.001 2e-4 * 0.101 := by
    norm_num [qAlk, Sol.alk, carbAlk, phosAlk, base, acid, extraAlk, mixture, mixContent, pContents, qConstants]
    split_ifs <;> norm_num
  unfold wrAcid
  apply div_nonneg <;> linarith

theorem wr_data : ∀ q ∈ wrData, ExactPoint pContents qConstants wrAcid 1 0 0.1 wrTrue wrQ 1e-3 q := by
  intro q hq
  have hb := wrB_bounds
  have hb0 : 0 < wrB := lt_of_lt_of_le (by norm_num) hb.1
  have hp : (q.1 * 1e-3, q.2.1, q.2.2) ∈ wrPts := List.mem_map.mpr ⟨q, hq, rfl⟩
  obtain ⟨h0, h1, h2⟩ := wr_exact _ hp
  have h14 : (10 : ℝ) ^ (-14 : ℝ) ≤ 1e-4 := by
    rw [Real.rpow_neg (by norm_num)]; norm_num
  have hr : 1e-4 ≤ readAcidity wrQ (q.1 * 1e-3, q.2.1, q.2.2) ∧
      readAcidity wrQ (q.1 * 1e-3, q.2.1, q.2.2) ≤ 1 := by
    rw [wrPts_eq] at hp
    simp only [List.mem_cons, List.not_mem_nil, or_false] at hp
    rcases hp with h | h <;> rw [h, read_nernst _ (by norm_num) (by first | exact hb0 | norm_num)]
    · norm_num
    · constructor <;> linarith
  refine ⟨?_, ?_, _, h14.trans hr.1, hr.2, h1, h2⟩ <;>
  · simp only [wrData, List.mem_cons, List.not_mem_nil, or_false] at hq
    rcases hq with rfl | rfl <;> norm_num

theorem wr_read {p : ℝ × ℝ × ℝ} (hp : p ∈ wrPts) : 1e-4 ≤ readAcidity wrQ p ∧ readAcidity wrQ p ≤ 1e-3 := by
  have hb := wrB_bounds
  have hb0 : 0 < wrB := lt_of_lt_of_le (by norm_num) hb.1
  rw [wrPts_eq] at hp
  simp only [List.mem_cons, List.not_mem_nil, or_false] at hp
  rcases hp with rfl | rfl
  · rw [read_nernst _ (by norm_num) (by norm_num)]; norm_num
  · rw [read_nernst _ (by norm_num) hb0]
    exact ⟨le_trans (by norm_num) hb.1, hb.2⟩

/-- C123 applies: the points used are those written; the errors have a bound, for some `η`; as the data
are of three decimals, the results are exact. -/
example (pd : Pandas) : ∃ sr T, files_solve (wrWorld wrFS pd) "a.dat" (fin wrAcid) (fin 35) wrArgs
      = .ok (.emf sr T) ∧ sr.alkalinity = fin (1e6 * wrTrue) ∧ sr.emf0 = fin wrQ := by
  obtain ⟨sr, h, hx, hu⟩ := wr_solve pd
  have hb := wrB_bounds
  have hb0 : 0 < wrB := lt_of_lt_of_le (by norm_num) hb.1
  obtain ⟨pts, hp, hbound⟩ := C123_written (wrWorld wrFS pd) (fun _ => none) pd "a.dat" (fin 35) wrArgs pContents
    qConstants wrTrue wrQ wrAcid 1 0 0.1 1e-3 wrData rfl (by simp [wrData]) rfl wr_noRead
    (.inl ⟨"g", rfl, by decide, rfl⟩) (by norm_num) rfl rfl (wr_loads pd) (wr_args _ _) wrAcid_nonneg le_rfl
    zero_le_one wr_data lsExact_contracts.2 sr _ h _ _ hx
  have hpts : pts = wrPts := rounded_same hp wr_decimals
  subst hpts
  have hm : mask sr.used wrPts = wrPts := by rw [hu]; rfl
  rw [hm] at hbound
  have g0 : wrPts[0]? = some ((0.001 : ℝ), nernst wrQ 25 2e-4, (25 : ℝ)) := by rw [wrPts_eq]; rfl
  have g1 : wrPts[1]? = some ((0.002 : ℝ), nernst wrQ 25 wrB, (25 : ℝ)) := by rw [wrPts_eq]; rfl
  have hmore : (1 + (mixture pContents qConstants 0.001 0.1 wrAcid 0).buffering 2e-4) * ((0.001 + 0.1) *
      readAcidity wrQ (0.001, nernst wrQ 25 2e-4, 25)) < (0.002 + 0.1) * readAcidity wrQ (0.002, nernst wrQ 25 wrB, 25) := by
    rw [read_nernst _ (by norm_num) (by norm_num), read_nernst _ (by norm_num) hb0]
    refine lt_of_lt_of_le (b := (0.002 + 0.1) * 4.3e-4) ?_ (by gcongr; exact hb.1)
    norm_num [Sol.buffering, mono, mixture, mixContent, pContents, qConstants]
  obtain ⟨η, hη⟩ : ∃ η, ∀ p ∈ wrPts, errorAt pContents qConstants wrAcid 1 0 3 4 0.1 (0.0005 * 1e-3) 0.00005 p.1
      ≤ η * (p.1 + 0.1) := by
    refine ⟨max (errorAt pContents qConstants wrAcid 1 0 3 4 0.1 (0.0005 * 1e-3) 0.00005 0.001 / (0.001 + 0.1))
      (errorAt pContents qConstants wrAcid 1 0 3 4 0.1 (0.0005 * 1e-3) 0.00005 0.002 / (0.002 + 0.1)), ?_⟩
    intro p hp
    rw [wrPts_eq] at hp
    simp only [List.mem_cons, List.not_mem_nil, or_false] at hp
    rcases hp with rfl | rfl
    · rw [← div_le_iff₀ (by norm_num)]; exact le_max_left _ _
    · rw [← div_le_iff₀ (by norm_num)]; exact le_max_right _ _
  have hr0 : readAcidity wrQ (0.001, nernst wrQ 25 2e-4, 25) = 2e-4 := read_nernst _ (by norm_num) (by norm_num)
  obtain ⟨k1, k2, -⟩ := hbound 3 4 η (fun p hp => wr_window (wr_read hp).1 (wr_read hp).2) hη
    _ (List.mem_of_getElem? g0) _ (List.mem_of_getElem? g1) rfl 2e-4 _ (by norm_num) hr0.ge hr0.ge rfl
    (by unfold acidExcess; exact sub_pos.mpr hmore)
  obtain ⟨e1, e2⟩ := C112_exact _ _ _ _ _ _ _ _ _ _ _ (wr_run pd) lsExact_contracts.2 _ _ h wrTrue wrQ _ _ hx
    (readAcidity wrQ) wr_exact 0 1 _ _ g0 g1 (by rw [hu]; rfl) (by rw [hu]; rfl) rfl 2e-4 (by norm_num)
    hr0.ge hr0.ge hmore
  exact ⟨sr, _, h, e1, e2⟩

end Calk
