import Verif.Props.EmfCalibrate

/-!
# C130 for a titration with sulfuric acid

The points of C112, with two protons and one sulfate for each molecule of acid.
-/

namespace Calk
open Flt Spec

/-- the part of a sulfate that has taken up hydrogen ion -/
noncomputable def suBound (h : ℝ) : ℝ := h / (1e-8 + h)

/-- the acid and the alkalinity with which the two points are exact -/
noncomputable def suAcid : ℝ := (qAlk 0.001 2e-4 * 0.101 - qAlk 0.002 9e-4 * 0.102)
  / (0.002 * (2 - suBound 9e-4) - 0.001 * (2 - suBound 2e-4))

noncomputable def suTrue : ℝ := (qAlk 0.001 2e-4 * 0.101 + 0.001 * suAcid * (2 - suBound 2e-4)) / 0.1

noncomputable def suArgs : Dict Val :=
  [ ("analyte_mass", .num (fin 0.1)), ("titrant_amount_unit", .str "kg"),
    ("emf0_init", .num (fin 400)), ("alkalinity_init", .num (fin (1e6 * suTrue))),
    ("titrant_total_sulfate", .num (fin 1)), ("titrant_normality", .num (fin 2)) ] ++
  (("dic" :: (optionalContents ++ saltContents)).map fun k => (k, Val.num (fin (pContents k)))) ++
  allConstants.map fun k => (k, Val.num (fin (qConstants k)))

noncomputable def suWorld : World := { qWorld 400 with opt := lsqAt suAcid }

theorem su_load : ∃ totals ks, load suWorld "a.dat" (fin 35) suArgs = .ok (qCv 400, totals, ks) := by
  obtain ⟨totals, ks, h⟩ := q_load 400
  refine ⟨totals, ks, h ▸ ?_⟩
  unfold load
  rw [show full_name "a.dat" suArgs = full_name "a.dat" (qArgs 400) from rfl,
    show get_kwargs_for keys_read_dat suArgs none = get_kwargs_for keys_read_dat (qArgs 400) none from rfl,
    show get_kwargs_for keys_cau suArgs none = get_kwargs_for keys_cau (qArgs 400) none from rfl,
    show get_kwargs_for keys_totals_ks suArgs none = get_kwargs_for keys_totals_ks (qArgs 400) none from rfl]
  rfl

theorem su_acids : 0.06 ≤ suAcid ∧ suAcid ≤ 0.09 ∧ 5.4e-5 ≤ suTrue * 0.1 := by
  have a1 : -2.1e-4 ≤ qAlk 0.001 2e-4 ∧ qAlk 0.001 2e-4 ≤ -1.7e-4 := by
    constructor <;>
    · norm_num [qAlk, Sol.alk, carbAlk, phosAlk, base, acid, extraAlk, mixture, mixContent, pContents, qConstants]
      split_ifs <;> norm_num
  have a2 : -9.8e-4 ≤ qAlk 0.002 9e-4 ∧ qAlk 0.002 9e-4 ≤ -8.9e-4 := by
    constructor <;>
    · norm_num [qAlk, Sol.alk, carbAlk, phosAlk, base, acid, extraAlk, mixture, mixContent, pContents, qConstants]
      split_ifs <;> norm_num
  have e : suTrue * 0.1 = qAlk 0.001 2e-4 * 0.101 + 0.001 * suAcid * (2 - suBound 2e-4) := by
    unfold suTrue; ring
  have b : 0.00099 ≤ 0.002 * (2 - suBound 9e-4) - 0.001 * (2 - suBound 2e-4) ∧
      0.002 * (2 - suBound 9e-4) - 0.001 * (2 - suBound 2e-4) ≤ 0.00101 := by
    norm_num [suBound]
  have b' : 0.002 * (2 - suBound 9e-4) - 0.001 * (2 - suBound 2e-4) ≤ 0.001 * (2 - suBound 2e-4) := by
    norm_num [suBound]
  have c0 : 0.06 ≤ suAcid := by
    unfold suAcid
    rw [le_div_iff₀ (by linarith)]
    linarith
  refine ⟨c0, ?_, ?_⟩
  · unfold suAcid
    rw [div_le_iff₀ (by linarith)]
    linarith
  · have h : suAcid * (0.002 * (2 - suBound 9e-4) - 0.001 * (2 - suBound 2e-4))
        = qAlk 0.001 2e-4 * 0.101 - qAlk 0.002 9e-4 * 0.102 := div_mul_cancel₀ _ (by linarith)
    have hq : qTrue * 0.1 = 2 * (qAlk 0.001 2e-4 * 0.101) - qAlk 0.002 9e-4 * 0.102 := by
      unfold qTrue qAcid; ring
    have := ec_true
    have := mul_le_mul_of_nonneg_left b' (by linarith : 0 ≤ suAcid)
    rw [e]
    linarith

theorem su_run : EmfRun suWorld "a.dat" (fin 35) suArgs pContents qConstants suAcid 2 1 0.1 (qPts 400) := by
  have hc := su_acids.1
  refine ⟨?_, keepWorld_totals, keepWorld_ks, lsExact_contracts.1, ?_, .inl rfl, ⟨?_, ?_, ?_⟩,
    .inl rfl, rfl, rfl, .inl rfl, by norm_num, (q_run 400).masses, (q_run 400).temps, by linarith⟩
  · obtain ⟨totals, ks, h⟩ := su_load
    exact ⟨_, _, _, h, rfl, rfl, rfl, rfl⟩
  · have : Dict.keys suArgs = [ "analyte_mass", "titrant_amount_unit", "emf0_init",
      "alkalinity_init", "titrant_total_sulfate", "titrant_normality" ]
        ++ ("dic" :: (optionalContents ++ saltContents)) ++ allConstants := rfl
    rw [this]
    decide
  · intro k hk
    refine ⟨?_, by norm_num [pContents]⟩
    simp only [optionalContents, saltContents, List.cons_append, List.nil_append, List.mem_cons,
      List.not_mem_nil, or_false] at hk
    rcases hk with rfl | rfl | rfl | rfl | rfl | rfl | rfl | rfl | rfl | rfl <;> rfl
  · intro k hk
    refine ⟨?_, by norm_num [qConstants]⟩
    simp only [allConstants, List.mem_cons, List.not_mem_nil, or_false] at hk
    rcases hk with rfl | rfl | rfl | rfl | rfl | rfl | rfl | rfl | rfl | rfl | rfl | rfl | rfl | rfl
      <;> rfl
  · exact not_onTotalScale rfl

/-- the points are exact -/
theorem su_exact : ∀ p ∈ qPts 400, (mixture pContents qConstants p.1 0.1 suAcid 1).alk 3 (readAcidity 400 p) * (p.1 + 0.1)
      = suTrue * 0.1 - p.1 * suAcid * 2 := by
  have key : ∀ m h : ℝ, 0 ≤ m → 0 < h → (mixture pContents qConstants m 0.1 suAcid 1).alk 3 h * (m + 0.1)
      = qAlk m h * (m + 0.1) - m * suAcid * suBound h := by
    intro m h hm hh
    have := mixture_sulfate pContents qConstants suAcid 1 0.1 (m, 0, 0) h
    dsimp only at this
    have h1 : 0 < m + 0.1 := by positivity
    have h2 : 0 < 1e-8 + h := by positivity
    rw [this]
    unfold acid acidSulfate suBound qAlk qConstants
    dsimp only
    rw [sub_mul]
    congr 1
    field_simp
  intro p hp
  simp only [qPts, List.mem_cons, List.not_mem_nil, or_false] at hp
  rcases hp with rfl | rfl
  · rw [read_nernst _ (by norm_num) (by norm_num)]
    dsimp only
    rw [key _ _ (by norm_num) (by norm_num)]
    unfold suTrue
    ring
  · rw [read_nernst _ (by norm_num) (by norm_num)]
    dsimp only
    rw [key _ _ (by norm_num) (by norm_num)]
    have hd : 0.002 * (2 - suBound 9e-4) - 0.001 * (2 - suBound 2e-4) ≠ 0 := by norm_num [suBound]
    have : suAcid * (0.002 * (2 - suBound 9e-4) - 0.001 * (2 - suBound 2e-4))
        = qAlk 0.001 2e-4 * 0.101 - qAlk 0.002 9e-4 * 0.102 := div_mul_cancel₀ _ hd
    unfold suTrue
    linear_combination this

noncomputable def suOpts : EmfOpts :=
  { alkalinity_init := some (fin (1e6 * suTrue)), emf0_init := some (fin 400), titrant_normality := fin 2 }

theorem su_solve : ∃ sr, files_solve suWorld "a.dat" (fin suAcid) (fin 35) suArgs
      = .ok (.emf sr ((qPts 400).map fun p => fin p.2.2)) ∧
    sr.opt_result.x = (fin suTrue, fin 400) ∧ sr.used = [true, true] := by
  obtain ⟨totals, ks, hs, hv, hk, hf, hf', hsol⟩ := su_run.reduces
  obtain ⟨gg, hg⟩ := q_gran 400 suAcid 2
  have hopts : emf_opts suArgs = .ok (suOpts, true) := by with_unfolding_all rfl
  have hst : emfStart suOpts gg (((qPts 400).map (·.2.1)).map fin) (((qPts 400).map (·.2.2)).map fin)
      = { alk := fin suTrue, emf0 := fin 400, used := [true, true] } := by
    simp only [emfStart, suOpts, (q_used 400).1, (q_used 400).2, mul_fin]
    congr 2
    ring
  have hmis : (mask [true, true] (qPts 400)).map (pointMisfit pContents qConstants suAcid 2 1 0.1 suTrue 400)
      = List.replicate 2 0 := by
    have hz : ∀ p ∈ qPts 400, pointMisfit pContents qConstants suAcid 2 1 0.1 suTrue 400 p = 0 := by
      intro p hp
      have h3 := su_exact p hp
      have hp0 : p.1 + 0.1 ≠ 0 := by have := (q_run 400).masses p hp; positivity
      rw [pointMisfit, ← h3, mul_div_assoc, div_self hp0, mul_one, sub_self]
    have : mask [true, true] (qPts 400) = qPts 400 := rfl
    rw [this]
    exact List.eq_replicate_iff.mpr ⟨by simp [qPts], fun b hb => by
      obtain ⟨p, hp, rfl⟩ := List.mem_map.mp hb
      exact hz p hp⟩
  have hprob := su_run.problem (by rw [List.length_map]; exact hv) hk hsol [true, true] suTrue 400
  rw [hmis] at hprob
  obtain ⟨opt, hls, hx⟩ : ∃ opt, lsExact (emfProblem (fin suAcid) (fin 2) (fin 0.1)
      (((qPts 400).map (·.1)).map fin) (((qPts 400).map (·.2.1)).map fin) (((qPts 400).map (·.2.2)).map fin) totals ks
      [true, true]) (fin suTrue, fin 400) = .ok opt ∧ opt.x = (fin suTrue, fin 400) :=
    lsExact_stops _ _ _ hprob
  have hone : ∃ sr, solve_emf lsExact (fin suAcid) (((qPts 400).map (·.1)).map fin)
      (((qPts 400).map (·.2.1)).map fin) (((qPts 400).map (·.2.2)).map fin) (fin 0.1) totals ks suOpts false
        = .ok sr ∧ sr.opt_result.x = (fin suTrue, fin 400) ∧ sr.used = [true, true] ∧
      sr.alkalinity = fin (1e6 * suTrue) ∧ sr.emf0 = fin 400 := by
    refine ⟨_, solve_emf_false_iff.mpr ⟨gg, opt, hg, by simp [suOpts]; norm_num, hk, by simpa using hf,
      by simpa using hf', by rw [hst]; exact hls, rfl⟩, hx, by rw [hst]; rfl, ?_, ?_⟩
    · simp only [emfResult, hx, mul_fin, mul_comm]
    · simp only [emfResult, hx]
  obtain ⟨sr, h1, h2, h3, h4, h5⟩ := hone
  refine ⟨sr, ?_, h2, h3⟩
  have htwo : solve_emf lsExact (fin suAcid) (((qPts 400).map (·.1)).map fin)
      (((qPts 400).map (·.2.1)).map fin) (((qPts 400).map (·.2.2)).map fin) (fin 0.1) totals ks suOpts true
        = .ok sr := by
    rw [solve_emf_true_eq, h1, bind_ok, h4, h5]
    exact h1
  rw [hs, hopts]
  have hw : suWorld.ls = lsExact := rfl
  simp only [bind_ok, hw, htwo]
  rfl

theorem su_typed : Typed suArgs "emf" (fin 0.1) (ttArgs [("titrant_total_sulfate", 1)]) := by
  refine ⟨?_, rfl, rfl, ⟨_, rfl⟩⟩
  have : solve_mode suArgs = .ok (lowerS "emf") := rfl
  rw [this]; decide

theorem su_regular : Regular suWorld "a.dat" (fin 35) suArgs := by
  obtain ⟨totals, ks, h⟩ := su_load
  exact ⟨lsqAt_reports _, qCv 400, totals, ks, "emf", fin 0.1, [("titrant_total_sulfate", 1)], h, su_typed,
    by decide, rfl, .inr ⟨lsqAt_finite _, [0.001, 0.002], 0.1, rfl, rfl, by norm_num⟩⟩

theorem su_calibrates : files_calibrate suWorld "a.dat" (fin (1e6 * suTrue)) (fin 35) suArgs
    = .ok ⟨fin suAcid, [fin 0]⟩ := by
  obtain ⟨sr, h, hx, hu⟩ := su_solve
  obtain ⟨sr', he, hrep⟩ := C112_estimates suWorld "a.dat" (fin 35) suArgs pContents qConstants suAcid 2 1 0.1
    (qPts 400) su_run _ h
  cases he
  obtain ⟨r1, -⟩ := hrep _ _ hx (by rw [hu]; simp)
  obtain ⟨totals, ks, hl⟩ := su_load
  have hc := C32_same_solver_titrant suWorld "a.dat" "emf" (fin (1e6 * suTrue)) (fin 35) (fin 0.1) suArgs
    (qCv 400) totals ks [("titrant_total_sulfate", 1)] [0.001, 0.002] 0.1 (lsqAt_finite _) hl su_typed rfl rfl
    (by norm_num) rfl (by decide) rfl
  have hs : solveRes suWorld "a.dat" (fin 35) (fin (1e6 * suTrue)) suArgs (fin suAcid) ()
      = (.ok [fin 0], ()) := by
    simp only [solveRes, h, bind_ok, pure_ok, SolveRes.alkalinity, r1, sub_fin, sub_self, PyS.lift]
  rw [hc]
  show ((lsqAt suAcid).run (solveRes suWorld "a.dat" (fin 35) (fin (1e6 * suTrue)) suArgs) (fin 0.1) ()).1 = _
  simp [Lsq.run, Lsq.loop, lsqAt, allFinite, PyS.bind_apply, hs]

theorem su_leftover : ∀ p ∈ qPts 400, leftover pContents qConstants suAcid 1 0.1 400 1 p ≤ 1.2e-4 := by
  have hc := su_acids.2.1
  have hc' := su_acids.1
  have key : ∀ p ∈ qPts 400, leftover pContents qConstants 0 0 0.1 400 1 p ≤ 1.19e-4 := by
    intro p hp
    simp only [qPts, List.mem_cons, List.not_mem_nil, or_false] at hp
    rcases hp with rfl | rfl
    · unfold leftover
      rw [read_nernst _ (by norm_num) (by norm_num)]
      norm_num [Sol.others, Sol.buffering, mono, Sol.alk, carbAlk, phosAlk, base, acid, extraAlk, mixture, mixContent,
        acidSulfate, pContents, qConstants]
      split_ifs <;> norm_num [abs_le, abs_of_pos, abs_of_neg]
    · unfold leftover
      rw [read_nernst _ (by norm_num) (by norm_num)]
      norm_num [Sol.others, Sol.buffering, mono, Sol.alk, carbAlk, phosAlk, base, acid, extraAlk, mixture, mixContent,
        acidSulfate, pContents, qConstants]
      split_ifs <;> norm_num [abs_le, abs_of_pos, abs_of_neg]
  intro p hp
  have hk := key p hp
  unfold leftover at hk ⊢
  dsimp only at hk ⊢
  simp only [qPts, List.mem_cons, List.not_mem_nil, or_false] at hp
  have hz : ∀ p, acidSulfate 0 0 0.1 p = 0 := by intro p; simp [acidSulfate]
  rw [hz, zero_mul, mul_zero, add_zero] at hk
  refine (add_le_add hk (?_ : _ ≤ (1e-6 : ℝ))).trans (by norm_num)
  have hks : ∀ m, (mixture pContents qConstants m 0.1 0 0).ks = 1e-8 := fun _ => rfl
  rw [hks, one_mul, one_mul]
  rcases hp with rfl | rfl
  · rw [read_nernst _ (by norm_num) (by norm_num)]
    norm_num [acidSulfate]
    linarith
  · rw [read_nernst _ (by norm_num) (by norm_num)]
    norm_num [acidSulfate]
    linarith

/-- every hypothesis of `C130_recovers` is met with sulfuric acid -/
example : ∃ (sr : SolveEmf) (T : List Flt),
    files_solve suWorld "a.dat" (fin suAcid) (fin 35) suArgs = .ok (.emf sr T) ∧
    sr.alkalinity = fin (1e6 * suTrue) ∧ sr.emf0 = fin 400 := by
  obtain ⟨sr, h, hx, hu⟩ := su_solve
  obtain ⟨c1, c2, c3⟩ := su_acids
  have hc : 0 < suAcid := by linarith
  have hm : mask sr.used (qPts 400) = qPts 400 := by rw [hu]; rfl
  set p0 : ℝ × ℝ × ℝ := (0.001, nernst 400 25 2e-4, 25) with hp0
  set p1 : ℝ × ℝ × ℝ := (0.002, nernst 400 25 9e-4, 25) with hp1
  have hlist : qPts 400 = [p0, p1] := rfl
  have hr0 : readAcidity 400 p0 = 2e-4 := read_nernst _ (by norm_num) (by norm_num)
  have hr1 : readAcidity 400 p1 = 9e-4 := read_nernst _ (by norm_num) (by norm_num)
  have hone : suAcid / suAcid = 1 := div_self hc.ne'
  have b0 : 0 ≤ (mixture pContents qConstants 0.001 0.1 suAcid 1).buffering 2e-4 := by
    simp only [Sol.buffering, mono, mixture, mixContent, pContents, qConstants, String.reduceEq, if_true, if_false]
    norm_num
    linarith
  have b1 : (mixture pContents qConstants 0.001 0.1 suAcid 1).buffering 2e-4 ≤ 0.26 := by
    simp only [Sol.buffering, mono, mixture, mixContent, pContents, qConstants, String.reduceEq, if_true, if_false]
    norm_num
    linarith
  set b := (mixture pContents qConstants 0.001 0.1 suAcid 1).buffering 2e-4
  have hex : 6.5e-5 ≤ acidExcess pContents qConstants suAcid 1 0.1 400 2e-4 p0 p1 := by
    unfold acidExcess
    rw [hr0, hr1]
    show _ ≤ (0.002 + 0.1) * 9e-4 - (1 + b) * ((0.001 + 0.1) * 2e-4)
    nlinarith
  have hdata : ∀ p ∈ mask sr.used (qPts 400), p.2.2 = 25 ∧ 2e-4 ≤ readAcidity 400 p ∧
      2e-4 ≤ suAcid / suAcid * readAcidity 400 p ∧
      (mixture pContents qConstants p.1 0.1 suAcid 1).alk 3 (readAcidity 400 p) * (p.1 + 0.1)
        = suTrue * 0.1 - p.1 * suAcid * 2 := by
    intro p hp
    rw [hm] at hp
    have h3 := su_exact p hp
    rw [hone, one_mul]
    rw [hlist] at hp
    simp only [List.mem_cons, List.not_mem_nil, or_false] at hp
    rcases hp with rfl | rfl
    · exact ⟨rfl, hr0.ge, hr0.ge, h3⟩
    · exact ⟨rfl, by rw [hr1]; norm_num, by rw [hr1]; norm_num, h3⟩
  have hs : Real.sqrt 2 ≤ 1.4143 := Real.sqrt_le_iff.mpr (by norm_num)
  obtain ⟨-, r1, r2⟩ := C130_recovers suWorld "a.dat" (fin 35) suArgs pContents qConstants suAcid suAcid 2 1 0.1
    (qPts 400) su_run hc hc lsExact_contracts.2 suTrue 400 25 2e-4 1.2e-4 su_regular rfl _ su_calibrates rfl rfl sr _ h
    _ _ hx (by norm_num) hdata (by rw [hm, hone]; exact su_leftover) p0 p1 (by rw [hm, hlist]; simp)
    (by rw [hm, hlist]; simp) hr0.ge (by linarith) (by
      rw [hm, hr0]
      refine lt_of_le_of_lt ?_ (lt_of_lt_of_le (by norm_num : (5.3e-5 : ℝ) < 5.4e-5) c3)
      have hlen : ((qPts 400).length : ℝ) = 2 := by rw [hlist]; norm_num
      rw [hlen]
      show (0.001 + 0.1) * ((1 + Real.sqrt 2) * 1.2e-4) * (1 + (1 + b) * 2e-4 * (((0.001 + 0.1) + (0.002 + 0.1))
        / acidExcess pContents qConstants suAcid 1 0.1 400 2e-4 p0 p1)) ≤ 5.3e-5
      calc _ ≤ ((0.001 : ℝ) + 0.1) * ((1 + 1.4143) * 1.2e-4) * (1 + (1 + 0.26) * 2e-4 * (((0.001 + 0.1) + (0.002 + 0.1))
            / 6.5e-5)) := by gcongr
        _ ≤ (5.3e-5 : ℝ) := by norm_num)
  exact ⟨sr, _, h, r1, r2⟩

end Calk
