import Verif.Props.Refuse
import Verif.Props.PHOffsetAdjust

/-!
# Property C125, `ph_adjust` mode: a window without points
-/

namespace Calk
open Flt Spec

/-- **C125**, `ph_adjust` mode without a recorded pH in the window: what is reported as the result is the start of
the fit, that is `alkalinity_init` if it is given and the Gran estimate if not, with an electrode error of zero
whatever `emf0_init` says. -/
theorem C125_no_points_adjust (w : World) (hls : LsRefuses w.ls) (hidle : LsIdle w.ls) (f : String) (c S : Flt)
    (kw : Dict Val) (sr : SolveEmf) (T : List Flt) (h : files_solve w f c S kw = .ok (.emf sr T))
    (hmode : ∃ s, kw.get? "solve_mode" = some (.str s) ∧ lowerS s = "ph_adjust")
    (cv : Converted) (totals ks : Dict NpVal) (hl : load w f S kw = .ok (cv, totals, ks))
    (pts : List (ℝ × ℝ)) (h1 : cv.measurement = pts.map fun p => fin p.1)
    (h2 : cv.temperature = pts.map fun p => fin p.2) (hT : ∀ p ∈ pts, -273.15 < p.2)
    (n lo hi : ℝ) (hn : NumOr kw "titrant_normality" 1 n) (hlo : NumOr kw "pH_min" 3 lo)
    (hhi : NumOr kw "pH_max" 4 hi) (logic : String)
    (hlogic : kw.get? "gran_logic" = some (.str logic) ∨
      kw.get? "gran_logic" = none ∧ logic = "v23.7+") (g : GranGuesses)
    (hg : gran_guesses cv.titrant_mass (pts.map fun p => fin (nernst 0 p.2 ((10 : ℝ) ^ (-p.1)))) cv.temperature
      cv.analyte_mass c (fin n) logic = .ok g) (A : ℝ)
    (hA : kw.get? "alkalinity_init" = some (.num (fin (1e6 * A))) ∨
      kw.get? "alkalinity_init" = none ∧ g.ga.alkalinity = fin A)
    (hnone : ∀ p ∈ pts, p.1 < lo ∨ hi < p.1) :
    sr.alkalinity = fin (1e6 * A) ∧ sr.emf0 = fin 0 ∧ sr.used.count true = 0 ∧ sr.alkalinity_std = nan := by
  have hm : solve_mode kw = .ok "ph_adjust" := by
    obtain ⟨s, hs, hs'⟩ := hmode
    unfold solve_mode argVal
    rw [hs, ← hs']; rfl
  rw [(C117_as_emf w f S kw cv totals ks pts hl hm h1 h2).1 c] at h
  have hnum : ∀ {k : String} {d r : ℝ}, k ≠ "solve_mode" → k ≠ "emf0_init" → NumOr kw k d r →
      NumOr (asEmf kw) k d r := by
    intro k d r h1 h2 hk
    unfold NumOr
    rw [asEmf_get? kw h1 h2]
    exact hk
  refine C125_no_points (w.showing _) hls hidle f c S (asEmf kw) sr T h (.inr ⟨"emf", ?_, by decide⟩) _ totals ks
    (load_showing hl _) n lo hi (hnum (by decide) (by decide) hn) (hnum (by decide) (by decide) hlo)
    (hnum (by decide) (by decide) hhi) logic ?_ g hg A 0 ?_ (.inl ?_) ?_
  · unfold asEmf
    rw [Dict.get?_set_ne _ _ _ _ (by decide), Dict.get?_set, if_pos rfl]
  · rw [asEmf_get? kw (by decide) (by decide)]; exact hlogic
  · rw [asEmf_get? kw (by decide) (by decide)]; exact hA
  · unfold asEmf
    rw [Dict.get?_set, if_pos rfl]
  · intro p hp y hy
    subst hy
    simp only [h2, emf_to_pH_arr, List.zipWith_map, List.zipWith_self, List.mem_map] at hp
    obtain ⟨q, hq, hqe⟩ := hp
    have ht := hT q hq
    rw [emf_to_pH_fin ht, fin_inj] at hqe
    have h10 : 0 < Real.log 10 := Real.log_pos (by norm_num)
    have hs := nslope_pos ht
    have : nernst 0 q.2 ((10 : ℝ) ^ (-q.1)) = -(nslope q.2 * Real.log 10 * q.1) := by
      unfold nernst nslope ideal_gas absolute_zero faraday
      rw [Real.log_rpow (by norm_num)]
      ring
    rw [this, sub_zero, neg_div, neg_neg, mul_div_cancel_left₀ _ (by positivity)] at hqe
    rw [← hqe]
    exact hnone q hq

/-- **C125**, `ph_adjust` mode with one point: it does not determine the result. Every error of the electrode has an
alkalinity with which the point is fitted exactly, and different errors have different ones. -/
theorem C125_one_point_adjust (w : World) (f : String) (S : Flt) (kw : Dict Val) (x K : String → ℝ)
    (c n g M : ℝ) (pts : List (ℝ × ℝ × ℝ)) (h : AdjustRun w f S kw x K c n g M pts) (sr : SolveEmf)
    (T : List Flt) (hr : files_solve w f (fin c) S kw = .ok (.emf sr T))
    (h1 : sr.used.count true = 1) :
    ∃ A : ℝ → ℝ, (∀ E, (mask sr.used pts).map (adjustMisfit x K c n g M (A E) E) = [0]) ∧
      ∀ E E', E < E' → A E < A E' := by
  rw [h.same] at hr
  obtain ⟨A, hA, hlt⟩ := C125_one_point _ f S _ x K c n g M _ h.emf sr T hr h1
  refine ⟨A, fun E => ?_, hlt⟩
  rw [← hA E, mask_map, List.map_map]
  refine List.map_congr_left fun p hp => ?_
  exact (adjustMisfit_eq (h.temps p (mask_subset _ _ hp))).symm

/-! ### A case: a file with pH 3.70 and 3.05 and a window -/

noncomputable def naWorld : World := { aoWorld 0 with ls := lsCareful }

noncomputable def naArgs (lo hi : ℝ) : Dict Val :=
  adjArgs ++ [("pH_min", .num (fin lo)), ("pH_max", .num (fin hi))]

theorem na_load (lo hi : ℝ) : load naWorld "a.dat" (fin 35) (naArgs lo hi) = load (aoWorld 0) "a.dat" (fin 35) adjArgs := by
  with_unfolding_all rfl

theorem na_run (lo hi : ℝ) : AdjustRun naWorld "a.dat" (fin 35) (naArgs lo hi) pContents qConstants qAcid 1 0 0.1 (aoPts 0) := by
  have h := ao_run 0
  refine ⟨by rw [na_load]; exact h.loads, keepWorld_totals, keepWorld_ks, lsCareful_sound, ?_,
    ⟨"pH_adjust", rfl, by decide⟩, ⟨?_, ?_, ?_⟩, .inr ⟨rfl, rfl⟩, rfl, rfl, .inr ⟨rfl, rfl⟩, h.mass, h.masses,
    h.temps, h.acid⟩
  · have : Dict.keys (naArgs lo hi) = "solve_mode" :: ([ "analyte_mass", "titrant_amount_unit", "emf0_init",
      "alkalinity_init" ] ++ ("dic" :: (optionalContents ++ saltContents)) ++ allConstants)
      ++ ["pH_min", "pH_max"] := rfl
    rw [this]
    decide
  · intro k hk
    obtain ⟨h1, h2⟩ := h.sample.contents k hk
    exact ⟨by rw [naArgs, Dict.get?_append, h1]; rfl, h2⟩
  · intro k hk
    obtain ⟨h1, h2⟩ := h.sample.constants k hk
    exact ⟨by rw [naArgs, Dict.get?_append, h1]; rfl, h2⟩
  · exact not_onTotalScale rfl

theorem na_solve (lo hi : ℝ) (hw : lo < hi) : ∃ sr, files_solve naWorld "a.dat" (fin qAcid) (fin 35) (naArgs lo hi)
    = .ok (.emf sr ((qPts 0).map fun p => fin p.2.2)) ∧
    sr.used = pH_used ([-Real.logb 10 2e-4, -Real.logb 10 9e-4].map fin) (fin lo) (fin hi) := by
  have hrun := (na_run lo hi).emf
  rw [(na_run lo hi).same]
  rw [ao_zero] at hrun
  set w' := naWorld.showing ((aoPts 0).map fun p => fin (zeroEmf p).2.1)
  have hw' : w'.ls = lsCareful := rfl
  obtain ⟨totals, ks, hs, hv, hk, hf, hf', hsol⟩ := hrun.reduces
  obtain ⟨gg, hg⟩ := q_gran 0 qAcid
  set o : EmfOpts := { qOpts 0 with pH_min := fin lo, pH_max := fin hi } with ho
  have hopts : emf_opts (asEmf (naArgs lo hi)) = .ok (o, true) := by with_unfolding_all rfl
  set u := pH_used ([-Real.logb 10 2e-4, -Real.logb 10 9e-4].map fin) (fin lo) (fin hi) with hu
  have hst : emfStart o gg (((qPts 0).map (·.2.1)).map fin) (((qPts 0).map (·.2.2)).map fin)
      = { alk := fin qTrue, emf0 := fin 0, used := u } := by
    simp only [emfStart, ho, qOpts, (q_used 0).1, mul_fin]
    congr 2
    ring
  have hprob := hrun.problem (by rw [List.length_map]; exact hv) hk hsol u qTrue 0
  have hls := lsCareful_stays (by simp) (by simp) hprob
  have hone : ∃ sr, solve_emf lsCareful (fin qAcid) (((qPts 0).map (·.1)).map fin)
      (((qPts 0).map (·.2.1)).map fin) (((qPts 0).map (·.2.2)).map fin) (fin 0.1) totals ks o false
        = .ok sr ∧ sr.used = u ∧ sr.alkalinity = fin (1e6 * qTrue) ∧ sr.emf0 = fin 0 := by
    refine ⟨_, solve_emf_false_iff.mpr ⟨gg, _, hg, by simpa [o] using hw, hk, by simpa using hf,
      by simpa using hf', by rw [hst]; exact hls, rfl⟩, by rw [hst]; rfl, ?_, ?_⟩
    · simp only [emfResult, mul_fin, mul_comm]
    · simp only [emfResult]
  obtain ⟨sr, h1, h2, h3, h4⟩ := hone
  refine ⟨sr, ?_, h2⟩
  have htwo : solve_emf w'.ls (fin qAcid) (((qPts 0).map (·.1)).map fin)
      (((qPts 0).map (·.2.1)).map fin) (((qPts 0).map (·.2.2)).map fin) (fin 0.1) totals ks o true
        = .ok sr := by
    rw [hw', solve_emf_true_eq, h1, bind_ok, h3, h4]
    exact h1
  rw [hs, hopts]
  simp only [bind_ok, htwo]
  rfl

/-- C125 for it: the alkalinity given to start with comes back as the result -/
example : ∃ sr T, files_solve naWorld "a.dat" (fin qAcid) (fin 35) (naArgs 5 6) = .ok (.emf sr T) ∧
    sr.alkalinity = fin (1e6 * qTrue) ∧ sr.emf0 = fin 0 ∧ sr.used.count true = 0 ∧ sr.alkalinity_std = nan := by
  obtain ⟨sr, h, -⟩ := na_solve 5 6 (by norm_num)
  obtain ⟨totals, ks, hl⟩ := ao_load 0
  rw [← na_load 5 6] at hl
  obtain ⟨g, hg⟩ := q_gran 0 qAcid
  have hz := congrArg (List.map fun p : ℝ × ℝ × ℝ => fin p.2.1) (ao_zero 0)
  refine ⟨sr, _, h, C125_no_points_adjust naWorld lsCareful_refuses lsCareful_idle _ _ _ _ sr _ h
    ⟨"pH_adjust", rfl, by decide⟩ _ totals ks hl ((aoPts 0).map fun p => p.2) rfl rfl ?_ 1 5 6 (.inr ⟨rfl, rfl⟩)
    (.inl rfl) (.inl rfl) "v23.7+" (.inr ⟨rfl, rfl⟩) g ?_ qTrue (.inl rfl) ?_⟩
  · intro p hp
    obtain ⟨q, hq, rfl⟩ := List.mem_map.mp hp
    exact (ao_run 0).temps q hq
  · rw [List.map_map] at hz ⊢
    exact (congrArg (fun m => gran_guesses _ m _ _ _ _ _) hz).trans hg
  · intro p hp
    obtain ⟨h1, h2, h3, h4⟩ := rf_pH
    simp only [aoPts, zero_div, Real.exp_zero, mul_one, List.map_cons, List.map_nil, List.mem_cons,
      List.not_mem_nil, or_false] at hp
    rcases hp with rfl | rfl <;> left <;> simp only <;> linarith

/-- with a window that has one of them, every error of the electrode goes with some alkalinity -/
example : ∃ sr T, files_solve naWorld "a.dat" (fin qAcid) (fin 35) (naArgs 3.1 4) = .ok (.emf sr T) ∧
    ∃ A : ℝ → ℝ, (∀ E, (mask sr.used (aoPts 0)).map
      (adjustMisfit pContents qConstants qAcid 1 0 0.1 (A E) E) = [0]) ∧ ∀ E E', E < E' → A E < A E' := by
  obtain ⟨sr, h, hu⟩ := na_solve 3.1 4 (by norm_num)
  refine ⟨sr, _, h, C125_one_point_adjust naWorld _ _ _ _ _ _ _ _ _ _ (na_run 3.1 4) sr _ h ?_⟩
  obtain ⟨h1, h2, h3, h4⟩ := rf_pH
  rw [hu, pH_used_fin]
  have e1 : inWin 3.1 4 (-Real.logb 10 2e-4) = true := by
    simp only [inWin, Bool.and_eq_true, decide_eq_true_eq]
    exact ⟨h1.le, h2.le⟩
  have e2 : inWin 3.1 4 (-Real.logb 10 9e-4) = false := by
    simp only [inWin, Bool.and_eq_false_iff, decide_eq_false_iff_not]
    exact .inl (by linarith)
  simp only [List.map_cons, List.map_nil, e1, e2]
  rfl

end Calk
