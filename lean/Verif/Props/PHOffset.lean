import Verif.Props.GranSign

/-!
# Property C148: a constant error of the pH electrode
-/

namespace Calk
open Flt Spec

/-! ## Lemmas -/

theorem best_line_scaled {l : List (ℝ × ℝ)} {a b k : ℝ} (h : BestLine l a b) :
    BestLine (l.map fun p => (p.1, k * p.2)) (k * a) (k * b) := by
  have key : ∀ s t : ℝ, lineMisfit (l.map fun p => (p.1, k * p.2)) (k * s) (k * t) = k ^ 2 * lineMisfit l s t := by
    intro s t
    unfold lineMisfit
    clear h
    induction l with
    | nil => simp
    | cons z l ih =>
      simp only [List.map_cons, List.sum_cons] at ih ⊢
      linear_combination ih
  intro a' b'
  by_cases hk : k = 0
  · subst hk
    have h0 := key a b
    rw [h0, zero_pow two_ne_zero, zero_mul]
    unfold lineMisfit
    refine List.sum_nonneg ?_
    intro y hy
    obtain ⟨p, -, rfl⟩ := List.mem_map.mp hy
    positivity
  · have h1 := key (a' / k) (b' / k)
    rw [mul_div_cancel₀ _ hk, mul_div_cancel₀ _ hk] at h1
    rw [key, h1]
    exact mul_le_mul_of_nonneg_left (h _ _) (by positivity)

theorem granPlot_offset {M lo hi lo' hi' d : ℝ} {pts : List (ℝ × ℝ)}
    (hw : ∀ p ∈ pts, (lo ≤ p.2 ∧ p.2 ≤ hi) ↔ (lo' ≤ p.2 + d ∧ p.2 + d ≤ hi')) :
    granPlot M lo' hi' (pts.map fun p => (p.1, p.2 + d))
      = (granPlot M lo hi pts).map fun p => (p.1, (10 : ℝ) ^ (-d) * p.2) := by
  unfold granPlot
  rw [List.filter_map, List.map_map, List.map_map]
  rw [List.filter_congr (q := fun p => decide (lo ≤ p.2) && decide (p.2 ≤ hi)) (by
    intro p hp
    have := hw p hp
    simp only [Function.comp_apply, ← Bool.decide_and]
    exact decide_eq_decide.mpr this.symm)]
  refine List.map_congr_left fun p _ => ?_
  simp only [Function.comp_apply, Prod.mk.injEq, true_and]
  rw [show -(p.2 + d) = -d + -p.2 by ring, Real.rpow_add (by norm_num)]
  ring

theorem granPlot_offset_two {M lo hi lo' hi' d : ℝ} {pts : List (ℝ × ℝ)}
    (hw : ∀ p ∈ pts, (lo ≤ p.2 ∧ p.2 ≤ hi) ↔ (lo' ≤ p.2 + d ∧ p.2 + d ≤ hi'))
    (h2 : ∃ p ∈ granPlot M lo hi pts, ∃ q ∈ granPlot M lo hi pts, p.1 ≠ q.1) :
    ∃ p ∈ granPlot M lo' hi' (pts.map fun p => (p.1, p.2 + d)),
      ∃ q ∈ granPlot M lo' hi' (pts.map fun p => (p.1, p.2 + d)), p.1 ≠ q.1 := by
  rw [granPlot_offset hw]
  obtain ⟨p, hp, q, hq, hpq⟩ := h2
  exact ⟨_, List.mem_map.mpr ⟨p, hp, rfl⟩, _, List.mem_map.mpr ⟨q, hq, rfl⟩, hpq⟩

/-- the mean over the window of a number that is larger for every point in it -/
theorem windowMean_window {lo hi : ℝ} {tm pH : List ℝ} {e e' : ℝ → ℝ → ℝ} (hm : ∀ m ∈ tm, 0 ≤ m)
    (h : ∀ m p : ℝ, 0 ≤ m → lo ≤ p → p ≤ hi → e m p ≤ e' m p) :
    windowMean lo hi pH (List.zipWith e tm pH) ≤ windowMean lo hi pH (List.zipWith e' tm pH) := by
  unfold windowMean
  refine div_le_div_of_nonneg_right ?_ (by positivity)
  induction pH generalizing tm with
  | nil => simp
  | cons p pH ih =>
    match tm, hm with
    | [], _ => simp
    | m :: tm, hm =>
      have ih := ih fun q hq => hm q (List.mem_cons_of_mem _ hq)
      cases hW : (decide (lo ≤ p) && decide (p ≤ hi))
      · simpa only [List.map_cons, List.zipWith_cons_cons, hW, mask_cons_false] using ih
      · simp only [List.map_cons, List.zipWith_cons_cons, hW, mask_cons_true, List.sum_cons]
        simp only [Bool.and_eq_true, decide_eq_true_eq] at hW
        exact add_le_add (h m p (hm m (List.mem_cons_self ..)) hW.1 hW.2) ih

theorem windowMean_offset {lo hi lo' hi' d : ℝ} {tm pH : List ℝ} {e : ℝ → ℝ → ℝ}
    (hw : ∀ p ∈ pH, (lo ≤ p ∧ p ≤ hi) ↔ (lo' ≤ p + d ∧ p + d ≤ hi')) :
    windowMean lo' hi' (pH.map (· + d)) (List.zipWith e tm (pH.map (· + d)))
      = windowMean lo hi pH (List.zipWith (fun m p => e m (p + d)) tm pH) := by
  have hd : ∀ p ∈ pH, (decide (lo' ≤ p + d) && decide (p + d ≤ hi')) = (decide (lo ≤ p) && decide (p ≤ hi)) := by
    intro p hp
    simp only [← Bool.decide_and]
    exact decide_eq_decide.mpr (hw p hp).symm
  unfold windowMean
  rw [List.map_map, List.zipWith_map_right, List.filter_map, List.length_map]
  congr 1
  · congr 2
    exact List.map_congr_left hd
  · congr 2
    exact List.filter_congr hd

theorem estimate_offset {x K : String → ℝ} {c n g M m p d hi : ℝ}
    (hx : ∀ k ∈ "dic" :: (optionalContents ++ saltContents), 0 ≤ x k) (hK : ∀ k ∈ allConstants, 0 < K k)
    (hc : 0 ≤ c) (hg : 0 ≤ g) (hgn : g ≤ n) (hM : 0 < M) (hm : 0 ≤ m) (hd : 0 ≤ d) (hp : p ≤ hi) :
    estimate x K c n g M m p + 1e6 * ((1 - (10 : ℝ) ^ (-d)) * (10 : ℝ) ^ (-hi))
      ≤ estimate x K c n g M m (p + d) := by
  have q1 : (0 : ℝ) < (10 : ℝ) ^ (-p) := by positivity
  have q2 : (0 : ℝ) < (10 : ℝ) ^ (-(p + d)) := by positivity
  have q3 : (10 : ℝ) ^ (-(p + d)) ≤ (10 : ℝ) ^ (-p) := Real.rpow_le_rpow_of_exponent_le (by norm_num) (by linarith)
  have q4 : (10 : ℝ) ^ (-hi) ≤ (10 : ℝ) ^ (-p) := Real.rpow_le_rpow_of_exponent_le (by norm_num) (by linarith)
  have q5 : (10 : ℝ) ^ (-d) ≤ 1 := Real.rpow_le_one_of_one_le_of_nonpos (by norm_num) (by linarith)
  have q6 : (10 : ℝ) ^ (-(p + d)) = (10 : ℝ) ^ (-d) * (10 : ℝ) ^ (-p) := by
    rw [← Real.rpow_add (by norm_num)]; congr 1; ring
  have s : sampleAlk x K ((10 : ℝ) ^ (-p)) + ((10 : ℝ) ^ (-p) - (10 : ℝ) ^ (-(p + d)))
      ≤ sampleAlk x K ((10 : ℝ) ^ (-(p + d))) := by
    have hv := mixture_valid (x := x) (K := K) (m := 0) (M := 1) (c := 0) (g := 0) (by norm_num) le_rfl
      (by norm_num) hx hK
    have := (alk_fall hv q2 le_rfl q3).1
    unfold sampleAlk
    linarith
  have t := mul_le_mul_of_nonneg_left (titrantAcid_mono hK (le_refl c) hc hg hgn q2 q3) (div_nonneg hm hM.le)
  have u := mul_le_mul_of_nonneg_left q4 (sub_nonneg.mpr q5)
  unfold estimate
  rw [q6] at s t ⊢
  linarith

/-! ## The property -/

/-- **C148**: an electrode whose pH is off by the same amount throughout leaves the alkalinity found in the
Gran mode unchanged, as long as the same points are used. -/
theorem C148_gran (w w' : World) (f f' : String) (S S' : Flt) (kw kw' : Dict Val) (c n lo hi lo' hi' M d : ℝ)
    (pts : List (ℝ × ℝ)) (h : GranRun w f S kw n lo hi M pts)
    (h' : GranRun w' f' S' kw' n lo' hi' M (pts.map fun p => (p.1, p.2 + d)))
    (hw : ∀ p ∈ pts, (lo ≤ p.2 ∧ p.2 ≤ hi) ↔ (lo' ≤ p.2 + d ∧ p.2 + d ≤ hi'))
    (h2 : ∃ p ∈ granPlot M lo hi pts, ∃ q ∈ granPlot M lo hi pts, p.1 ≠ q.1)
    (a b : ℝ) (hbest : BestLine (granPlot M lo hi pts) a b) (ha : a ≠ 0) (sr sr' : SolveRes)
    (hs : files_solve w f (fin c) S kw = .ok sr) (hs' : files_solve w' f' (fin c) S' kw' = .ok sr') :
    sr'.alkalinity = sr.alkalinity ∧ ∃ A, sr.alkalinity = fin A := by
  have hk : (10 : ℝ) ^ (-d) ≠ 0 := by positivity
  have hb' := best_line_scaled (k := (10 : ℝ) ^ (-d)) hbest
  rw [← granPlot_offset hw] at hb'
  have r1 := (C116_line w f S kw c n lo hi M pts h h2 a b hbest ha sr hs).1
  have r2 := (C116_line w' f' S' kw' c n lo' hi' M _ h' (granPlot_offset_two hw h2) _ _ hb' (mul_ne_zero hk ha)
    sr' hs').1
  refine ⟨?_, _, r1⟩
  rw [r1, r2, ← mul_neg, mul_div_mul_left _ _ hk]

/-- **C148**: a calibration in that mode likewise gives the same molinity. -/
theorem C148_calibrate (w w' : World) (f f' : String) (S S' : Flt) (kw kw' : Dict Val)
    (A n lo hi lo' hi' M d : ℝ) (pts : List (ℝ × ℝ)) (h : GranRun w f S kw n lo hi M pts)
    (h' : GranRun w' f' S' kw' n lo' hi' M (pts.map fun p => (p.1, p.2 + d)))
    (hw : ∀ p ∈ pts, (lo ≤ p.2 ∧ p.2 ≤ hi) ↔ (lo' ≤ p.2 + d ∧ p.2 + d ≤ hi'))
    (h2 : ∃ p ∈ granPlot M lo hi pts, ∃ q ∈ granPlot M lo hi pts, p.1 ≠ q.1)
    (a b : ℝ) (hbest : BestLine (granPlot M lo hi pts) a b) (ha : a ≠ 0) (hb : b ≠ 0) (hn : n ≠ 0)
    (hreg : Regular w f S kw) (hgl : kw.get? "gran_logic" = none)
    (hreg' : Regular w' f' S' kw') (hgl' : kw'.get? "gran_logic" = none) (res res' : LsqResult Flt) (c c' : ℝ)
    (hcal : files_calibrate w f (fin A) S kw = .ok res) (hz : res.fun_ = [fin 0]) (hx : res.x = fin c)
    (hcal' : files_calibrate w' f' (fin A) S' kw' = .ok res') (hz' : res'.fun_ = [fin 0]) (hx' : res'.x = fin c') :
    c' = c := by
  have hk : (10 : ℝ) ^ (-d) ≠ 0 := by positivity
  have hb' := best_line_scaled (k := (10 : ℝ) ^ (-d)) hbest
  rw [← granPlot_offset hw] at hb'
  rw [C116_calibrate w f S kw A c n lo hi M pts h h2 a b hbest ha hb hn hreg hgl res hcal hz hx,
    C116_calibrate w' f' S' kw' A c' n lo' hi' M _ h' (granPlot_offset_two hw h2) _ _ hb' (mul_ne_zero hk ha)
      (mul_ne_zero hk hb) hn hreg' hgl' res' hcal' hz' hx']
  field_simp

/-- **C148**: in the pH mode it does not: an electrode that reads `d` too high gives an alkalinity that is too high,
by at least the drop in the concentration of protons at the upper end of the window. -/
theorem C148_pH (w w' : World) (f f' : String) (S S' : Flt) (kw kw' : Dict Val) (x K : String → ℝ)
    (c n g lo hi lo' hi' M d : ℝ) (tm pH : List ℝ) (h : PHRun w f S kw x K c n g lo hi M tm pH)
    (h' : PHRun w' f' S' kw' x K c n g lo' hi' M tm (pH.map (· + d)))
    (hw : ∀ p ∈ pH, (lo ≤ p ∧ p ≤ hi) ↔ (lo' ≤ p + d ∧ p + d ≤ hi'))
    (hin : ∃ p ∈ pH, lo ≤ p ∧ p ≤ hi) (hc : 0 ≤ c) (hg : 0 ≤ g) (hgn : g ≤ n) (hd : 0 < d) :
    ∃ (r r' : SolvePH) (T T' : List Flt) (a a' : ℝ),
      files_solve w f (fin c) S kw = .ok (.pH r (pH.map fin) T) ∧
      files_solve w' f' (fin c) S' kw' = .ok (.pH r' ((pH.map (· + d)).map fin) T') ∧
      r.alkalinity = fin a ∧ r'.alkalinity = fin a' ∧
      a + 1e6 * ((1 - (10 : ℝ) ^ (-d)) * (10 : ℝ) ^ (-hi)) ≤ a' ∧ a < a' := by
  obtain ⟨r, T, h1, -, h2⟩ := C122_formula w f S kw x K c n g lo hi M tm pH h hin
  have hin' : ∃ p ∈ pH.map (· + d), lo' ≤ p ∧ p ≤ hi' := by
    obtain ⟨p, hp, hp'⟩ := hin
    exact ⟨p + d, List.mem_map.mpr ⟨p, hp, rfl⟩, (hw p hp).mp hp'⟩
  obtain ⟨r', T', h1', -, h2'⟩ := C122_formula w' f' S' kw' x K c n g lo' hi' M tm _ h' hin'
  have hK : ∀ k ∈ allConstants, 0 < K k := fun k hk => (h.sample.constants k hk).2
  have hx : ∀ k ∈ "dic" :: (optionalContents ++ saltContents), 0 ≤ x k := fun k hk => (h.sample.contents k hk).2
  have hle := windowMean_window (lo := lo) (hi := hi) (tm := tm) (pH := pH)
    (e := fun m p => estimate x K c n g M m p + 1e6 * ((1 - (10 : ℝ) ^ (-d)) * (10 : ℝ) ^ (-hi)))
    (e' := fun m p => estimate x K c n g M m (p + d)) h.masses
    fun m p hm _ hp => estimate_offset hx hK hc hg hgn h.mass hm hd.le hp
  rw [windowMean_shift _ h.lengths hin, ← windowMean_offset hw] at hle
  refine ⟨r, r', T, T', _, _, h1, h1', h2, h2', hle, lt_of_lt_of_le ?_ hle⟩
  have q : (10 : ℝ) ^ (-d) < 1 := Real.rpow_lt_one_of_one_lt_of_neg (by norm_num) (by linarith)
  have : 0 < (1 - (10 : ℝ) ^ (-d)) * (10 : ℝ) ^ (-hi) := mul_pos (sub_pos.mpr q) (by positivity)
  linarith

/-! ### A case: an electrode that reads a proton concentration too small by half -/

noncomputable def poD : ℝ := Real.logb 10 2

theorem po_pos : 0 < poD := Real.logb_pos (by norm_num) (by norm_num)

theorem po_shift {y : ℝ} (hy : 0 < y) : -Real.logb 10 y + poD = -Real.logb 10 (y / 2) := by
  rw [poD, Real.logb_div hy.ne' (by norm_num)]
  ring

theorem po_run : GranRun (calWorld (fgP + poD) (fgQ + poD)) "a.dat" (fin 35) fgArgs 1 3 4 0.1
    ([(0.001, fgP), (0.002, fgQ)].map fun p => (p.1, p.2 + poD)) := by
  refine ⟨?_, ⟨"pH_Gran", rfl, by decide⟩, .inr ⟨rfl, rfl⟩, .inr ⟨rfl, rfl⟩, .inr ⟨rfl, rfl⟩,
    by norm_num, by norm_num⟩
  obtain ⟨cv, totals, ks, h, h1, h2, h3, -⟩ := p_loads (fgP + poD) (fgQ + poD)
  exact ⟨cv, totals, ks, by rw [fg_load]; exact h, by rw [h1]; rfl, h2, by rw [h3]; rfl⟩

theorem po_window : ∀ p ∈ [((0.001 : ℝ), fgP), (0.002, fgQ)],
    ((3 : ℝ) ≤ p.2 ∧ p.2 ≤ 4) ↔ (3 ≤ p.2 + poD ∧ p.2 + poD ≤ 4) := by
  intro p hp
  simp only [List.mem_cons, List.not_mem_nil, or_false] at hp
  rcases hp with rfl | rfl
  · simp only [fgP]
    rw [po_shift (by norm_num)]
    exact iff_of_true (fg_window _ (by norm_num) (by norm_num)) (fg_window _ (by norm_num) (by norm_num))
  · simp only [fgQ]
    rw [po_shift (by norm_num)]
    exact iff_of_true (fg_window _ (by norm_num) (by norm_num)) (fg_window _ (by norm_num) (by norm_num))

/-- in the Gran mode: still 200 µmol/kg -/
theorem po_solved : ∃ sr, files_solve (calWorld (fgP + poD) (fgQ + poD)) "a.dat" (fin 0.05) (fin 35) fgArgs = .ok sr ∧
    sr.alkalinity = fin (1e6 * 2e-4) := by
  obtain ⟨sr, hs, ha⟩ := fg_solved
  obtain ⟨sr', hs'⟩ := C116_succeeds (calWorld (fgP + poD) (fgQ + poD)) "a.dat" (fin 35) (fin 0.05) fgArgs 1 3 4 0.1 _
    po_run (granPlot_offset_two po_window fg_two) rfl rfl rfl
  exact ⟨sr', hs', by rw [(C148_gran _ _ _ _ _ _ _ _ _ _ _ _ _ _ _ _ _ fg_run po_run po_window fg_two _ _
    (ideal_best fg_ideal) (by norm_num) sr sr' hs hs').1, ha]⟩

theorem po_calibrates {p q : ℝ} (h : ∃ sr, files_solve (calWorld p q) "a.dat" (fin 0.05) (fin 35) fgArgs = .ok sr ∧
    sr.alkalinity = fin (1e6 * 2e-4)) :
    Regular (calWorld p q) "a.dat" (fin 35) fgArgs ∧
    files_calibrate (calWorld p q) "a.dat" (fin (1e6 * 2e-4)) (fin 35) fgArgs = .ok ⟨fin 0.05, [fin 0]⟩ := by
  obtain ⟨cv, totals, ks, hl, h1, h2, h3, h4⟩ := p_loads p q
  obtain ⟨sr, hs, ha⟩ := h
  have hc := C32_same_solver (calWorld p q) "a.dat" "ph_gran" (fin (1e6 * 2e-4)) (fin 35) (fin 0.05)
    fgArgs cv totals ks (by rw [fg_load]; exact hl) fg_typed rfl (by decide) (by rw [h3, h4]; rfl)
  refine ⟨⟨lsqOnce_reports, cv, totals, ks, "ph_gran", fin 0.05, _, by rw [fg_load]; exact hl, fg_typed,
    by decide, by rw [h3, h4]; rfl, .inl rfl⟩, ?_⟩
  have hs' : solveRes (calWorld p q) "a.dat" (fin 35) (fin (1e6 * 2e-4)) fgArgs (fin 0.05) ()
      = (.ok [fin 0], ()) := by
    simp only [solveRes, hs, bind_ok, pure_ok, ha, sub_fin, sub_self, PyS.lift]
  rw [hc]
  show (lsqOnce.run (solveRes (calWorld p q) "a.dat" (fin 35) (fin (1e6 * 2e-4)) fgArgs) (fin 0.05) ()).1 = _
  simp [Lsq.run, Lsq.loop, lsqOnce, allFinite, PyS.bind_apply, hs']

/-- every hypothesis of `C148_calibrate` is met -/
example : ∃ res res' : LsqResult Flt,
    files_calibrate (calWorld fgP fgQ) "a.dat" (fin (1e6 * 2e-4)) (fin 35) fgArgs = .ok res ∧
    files_calibrate (calWorld (fgP + poD) (fgQ + poD)) "a.dat" (fin (1e6 * 2e-4)) (fin 35) fgArgs = .ok res' ∧
    ∀ c c' : ℝ, res.x = fin c → res'.x = fin c' → c' = c := by
  obtain ⟨hr, hc⟩ := po_calibrates fg_solved
  obtain ⟨hr', hc'⟩ := po_calibrates po_solved
  exact ⟨_, _, hc, hc', fun c c' hx hx' => C148_calibrate _ _ _ _ _ _ _ _ _ _ _ _ _ _ _ _ _ fg_run po_run po_window
    fg_two _ _ (ideal_best fg_ideal) (by norm_num) (by norm_num) (by norm_num) hr rfl hr' rfl _ _ _ _ hc rfl hx
    hc' rfl hx'⟩

/-- in the pH mode: a pH 0.1 too high, and an alkalinity that is too high by at least 1e6 (1 - 10^-0.1) 10^-4 -/
example : ∃ (r r' : SolvePH) (T T' : List Flt) (a a' : ℝ),
    files_solve (pWorld 3.2 3.5) "a.dat" (fin 0.1) (fin 35) pArgs = .ok (.pH r ([3.2, 3.5].map fin) T) ∧
    files_solve (pWorld (3.2 + 0.1) (3.5 + 0.1)) "a.dat" (fin 0.1) (fin 35) pArgs
      = .ok (.pH r' (([3.2, 3.5].map (· + 0.1)).map fin) T') ∧
    r.alkalinity = fin a ∧ r'.alkalinity = fin a' ∧
    a + 1e6 * ((1 - (10 : ℝ) ^ (-0.1 : ℝ)) * (10 : ℝ) ^ (-4 : ℝ)) ≤ a' ∧ a < a' :=
  C148_pH _ _ _ _ _ _ _ _ _ _ _ _ _ _ _ _ _ _ _ _ _ (p_run 3.2 3.5) (p_run (3.2 + 0.1) (3.5 + 0.1))
    (by
      intro p hp
      simp only [List.mem_cons, List.not_mem_nil, or_false] at hp
      rcases hp with rfl | rfl <;> norm_num)
    ⟨3.2, by simp, by norm_num, by norm_num⟩ (by norm_num) (by norm_num) (by norm_num) (by norm_num)

end Calk
