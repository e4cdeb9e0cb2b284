import Verif.Lemmas.Ols
import Verif.Props.FileCalibrate

/-!
# Property C116: the Gran plot of pH data, for a file
(`calkulate/files.py: solve`, `calibrate` in pH_gran mode, `calkulate/core.py: solve_pH_gran`,
`calibrate_pH_gran`)
-/

namespace Calk
open Flt Spec

/-- the arguments and the data of a solve in `ph_gran` mode: `n` protons per mole of acid, window `lo`
to `hi`; `pts` are the titrant masses (converted to kg) and pH values of the file, `M` the mass of the
sample -/
structure GranRun (w : World) (f : String) (S : Flt) (kw : Dict Val) (n lo hi M : ℝ)
    (pts : List (ℝ × ℝ)) : Prop where
  loads : ∃ cv totals ks, load w f S kw = .ok (cv, totals, ks) ∧
    cv.titrant_mass = pts.map (fun p => fin p.1) ∧ cv.analyte_mass = fin M ∧
    cv.measurement = pts.map (fun p => fin p.2)
  mode : ∃ s, kw.get? "solve_mode" = some (.str s) ∧ lowerS s = "ph_gran"
  normality : NumOr kw "titrant_normality" 1 n
  pH_min : NumOr kw "pH_min" 3 lo
  pH_max : NumOr kw "pH_max" 4 hi
  window : lo < hi
  mass : 0 < M

/-- the points of the Gran plot: titrant mass against (m + M) 10^(-pH), for pH in the window -/
noncomputable def Spec.granPlot (M lo hi : ℝ) (pts : List (ℝ × ℝ)) : List (ℝ × ℝ) :=
  (pts.filter fun p => decide (lo ≤ p.2) && decide (p.2 ≤ hi)).map
    fun p => (p.1, (p.1 + M) * (10 : ℝ) ^ (-p.2))

theorem GranRun.mode_ok {w : World} {f : String} {S : Flt} {kw : Dict Val} {n lo hi M : ℝ}
    {pts : List (ℝ × ℝ)} (h : GranRun w f S kw n lo hi M pts) : solve_mode kw = .ok "ph_gran" := by
  obtain ⟨s, hs, hs'⟩ := h.mode
  unfold solve_mode argVal
  rw [hs, ← hs']; rfl

theorem GranRun.dispatch {w : World} {f : String} {S : Flt} {kw : Dict Val} {n lo hi M : ℝ}
    {pts : List (ℝ × ℝ)} (h : GranRun w f S kw n lo hi M pts) {cv : Converted} {c : Flt}
    {totals ks : Dict NpVal} (h1 : cv.titrant_mass = pts.map (fun p => fin p.1))
    (h2 : cv.analyte_mass = fin M) (h3 : cv.measurement = pts.map (fun p => fin p.2)) :
    solve_dispatch w "ph_gran" cv c totals ks kw = (do
      let lr ← linregress ((granPlot M lo hi pts).map fun p => fin p.1)
        ((granPlot M lo hi pts).map fun p => fin p.2)
      return .pH_gran { alkalinity := fin 1e6 * (-lr.intercept / lr.slope * c * fin n / fin M),
                        used := pts.map fun p => decide (lo ≤ p.2) && decide (p.2 ≤ hi),
                        gfunc := pts.map fun p => fin ((p.1 + M) * (10:ℝ) ^ (-p.2)), lr }
        (pts.map fun p => fin p.2) cv.temperature) := by
  have hopts : ph_opts (get_kwargs_for keys_solve_pH_gran kw none)
      = .ok { pH_min := fin lo, pH_max := fin hi, titrant_normality := fin n } := by
    rw [ph_opts_kwargs kw (by decide) (by decide) (by decide)]
    unfold ph_opts
    rw [h.pH_min.arg, h.pH_max.arg, h.normality.arg]
    rfl
  unfold solve_dispatch
  rw [if_neg (by decide), if_neg (by decide), if_neg (by decide), if_pos rfl, hopts]
  simp only [bind_ok, h1, h2, h3, solve_pH_gran_eq _ _ _ _ _ _ h.window, granPlot, List.map_map,
    Function.comp_def]
  cases linregress _ _ <;> rfl

/-- what a solve that succeeded reports -/
theorem GranRun.result {w : World} {f : String} {S : Flt} {kw : Dict Val} {n lo hi M : ℝ}
    {pts : List (ℝ × ℝ)} (h : GranRun w f S kw n lo hi M pts) {c : Flt} {sr : SolveRes}
    (hs : files_solve w f c S kw = .ok sr) :
    ∃ (r : SolvePHGran) (T : List Flt) (lr : LinRegress), sr = .pH_gran r (pts.map fun p => fin p.2) T ∧
      linregress ((granPlot M lo hi pts).map fun p => fin p.1)
        ((granPlot M lo hi pts).map fun p => fin p.2) = .ok lr ∧
      r.alkalinity = fin 1e6 * (-lr.intercept / lr.slope * c * fin n / fin M) ∧
      r.used = pts.map fun p => decide (lo ≤ p.2) && decide (p.2 ≤ hi) := by
  obtain ⟨cv, totals, ks, hl, h1, h2, h3⟩ := h.loads
  unfold files_solve at hs
  rw [hl] at hs
  simp only [bind_ok, bind_ok_iff] at hs
  obtain ⟨tts, -, _, -, mode, hm, hs⟩ := hs
  rw [h.mode_ok] at hm
  obtain rfl := Except.ok.inj hm
  rw [h.dispatch h1 h2 h3] at hs
  simp only [bind_ok_iff, pure_ok, Except.ok.injEq] at hs
  obtain ⟨lr, hlr, hs⟩ := hs
  exact ⟨_, _, lr, hs.symm, hlr, rfl, rfl⟩

/-- **C116**: a solve in `ph_gran` mode of a file reports 1e6 (-b/a) c n / M, where a and b are slope
and intercept of the line that fits the points of the Gran plot best: whatever the contents and the
constants of the sample. -/
theorem C116_line (w : World) (f : String) (S : Flt) (kw : Dict Val) (c n lo hi M : ℝ)
    (pts : List (ℝ × ℝ)) (h : GranRun w f S kw n lo hi M pts)
    (h2 : ∃ p ∈ granPlot M lo hi pts, ∃ q ∈ granPlot M lo hi pts, p.1 ≠ q.1)
    (a b : ℝ) (hbest : BestLine (granPlot M lo hi pts) a b) (ha : a ≠ 0) (sr : SolveRes)
    (hs : files_solve w f (fin c) S kw = .ok sr) :
    sr.alkalinity = fin (1e6 * (-b / a) * c * n / M) ∧
    ∃ (r : SolvePHGran) (T : List Flt), sr = .pH_gran r (pts.map fun p => fin p.2) T ∧
      r.used = pts.map fun p => decide (lo ≤ p.2) && decide (p.2 ≤ hi) := by
  obtain ⟨r, T, lr, rfl, hlr, hr, hu⟩ := h.result hs
  obtain ⟨lr', a', b', hlr', hsl, hin, -, huniq⟩ := linregress_best h2
  obtain rfl : lr = lr' := Except.ok.inj (hlr.symm.trans hlr')
  obtain ⟨rfl, rfl⟩ := huniq a b hbest
  refine ⟨?_, r, T, rfl, hu⟩
  show r.alkalinity = _
  rw [hr, hsl, hin, neg_fin, div_fin _ _ ha, mul_fin, mul_fin, div_fin _ _ h.mass.ne', mul_fin, fin_inj]
  ring

/-- **C116**: there is exactly one such line if two points in the window differ in titrant mass. -/
theorem C116_one_line (M lo hi : ℝ) (pts : List (ℝ × ℝ))
    (h2 : ∃ p ∈ granPlot M lo hi pts, ∃ q ∈ granPlot M lo hi pts, p.1 ≠ q.1) :
    ∃ a b : ℝ, BestLine (granPlot M lo hi pts) a b ∧
      ∀ a' b', BestLine (granPlot M lo hi pts) a' b' → a' = a ∧ b' = b := by
  obtain ⟨-, a, b, -, -, -, hb, hu⟩ := linregress_best h2
  exact ⟨a, b, hb, hu⟩

/-- **C116**: the solve succeeds if two points in the window differ in titrant mass and the acid brings
nothing but protons. -/
theorem C116_succeeds (w : World) (f : String) (S c : Flt) (kw : Dict Val) (n lo hi M : ℝ)
    (pts : List (ℝ × ℝ)) (h : GranRun w f S kw n lo hi M pts)
    (h2 : ∃ p ∈ granPlot M lo hi pts, ∃ q ∈ granPlot M lo hi pts, p.1 ≠ q.1)
    (h3 : kw.get? "titrant_total_sulfate" = none) (h4 : kw.get? "titrant_total_phosphate" = none)
    (h5 : kw.get? "titrant_total_fluoride" = none) :
    ∃ sr, files_solve w f c S kw = .ok sr := by
  obtain ⟨lr, a, b, hlr, -⟩ := linregress_best h2
  obtain ⟨cv, totals, ks, hl, e1, e2, e3⟩ := h.loads
  have ht : titrant_totals kw = .ok [] := by
    have : (kw.filter fun kv => keys_titrant_totals.contains kv.1) = [] := by
      rw [List.filter_eq_nil_iff]
      rintro ⟨k, v⟩ hkv hk
      have hk : k ∈ keys_titrant_totals := by simpa using hk
      have hmem : k ∈ Dict.keys kw := List.mem_map.mpr ⟨(k, v), hkv, rfl⟩
      have hcase : k = "titrant_total_sulfate" ∨ k = "titrant_total_phosphate" ∨
          k = "titrant_total_fluoride" := by
        revert hk
        simp only [keys_titrant_totals, List.mem_cons, List.not_mem_nil, or_false]
        tauto
      rcases hcase with rfl | rfl | rfl
      · exact ((Dict.get?_eq_none_iff _ _).mp h3) hmem
      · exact ((Dict.get?_eq_none_iff _ _).mp h4) hmem
      · exact ((Dict.get?_eq_none_iff _ _).mp h5) hmem
    unfold titrant_totals
    rw [this]; rfl
  unfold files_solve
  rw [hl]
  simp only [bind_ok, ht, add_titrant_totals, PyS.pure_apply, h.mode_ok]
  rw [h.dispatch e1 e2 e3, hlr]
  exact ⟨_, rfl⟩

/-- the line of ideal strong-acid data -/
theorem ideal_best {A c n lo hi M : ℝ} {pts : List (ℝ × ℝ)}
    (hid : ∀ p ∈ pts, lo ≤ p.2 → p.2 ≤ hi → (p.1 + M) * (10 : ℝ) ^ (-p.2) = p.1 * c * n - A * M) :
    BestLine (granPlot M lo hi pts) (c * n) (-(A * M)) := by
  have hz : lineMisfit (granPlot M lo hi pts) (c * n) (-(A * M)) = 0 := by
    unfold lineMisfit
    apply List.sum_eq_zero
    intro z hz
    obtain ⟨g, hg, rfl⟩ := List.mem_map.mp hz
    obtain ⟨p, hp, rfl⟩ := List.mem_map.mp hg
    obtain ⟨hp1, hp2⟩ := List.mem_filter.mp hp
    simp only [Bool.and_eq_true, decide_eq_true_eq] at hp2
    simp only [hid p hp1 hp2.1 hp2.2]
    ring
  intro a' b'
  rw [hz]
  apply List.sum_nonneg
  intro z hz
  obtain ⟨g, hg, rfl⟩ := List.mem_map.mp hz
  positivity

/-- **C116**: on ideal strong-acid data (the excess acid at every point of the window) the alkalinity
is that of the sample. -/
theorem C116_exact (w : World) (f : String) (S : Flt) (kw : Dict Val) (A c n lo hi M : ℝ)
    (pts : List (ℝ × ℝ)) (h : GranRun w f S kw n lo hi M pts) (hcn : c * n ≠ 0)
    (h2 : ∃ p ∈ granPlot M lo hi pts, ∃ q ∈ granPlot M lo hi pts, p.1 ≠ q.1)
    (hid : ∀ p ∈ pts, lo ≤ p.2 → p.2 ≤ hi → (p.1 + M) * (10 : ℝ) ^ (-p.2) = p.1 * c * n - A * M)
    (sr : SolveRes) (hs : files_solve w f (fin c) S kw = .ok sr) : sr.alkalinity = fin (1e6 * A) := by
  have hbest := ideal_best hid
  rw [(C116_line w f S kw c n lo hi M pts h h2 _ _ hbest hcn sr hs).1, fin_inj]
  have hM := h.mass.ne'
  have hc : c ≠ 0 := left_ne_zero_of_mul hcn
  have hn : n ≠ 0 := right_ne_zero_of_mul hcn
  field_simp

/-- **C116**: a calibration in `ph_gran` mode that reaches zero residual finds the one molinity with
which the line accounts for the certified value. -/
theorem C116_calibrate (w : World) (f : String) (S : Flt) (kw : Dict Val) (cert c' n lo hi M : ℝ)
    (pts : List (ℝ × ℝ)) (h : GranRun w f S kw n lo hi M pts)
    (h2 : ∃ p ∈ granPlot M lo hi pts, ∃ q ∈ granPlot M lo hi pts, p.1 ≠ q.1)
    (a b : ℝ) (hbest : BestLine (granPlot M lo hi pts) a b) (ha : a ≠ 0) (hb : b ≠ 0) (hn : n ≠ 0)
    (hreg : Regular w f S kw) (hgl : kw.get? "gran_logic" = none) (res : LsqResult Flt)
    (hcal : files_calibrate w f (fin cert) S kw = .ok res) (hz : res.fun_ = [fin 0])
    (hx : res.x = fin c') : c' = cert * M / (1e6 * (-b / a) * n) := by
  obtain ⟨sr, hsr, hsa, -⟩ := C44_file w f (fin cert) S kw res hreg hgl hcal hz
  rw [hx] at hsr
  rw [(C116_line w f S kw c' n lo hi M pts h h2 a b hbest ha sr hsr).1] at hsa
  have := Flt.fin.inj hsa
  have hM := h.mass.ne'
  rw [← this]
  field_simp

/-- **C116**: so a calibration on ideal strong-acid data finds the molinity of the acid. -/
theorem C116_recovers (w : World) (f : String) (S : Flt) (kw : Dict Val) (A c c' n lo hi M : ℝ)
    (pts : List (ℝ × ℝ)) (h : GranRun w f S kw n lo hi M pts) (hcn : c * n ≠ 0) (hA : A ≠ 0)
    (h2 : ∃ p ∈ granPlot M lo hi pts, ∃ q ∈ granPlot M lo hi pts, p.1 ≠ q.1)
    (hid : ∀ p ∈ pts, lo ≤ p.2 → p.2 ≤ hi → (p.1 + M) * (10 : ℝ) ^ (-p.2) = p.1 * c * n - A * M)
    (hreg : Regular w f S kw) (hgl : kw.get? "gran_logic" = none) (res : LsqResult Flt)
    (hcal : files_calibrate w f (fin (1e6 * A)) S kw = .ok res) (hz : res.fun_ = [fin 0])
    (hx : res.x = fin c') : c' = c := by
  have hbest := ideal_best hid
  have hM := h.mass.ne'
  have hn : n ≠ 0 := right_ne_zero_of_mul hcn
  have hc : c ≠ 0 := left_ne_zero_of_mul hcn
  rw [C116_calibrate w f S kw _ c' n lo hi M pts h h2 _ _ hbest hcn
    (neg_ne_zero.mpr (mul_ne_zero hA hM)) hn hreg hgl res hcal hz hx]
  field_simp

/-! ### A case: 0.05 mol/kg of acid into 0.1 kg of a sample of alkalinity 200 µmol/kg -/

noncomputable def fgArgs : Dict Val :=
  [ ("solve_mode", .str "pH_Gran"), ("analyte_mass", .num (fin 0.1)), ("titrant_amount_unit", .str "kg"),
    ("titrant_molinity_init", .num (fin 0.05)) ] ++
  (("dic" :: (optionalContents ++ saltContents)).map fun k => (k, Val.num (fin (pContents k)))) ++
  allConstants.map fun k => (k, Val.num (fin (pConstants k)))

/-- the pH values of the two points -/
noncomputable def fgP : ℝ := -Real.logb 10 (3e-5 / 0.101)
noncomputable def fgQ : ℝ := -Real.logb 10 (8e-5 / 0.102)

theorem fg_window (y : ℝ) (h1 : 1e-4 ≤ y) (h2 : y ≤ 1e-3) :
    3 ≤ -Real.logb 10 y ∧ -Real.logb 10 y ≤ 4 := by
  have hy : 0 < y := lt_of_lt_of_le (by norm_num) h1
  constructor
  · have : Real.logb 10 y ≤ Real.logb 10 ((10 : ℝ) ^ (-3 : ℝ)) := by
      apply Real.logb_le_logb_of_le (by norm_num) hy
      rw [Real.rpow_neg (by norm_num)]; norm_num at h2 ⊢; linarith
    rw [Real.logb_rpow (by norm_num) (by norm_num)] at this
    linarith
  · have : Real.logb 10 ((10 : ℝ) ^ (-4 : ℝ)) ≤ Real.logb 10 y := by
      apply Real.logb_le_logb_of_le (by norm_num) (by positivity)
      rw [Real.rpow_neg (by norm_num)]; norm_num at h1 ⊢; linarith
    rw [Real.logb_rpow (by norm_num) (by norm_num)] at this
    linarith

theorem fg_load (w : World) : load w "a.dat" (fin 35) fgArgs = load w "a.dat" (fin 35) pArgs := rfl

theorem fg_run : GranRun (calWorld fgP fgQ) "a.dat" (fin 35) fgArgs 1 3 4 0.1
    [(0.001, fgP), (0.002, fgQ)] := by
  refine ⟨?_, ⟨"pH_Gran", rfl, by decide⟩, .inr ⟨rfl, rfl⟩, .inr ⟨rfl, rfl⟩, .inr ⟨rfl, rfl⟩,
    by norm_num, by norm_num⟩
  obtain ⟨cv, totals, ks, h, h1, h2, h3, -⟩ := p_loads fgP fgQ
  exact ⟨cv, totals, ks, by rw [fg_load]; exact h, by rw [h1]; rfl, h2, by rw [h3]; rfl⟩

theorem fg_ideal : ∀ p ∈ [(0.001, fgP), (0.002, fgQ)], (3 : ℝ) ≤ p.2 → p.2 ≤ 4 →
    (p.1 + 0.1) * (10 : ℝ) ^ (-p.2) = p.1 * 0.05 * 1 - 2e-4 * 0.1 := by
  intro p hp _ _
  simp only [List.mem_cons, List.not_mem_nil, or_false] at hp
  rcases hp with rfl | rfl
  · simp only [fgP, neg_neg]
    rw [Real.rpow_logb (by norm_num) (by norm_num) (by norm_num)]; norm_num
  · simp only [fgQ, neg_neg]
    rw [Real.rpow_logb (by norm_num) (by norm_num) (by norm_num)]; norm_num

theorem fg_two : ∃ p ∈ granPlot 0.1 3 4 [(0.001, fgP), (0.002, fgQ)],
    ∃ q ∈ granPlot 0.1 3 4 [(0.001, fgP), (0.002, fgQ)], p.1 ≠ q.1 := by
  have h1 := fg_window (3e-5 / 0.101) (by norm_num) (by norm_num)
  have h2 := fg_window (8e-5 / 0.102) (by norm_num) (by norm_num)
  refine ⟨_, List.mem_map.mpr ⟨(0.001, fgP), by simpa [fgP] using h1, rfl⟩, _,
    List.mem_map.mpr ⟨(0.002, fgQ), by simpa [fgQ] using h2, rfl⟩, by norm_num⟩

/-- C116_succeeds and C116_exact on it -/
theorem fg_solved : ∃ sr, files_solve (calWorld fgP fgQ) "a.dat" (fin 0.05) (fin 35) fgArgs = .ok sr ∧
    sr.alkalinity = fin (1e6 * 2e-4) := by
  obtain ⟨sr, hs⟩ := C116_succeeds (calWorld fgP fgQ) "a.dat" (fin 35) (fin 0.05) fgArgs 1 3 4 0.1 _
    fg_run fg_two rfl rfl rfl
  exact ⟨sr, hs, C116_exact _ _ _ _ 2e-4 0.05 1 3 4 0.1 _ fg_run (by norm_num) fg_two fg_ideal sr hs⟩

theorem fg_typed : Typed fgArgs "ph_gran" (fin 0.05) (ttArgs []) := by
  refine ⟨?_, rfl, rfl, ?_⟩
  · have : solve_mode fgArgs = .ok (lowerS "pH_Gran") := rfl
    rw [this]; decide
  · exact ⟨_, rfl⟩

theorem fg_regular : Regular (calWorld fgP fgQ) "a.dat" (fin 35) fgArgs := by
  obtain ⟨cv, totals, ks, h, h1, h2, h3, h4⟩ := p_loads fgP fgQ
  exact ⟨lsqOnce_reports, cv, totals, ks, "ph_gran", fin 0.05, _, by rw [fg_load]; exact h, fg_typed,
    by decide, by rw [h3, h4]; rfl, .inl rfl⟩

/-- every hypothesis of `C116_calibrate` and `C116_recovers` is met -/
example : ∃ res : LsqResult Flt, files_calibrate (calWorld fgP fgQ) "a.dat" (fin (1e6 * 2e-4)) (fin 35)
    fgArgs = .ok res ∧ res.fun_ = [fin 0] ∧ res.x = fin 0.05 := by
  obtain ⟨cv, totals, ks, hl, h1, h2, h3, h4⟩ := p_loads fgP fgQ
  obtain ⟨sr, hs, ha⟩ := fg_solved
  have hc := C32_same_solver (calWorld fgP fgQ) "a.dat" "ph_gran" (fin (1e6 * 2e-4)) (fin 35) (fin 0.05)
    fgArgs cv totals ks (by rw [fg_load]; exact hl) fg_typed rfl (by decide) (by rw [h3, h4]; rfl)
  refine ⟨⟨fin 0.05, [fin 0]⟩, ?_, rfl, rfl⟩
  have hs' : solveRes (calWorld fgP fgQ) "a.dat" (fin 35) (fin (1e6 * 2e-4)) fgArgs (fin 0.05) ()
      = (.ok [fin 0], ()) := by
    simp only [solveRes, hs, bind_ok, pure_ok, ha, sub_fin, sub_self, PyS.lift]
  rw [hc]
  show (lsqOnce.run (solveRes (calWorld fgP fgQ) "a.dat" (fin 35) (fin (1e6 * 2e-4)) fgArgs) (fin 0.05) ()).1 = _
  simp [Lsq.run, Lsq.loop, lsqOnce, allFinite, PyS.bind_apply, hs']

end Calk
