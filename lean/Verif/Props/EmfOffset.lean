import Verif.Props.FileEmf

/-!
# Property C114: an electrode offset moves EMF0 and nothing else

A constant added to every EMF reading of an isothermal titration.
-/

namespace Calk
open Flt Spec

/-- an optimiser that does not care where the second parameter has its zero -/
def LsTranslates (ls : LsFun (Flt × Flt)) : Prop :=
  ∀ (d : ℝ) (f f' : Flt × Flt → Py (List Flt)), (∀ a e, f' (a, e + fin d) = f (a, e)) →
    ∀ a e, ls f' (a, e + fin d)
      = (ls f (a, e)).map fun r => { r with x := (r.x.1, r.x.2 + fin d) }

theorem emf_to_pH_arr_shift (emf T : List Flt) (E : Flt) (d : ℝ) :
    emf_to_pH_arr (emf.map fun e => e + fin d) (E + fin d) T = emf_to_pH_arr emf E T := by
  unfold emf_to_pH_arr
  rw [List.zipWith_map_left]
  congr 1
  funext e t
  simp only [emf_to_pH, emf_to_h, sub_add_cancel_shift]

/-- the options with the initial EMF0, if there is one, moved along -/
def EmfOpts.moved (o : EmfOpts) (d : ℝ) : EmfOpts :=
  { o with emf0_init := o.emf0_init.map fun e => e + fin d }

/-- the result of a titration with offset -/
def SolveEmf.IsMoved (d : ℝ) (sr sr' : SolveEmf) : Prop :=
  sr'.alkalinity = sr.alkalinity ∧ sr'.emf0 = sr.emf0 + fin d ∧ sr'.used = sr.used ∧
  sr'.pH = sr.pH ∧ sr'.alkalinity_std = sr.alkalinity_std ∧
  sr'.alkalinity_all = sr.alkalinity_all ∧ sr'.opt_result.fun_ = sr.opt_result.fun_ ∧
  sr'.ggr.ga.alkalinity = sr.ggr.ga.alkalinity ∧ sr'.ggr.emf0 = sr.ggr.emf0 + fin d

theorem solve_once_moved {ls : LsFun (Flt × Flt)} (hls : LsTranslates ls) {c M : Flt}
    {tm emf : List Flt} {t d : ℝ} (ht : -273.15 < t) {k : ℕ} {totals ks : Dict NpVal} {o : EmfOpts}
    {sr : SolveEmf}
    (h : solve_emf ls c tm emf (List.replicate k (fin t)) M totals ks o false = .ok sr) :
    ∃ sr', solve_emf ls c tm (emf.map fun e => e + fin d) (List.replicate k (fin t)) M totals ks
      (o.moved d) false = .ok sr' ∧ sr.IsMoved d sr' := by
  obtain ⟨g, opt, hg, hw, hk, hf, hf', hopt, rfl⟩ := solve_emf_false_iff.mp h
  obtain ⟨g', hg', hu, ha, -, hE, -, hp⟩ := (C20_offset tm emf t d ht M c o.titrant_normality
    o.gran_logic k).1 g hg
  have hs1 : (emfStart (o.moved d) g' (emf.map fun e => e + fin d) (List.replicate k (fin t))).used
      = (emfStart o g emf (List.replicate k (fin t))).used := by
    simp only [emfStart, EmfOpts.moved]
    cases o.emf0_init with
    | none => simp only [Option.map_none, hp]
    | some e => simp only [Option.map_some, emf_to_pH_arr_shift]
  have hs2 : (emfStart (o.moved d) g' (emf.map fun e => e + fin d) (List.replicate k (fin t))).emf0
      = (emfStart o g emf (List.replicate k (fin t))).emf0 + fin d := by
    simp only [emfStart, EmfOpts.moved]
    cases o.emf0_init with
    | none => simp only [Option.map_none, hE]
    | some e => simp only [Option.map_some]
  have hs3 : (emfStart (o.moved d) g' (emf.map fun e => e + fin d) (List.replicate k (fin t))).alk
      = (emfStart o g emf (List.replicate k (fin t))).alk := by
    simp only [emfStart, EmfOpts.moved]
    cases o.alkalinity_init with
    | none => simp only [ha]
    | some e => rfl
  have hls' := hls d (emfProblem c o.titrant_normality M tm emf (List.replicate k (fin t)) totals ks
      (emfStart o g emf (List.replicate k (fin t))).used)
    (emfProblem c o.titrant_normality M tm (emf.map fun e => e + fin d) (List.replicate k (fin t))
      totals ks (emfStart o g emf (List.replicate k (fin t))).used)
    (by intro a e; simp only [emfProblem, emfRes, emf_to_pH_arr_shift])
    (emfStart o g emf (List.replicate k (fin t))).alk (emfStart o g emf (List.replicate k (fin t))).emf0
  rw [hopt] at hls'
  refine ⟨_, solve_emf_false_iff.mpr ⟨g', { opt with x := (opt.x.1, opt.x.2 + fin d) }, hg', hw, hk,
    by rw [List.length_map]; exact hf, by rw [List.length_map]; exact hf', ?_, rfl⟩, ?_⟩
  · rw [hs1, hs2, hs3]
    exact hls'
  · refine ⟨rfl, rfl, hs1, ?_, rfl, ?_, rfl, ha, hE⟩
    · simp only [emfResult, emf_to_pH_arr_shift]
    · simp only [emfResult, emf_to_pH_arr_shift, EmfOpts.moved]

theorem solve_moved {ls : LsFun (Flt × Flt)} (hls : LsTranslates ls) {c M : Flt}
    {tm emf : List Flt} {t d : ℝ} (ht : -273.15 < t) {k : ℕ} {totals ks : Dict NpVal} {o : EmfOpts}
    {double : Bool} {sr : SolveEmf}
    (h : solve_emf ls c tm emf (List.replicate k (fin t)) M totals ks o double = .ok sr) :
    ∃ sr', solve_emf ls c tm (emf.map fun e => e + fin d) (List.replicate k (fin t)) M totals ks
      (o.moved d) double = .ok sr' ∧ sr.IsMoved d sr' := by
  cases double with
  | false => exact solve_once_moved hls ht h
  | true =>
    rw [solve_emf_true_eq, bind_ok_iff] at h
    obtain ⟨sr1, h1, h2⟩ := h
    obtain ⟨sr1', h1', m⟩ := solve_once_moved (d := d) hls ht h1
    obtain ⟨sr', h2', m'⟩ := solve_once_moved (d := d) hls ht h2
    refine ⟨sr', ?_, m'⟩
    rw [solve_emf_true_eq, h1', bind_ok, m.1, m.2.1]
    exact h2'

/-- **C114**: a constant offset in the EMF readings of an isothermal titration (and in the initial
EMF0, if one is given) leaves alkalinity, its spread, point estimates, points used, pH, residuals and
Gran alkalinity as they are and moves the reported EMF0 and the Gran EMF0 by the offset, for every
optimiser indifferent to such translations; the solve with the offset fails exactly if the one
without it fails.  For arbitrary data, single and double solves. -/
theorem C114_offset (ls : LsFun (Flt × Flt)) (hls : LsTranslates ls) (c M : Flt)
    (tm emf : List Flt) (t d : ℝ) (ht : -273.15 < t) (k : ℕ) (totals ks : Dict NpVal) (o : EmfOpts)
    (double : Bool) :
    (∀ sr, solve_emf ls c tm emf (List.replicate k (fin t)) M totals ks o double = .ok sr →
      ∃ sr', solve_emf ls c tm (emf.map fun e => e + fin d) (List.replicate k (fin t)) M totals ks
          { o with emf0_init := o.emf0_init.map fun e => e + fin d } double = .ok sr' ∧
        sr'.alkalinity = sr.alkalinity ∧ sr'.emf0 = sr.emf0 + fin d ∧ sr'.used = sr.used ∧
        sr'.pH = sr.pH ∧ sr'.alkalinity_std = sr.alkalinity_std ∧
        sr'.alkalinity_all = sr.alkalinity_all ∧ sr'.opt_result.fun_ = sr.opt_result.fun_ ∧
        sr'.ggr.ga.alkalinity = sr.ggr.ga.alkalinity ∧ sr'.ggr.emf0 = sr.ggr.emf0 + fin d) ∧
    ∀ sr', solve_emf ls c tm (emf.map fun e => e + fin d) (List.replicate k (fin t)) M totals ks
          { o with emf0_init := o.emf0_init.map fun e => e + fin d } double = .ok sr' →
      ∃ sr, solve_emf ls c tm emf (List.replicate k (fin t)) M totals ks o double = .ok sr := by
  refine ⟨fun sr h => solve_moved hls ht h, fun sr' h => ?_⟩
  obtain ⟨sr, hs, -⟩ := solve_moved (d := -d) hls ht h
  have hc : ∀ e : Flt, e + fin d + fin (-d) = e := by
    intro e
    rw [Flt.add_assoc, add_fin, add_neg_cancel]
    exact add_zero e
  refine ⟨sr, ?_⟩
  rw [← hs]
  congr 1
  · rw [List.map_map]
    simp [Function.comp_def, hc]
  · simp [EmfOpts.moved, Option.map_map, Function.comp_def, hc]

/-- **C114**: for any sound optimiser that finds minima: if two files hold the same titration but for
an offset `d` of the electrode, and the same points are used, then the fits are equally good, and what
is found for the one is, with EMF0 moved by `d`, a best fit for the other. -/
theorem C114_best (w w' : World) (f f' : String) (S S' : Flt) (kw kw' : Dict Val)
    (x K : String → ℝ) (c n g M d : ℝ) (pts : List (ℝ × ℝ × ℝ))
    (h : EmfRun w f S kw x K c n g M pts)
    (h' : EmfRun w' f' S' kw' x K c n g M (pts.map fun p => (p.1, p.2.1 + d, p.2.2)))
    (hmin : LsGlobalMin w.ls) (hmin' : LsGlobalMin w'.ls) (sr sr' : SolveEmf) (T T' : List Flt)
    (hr : files_solve w f (fin c) S kw = .ok (.emf sr T))
    (hr' : files_solve w' f' (fin c) S' kw' = .ok (.emf sr' T')) (hu : sr'.used = sr.used)
    (A E A' E' : ℝ) (hx : sr.opt_result.x = (fin A, fin E)) (hx' : sr'.opt_result.x = (fin A', fin E')) :
    ((mask sr.used pts).map fun p => pointMisfit x K c n g M A' (E' - d) p ^ 2).sum
      = ((mask sr.used pts).map fun p => pointMisfit x K c n g M A E p ^ 2).sum ∧
    ∀ a e : ℝ, ((mask sr.used pts).map fun p => pointMisfit x K c n g M A' (E' - d) p ^ 2).sum
      ≤ ((mask sr.used pts).map fun p => pointMisfit x K c n g M a e p ^ 2).sum := by
  have hm : ∀ (a e : ℝ) (p : ℝ × ℝ × ℝ), pointMisfit x K c n g M a e (p.1, p.2.1 + d, p.2.2)
      = pointMisfit x K c n g M a (e - d) p := by
    intro a e p
    simp only [pointMisfit, readAcidity]
    rw [show p.2.1 + d - e = p.2.1 - (e - d) by ring]
  have key : ∀ a e : ℝ,
      ((mask sr.used pts).map fun p => pointMisfit x K c n g M A' (E' - d) p ^ 2).sum
      ≤ ((mask sr.used pts).map fun p => pointMisfit x K c n g M a e p ^ 2).sum := by
    intro a e
    have := C112_best w' f' S' kw' x K c n g M _ h' hmin' sr' T' hr' A' E' hx' a (e + d)
    rw [hu, mask_map, List.map_map, List.map_map] at this
    simp only [Function.comp_def, hm, add_sub_cancel_right] at this
    exact this
  exact ⟨le_antisymm (key A E) (C112_best w f S kw x K c n g M pts h hmin sr T hr A E hx _ _), key⟩

/-! ### A case -/

theorem lsExact_translates : LsTranslates lsExact := by
  intro d f f' hf a e
  unfold lsExact
  rw [hf a e]
  split <;> rfl

theorem lsStay_translates : LsTranslates lsStay := by
  intro d f f' hf a e
  simp only [lsStay, hf a e]
  cases f (a, e) <;> rfl

/-- C114 for the titration of C83 and an offset of 12.5 mV, away from the truth -/
example : ∃ sr sr', solve_emf lsStay (fin 1) ([1, 2, 3].map fin) (fitEmf.map fin)
      (List.replicate 3 (fin 25)) (fin 1) [] [] (fitO 400000) true = .ok sr ∧
    solve_emf lsStay (fin 1) ([1, 2, 3].map fin) ((fitEmf.map fin).map fun e => e + fin 12.5)
      (List.replicate 3 (fin 25)) (fin 1) [] []
      { alkalinity_init := some (fin 400000), emf0_init := some (fin 400 + fin 12.5),
        pH_min := fin 0, pH_max := fin 1 } true = .ok sr' ∧
    sr.emf0 = fin 400 ∧ sr'.emf0 = fin 412.5 ∧ sr'.alkalinity = sr.alkalinity := by
  obtain ⟨sr1, h1, hx, -⟩ := fit_solves 400000
  obtain ⟨hm, hT, hv⟩ := fit_hyps
  obtain ⟨f, -, -, ha, he⟩ := C83_fit lsStay 1 1 1 _ _ _ _ _ _ sr1 rfl hm hT hv h1
  rw [hx] at ha he
  have h2 : solve_emf lsStay (fin 1) ([1, 2, 3].map fin) (fitEmf.map fin)
      (List.replicate 3 (fin 25)) (fin 1) [] [] (fitO 400000) true = .ok sr1 := by
    have : List.replicate 3 (fin 25) = [25, 25, 25].map fin := rfl
    rw [this, (C25_double _ _ _ _ _ _ _ _ _).1 sr1 h1, ha, he, ← h1]
    simp only [fitO, mul_fin]
    norm_num
  obtain ⟨sr', h', hA, hE, -⟩ := (C114_offset lsStay lsStay_translates _ _ _ _ 25 12.5 (by norm_num) 3
    _ _ _ true).1 sr1 h2
  refine ⟨sr1, sr', h2, h', he, ?_, hA⟩
  rw [hE, he, add_fin]
  norm_num

/-- the exact data of C112, measured with an electrode that reads 12.5 mV more -/
theorem q_offset : qPts 412.5 = (qPts 400).map fun p => (p.1, p.2.1 + 12.5, p.2.2) := by
  have : ∀ h : ℝ, nernst 412.5 25 h = nernst 400 25 h + 12.5 := by
    intro h; unfold nernst; ring
  simp only [qPts, this, List.map_cons, List.map_nil]

/-- C114 for the two files -/
example : ∃ sr sr' : SolveEmf, ∃ T T', files_solve (qWorld 400) "a.dat" (fin qAcid) (fin 35) (qArgs 400)
      = .ok (.emf sr T) ∧
    files_solve (qWorld 412.5) "a.dat" (fin qAcid) (fin 35) (qArgs 412.5) = .ok (.emf sr' T') ∧
    sr'.opt_result.x = (fin qTrue, fin 412.5) ∧
    ∀ a e : ℝ, ((mask sr.used (qPts 400)).map fun p =>
        pointMisfit pContents qConstants qAcid 1 0 0.1 qTrue (412.5 - 12.5) p ^ 2).sum
      ≤ ((mask sr.used (qPts 400)).map fun p =>
        pointMisfit pContents qConstants qAcid 1 0 0.1 a e p ^ 2).sum := by
  obtain ⟨sr, h, hx, hu⟩ := q_solve 400
  obtain ⟨sr', h', hx', hu'⟩ := q_solve 412.5
  have hr := q_run 412.5
  rw [q_offset] at hr
  exact ⟨sr, sr', _, _, h, h', hx', (C114_best _ _ _ _ _ _ _ _ _ _ _ _ _ _ _ _ (q_run 400) hr
    lsExact_contracts.2 lsExact_contracts.2 sr sr' _ _ h h' (hu'.trans hu.symm) _ _ _ _ hx hx').2⟩

end Calk
