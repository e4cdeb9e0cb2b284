import Verif.Props.FileEmf
import Verif.Props.SettingScope

/-!
# Property C117: `ph_adjust` mode is EMF mode on the EMFs of the pH values
(`calkulate/files.py: solve`, `calibrate` in ph_adjust mode)
-/

namespace Calk
open Flt Spec

/-- the world in which the files hold other measurements and are otherwise the same -/
def World.showing (w : World) (m : List Flt) : World :=
  { w with readDat := fun f k => (w.readDat f k).map fun d => { d with measurement := m } }

/-- the arguments, but for EMF mode starting from EMF0 zero -/
def asEmf (kw : Dict Val) : Dict Val :=
  (kw.set "solve_mode" (.str "emf")).set "emf0_init" (.num (fin 0))

theorem load_showing {w : World} {f : String} {S : Flt} {kw : Dict Val} {cv : Converted}
    {totals ks : Dict NpVal} (hl : load w f S kw = .ok (cv, totals, ks)) (m : List Flt) :
    load (w.showing m) f S (asEmf kw) = .ok ({ cv with measurement := m }, totals, ks) := by
  have e : load (w.showing m) f S (asEmf kw) = load (w.showing m) f S kw := by
    unfold asEmf
    rw [load_set _ (by decide) (by decide) (by decide) (by decide),
      load_set _ (by decide) (by decide) (by decide) (by decide)]
  rw [e]
  obtain ⟨fname, dd, h1, h2, h3, h4⟩ := load_parts hl
  have h2' : (w.showing m).readDat fname (get_kwargs_for keys_read_dat kw none)
      = .ok { dd with measurement := m } := by
    show (w.readDat _ _).map _ = _
    rw [h2]; rfl
  have h3' : amount_units { dd with measurement := m } S (get_kwargs_for keys_cau kw none)
      = .ok { cv with measurement := m } := by
    simp only [amount_units, bind_ok_iff, pure_ok, Except.ok.injEq] at h3 ⊢
    obtain ⟨t, ht, tm, htm, a, ha, rfl⟩ := h3
    exact ⟨t, ht, tm, htm, a, ha, rfl⟩
  have h4' : totals_ks (w.showing m) { cv with measurement := m }
      (get_kwargs_for keys_totals_ks kw none) = .ok (totals, ks) := h4
  unfold load
  simp only [h1, h2', h3', h4', bind_ok, pure_ok]

theorem asEmf_mode (kw : Dict Val) : solve_mode (asEmf kw) = .ok "emf" := by
  unfold asEmf
  rw [solve_mode_set _ (by decide)]
  unfold solve_mode argVal
  rw [Dict.get?_set, if_pos rfl]
  exact congrArg Except.ok (by decide : lowerS "emf" = "emf")

theorem asEmf_kwargs (kw : Dict Val) {keys : List String} (h : keys.contains "emf0_init" = true)
    (h' : keys.contains "solve_mode" = false) :
    get_kwargs_for keys (asEmf kw) none
      = (get_kwargs_for keys kw none).set "emf0_init" (.num (fin 0)) := by
  unfold asEmf
  rw [kwargs_set_on h, kwargs_set_off h']

theorem pH_to_emf_nernst (p t : ℝ) :
    pH_to_emf (fin p) (fin 0) (fin t) = fin (nernst 0 t ((10 : ℝ) ^ (-p))) := by
  rw [pH_to_emf_fin, fin_inj, nernst, Real.log_rpow (by norm_num)]
  simp only [nslope, ideal_gas, absolute_zero, faraday]
  ring

theorem pH_to_emf_arr_nernst (mt : List (ℝ × ℝ)) :
    pH_to_emf_arr (mt.map fun p => fin p.1) (mt.map fun p => fin p.2)
      = .ok (mt.map fun p => fin (nernst 0 p.2 ((10 : ℝ) ^ (-p.1)))) := by
  simp only [pH_to_emf_arr, sameShape2, List.length_map, bind_ok, pure_ok, zipWith_map_same,
    pH_to_emf_nernst, if_true]

/-- **C117**: solving and calibrating with a file of pH values in `ph_adjust` mode is exactly what EMF
mode does, starting from EMF0 zero, with the file of the potentials that an electrode of EMF0 zero has
at these pH values and temperatures; failures included. -/
theorem C117_as_emf (w : World) (f : String) (S : Flt) (kw : Dict Val) (cv : Converted)
    (totals ks : Dict NpVal) (mt : List (ℝ × ℝ)) (hl : load w f S kw = .ok (cv, totals, ks))
    (hm : solve_mode kw = .ok "ph_adjust") (h1 : cv.measurement = mt.map fun p => fin p.1)
    (h2 : cv.temperature = mt.map fun p => fin p.2) :
    (∀ c, files_solve w f c S kw
      = files_solve (w.showing (mt.map fun p => fin (nernst 0 p.2 ((10 : ℝ) ^ (-p.1))))) f c S (asEmf kw)) ∧
    ∀ cert, files_calibrate w f cert S kw
      = files_calibrate (w.showing (mt.map fun p => fin (nernst 0 p.2 ((10 : ℝ) ^ (-p.1))))) f cert S
          (asEmf kw) := by
  have hl' := load_showing hl (mt.map fun p => fin (nernst 0 p.2 ((10 : ℝ) ^ (-p.1))))
  have ht : titrant_totals (asEmf kw) = titrant_totals kw := by
    unfold asEmf
    rw [titrant_totals_set _ _ (by decide), titrant_totals_set _ _ (by decide)]
  have harr := pH_to_emf_arr_nernst mt
  constructor
  · intro c
    unfold files_solve
    rw [hl, hl']
    simp only [bind_ok, ht, hm, asEmf_mode]
    congr 1
    funext tts
    congr 1
    funext _
    unfold solve_dispatch
    rw [if_neg (by decide), if_pos rfl, if_pos rfl, asEmf_kwargs kw (by decide) (by decide), h1, h2, harr]
    simp only [bind_ok]
    rfl
  · intro cert
    unfold files_calibrate
    rw [hl, hl']
    simp only [bind_ok, hm, asEmf_mode]
    unfold calibrate_dispatch
    rw [if_neg (by decide), if_pos rfl, if_pos rfl, asEmf_kwargs kw (by decide) (by decide), h1, h2, harr]
    rfl

/-- the arguments and the data of a solve in `ph_adjust` mode with everything given: contents `x`,
constants `K`, acid `c` mol/kg with `n` protons and `g` sulfates per mole; `pts` are titrant masses
(converted to kg), pH values and temperatures of the file, `M` is the mass of the sample -/
structure AdjustRun (w : World) (f : String) (S : Flt) (kw : Dict Val) (x K : String → ℝ)
    (c n g M : ℝ) (pts : List (ℝ × ℝ × ℝ)) : Prop where
  loads : ∃ cv totals ks, load w f S kw = .ok (cv, totals, ks) ∧
    cv.titrant_mass = pts.map (fun p => fin p.1) ∧ cv.analyte_mass = fin M ∧
    cv.measurement = pts.map (fun p => fin p.2.1) ∧ cv.temperature = pts.map (fun p => fin p.2.2)
  keepsTotals : KeepsTotals w
  keepsKs : KeepsKs w
  sound : LsSound w.ls
  nodup : kw.keys.Nodup
  mode : ∃ s, kw.get? "solve_mode" = some (.str s) ∧ lowerS s = "ph_adjust"
  sample : GivenSample kw x K
  sulfate : NumOr kw "titrant_total_sulfate" 0 g
  no_phosphate : kw.get? "titrant_total_phosphate" = none
  no_fluoride : kw.get? "titrant_total_fluoride" = none
  normality : NumOr kw "titrant_normality" 1 n
  mass : 0 < M
  masses : ∀ p ∈ pts, 0 ≤ p.1
  temps : ∀ p ∈ pts, -273.15 < p.2.2
  acid : 0 ≤ c * g

/-- a pH value as the potential of an electrode of EMF0 zero -/
noncomputable def Spec.zeroEmf (p : ℝ × ℝ × ℝ) : ℝ × ℝ × ℝ :=
  (p.1, nernst 0 p.2.2 ((10 : ℝ) ^ (-p.2.1)), p.2.2)

theorem asEmf_get? (kw : Dict Val) {k : String} (h1 : k ≠ "solve_mode") (h2 : k ≠ "emf0_init") :
    (asEmf kw).get? k = kw.get? k := by
  unfold asEmf
  rw [Dict.get?_set_ne _ _ _ _ h2, Dict.get?_set_ne _ _ _ _ h1]

theorem AdjustRun.mode_ok {w : World} {f : String} {S : Flt} {kw : Dict Val} {x K : String → ℝ}
    {c n g M : ℝ} {pts : List (ℝ × ℝ × ℝ)} (h : AdjustRun w f S kw x K c n g M pts) :
    solve_mode kw = .ok "ph_adjust" := by
  obtain ⟨s, hs, hs'⟩ := h.mode
  unfold solve_mode argVal
  rw [hs, ← hs']; rfl

theorem AdjustRun.emf {w : World} {f : String} {S : Flt} {kw : Dict Val} {x K : String → ℝ}
    {c n g M : ℝ} {pts : List (ℝ × ℝ × ℝ)} (h : AdjustRun w f S kw x K c n g M pts) :
    EmfRun (w.showing (pts.map fun p => fin (zeroEmf p).2.1)) f S (asEmf kw) x K c n g M
      (pts.map zeroEmf) := by
  have hnum : ∀ {k : String} {d r : ℝ}, k ≠ "solve_mode" → k ≠ "emf0_init" → NumOr kw k d r →
      NumOr (asEmf kw) k d r := by
    intro k d r h1 h2 hk
    unfold NumOr
    rw [asEmf_get? kw h1 h2]
    exact hk
  obtain ⟨cv, totals, ks, hl, h1, h2, h3, h4⟩ := h.loads
  refine ⟨⟨_, totals, ks, load_showing hl _, ?_, h2, ?_, ?_⟩, h.keepsTotals, h.keepsKs, h.sound, ?_, ?_,
    ⟨?_, ?_, ?_⟩, hnum (by decide) (by decide) h.sulfate, ?_, ?_, hnum (by decide) (by decide) h.normality,
    h.mass, ?_, ?_, h.acid⟩
  · simp only [h1, List.map_map]; rfl
  · simp only [List.map_map]; rfl
  · simp only [h4, List.map_map]; rfl
  · exact Dict.set_keys_nodup (Dict.set_keys_nodup h.nodup _ _) _ _
  · refine .inr ⟨"emf", ?_, by decide⟩
    unfold asEmf
    rw [Dict.get?_set_ne _ _ _ _ (by decide), Dict.get?_set, if_pos rfl]
  · intro k hk
    rw [asEmf_get? kw
      ((by decide : ∀ k ∈ "dic" :: (optionalContents ++ saltContents), k ≠ "solve_mode") k hk)
      ((by decide : ∀ k ∈ "dic" :: (optionalContents ++ saltContents), k ≠ "emf0_init") k hk)]
    exact h.sample.contents k hk
  · intro k hk
    rw [asEmf_get? kw ((by decide : ∀ k ∈ allConstants, k ≠ "solve_mode") k hk)
      ((by decide : ∀ k ∈ allConstants, k ≠ "emf0_init") k hk)]
    exact h.sample.constants k hk
  · rw [onTotalScale_congr (asEmf_get? kw (by decide) (by decide))]
    exact h.sample.scale
  · rw [asEmf_get? kw (by decide) (by decide)]; exact h.no_phosphate
  · rw [asEmf_get? kw (by decide) (by decide)]; exact h.no_fluoride
  · intro p hp
    obtain ⟨q, hq, rfl⟩ := List.mem_map.mp hp
    exact h.masses q hq
  · intro p hp
    obtain ⟨q, hq, rfl⟩ := List.mem_map.mp hp
    exact h.temps q hq

theorem AdjustRun.same {w : World} {f : String} {S : Flt} {kw : Dict Val} {x K : String → ℝ}
    {c n g M : ℝ} {pts : List (ℝ × ℝ × ℝ)} (h : AdjustRun w f S kw x K c n g M pts) (c' : Flt) :
    files_solve w f c' S kw
      = files_solve (w.showing (pts.map fun p => fin (zeroEmf p).2.1)) f c' S (asEmf kw) := by
  obtain ⟨cv, totals, ks, hl, h1, h2, h3, h4⟩ := h.loads
  have := (C117_as_emf w f S kw cv totals ks (pts.map fun p => p.2) hl h.mode_ok
    (by rw [h3, List.map_map]; rfl) (by rw [h4, List.map_map]; rfl)).1 c'
  rw [this, List.map_map]
  rfl

/-- the acidity that the electrode reads, for an EMF0 `E` -/
theorem read_zeroEmf (E : ℝ) (p : ℝ × ℝ × ℝ) (hT : -273.15 < p.2.2) :
    readAcidity E (zeroEmf p) = (10 : ℝ) ^ (-p.2.1)
      * Real.exp (-(E / (8.3144621 * (p.2.2 + 273.15) / 96.4853365))) := by
  have : 0 < p.2.2 + 273.15 := by linarith
  have h10 : (0 : ℝ) < (10 : ℝ) ^ (-p.2.1) := by positivity
  have e : (nernst 0 p.2.2 ((10 : ℝ) ^ (-p.2.1)) - E) / (8.3144621 * (p.2.2 + 273.15) / 96.4853365)
      = Real.log ((10 : ℝ) ^ (-p.2.1)) + -(E / (8.3144621 * (p.2.2 + 273.15) / 96.4853365)) := by
    unfold nernst; field_simp; ring
  unfold readAcidity zeroEmf
  simp only [e, Real.exp_add, Real.exp_log h10]

/-- acidity at a point whose pH is reported by an electrode whose EMF0 is `E` (mV) off -/
noncomputable def Spec.correctedAcidity (E : ℝ) (p : ℝ × ℝ × ℝ) : ℝ :=
  (10 : ℝ) ^ (-p.2.1) * Real.exp (-(E / (8.3144621 * (p.2.2 + 273.15) / 96.4853365)))

/-- misfit at a point -/
noncomputable def Spec.adjustMisfit (x K : String → ℝ) (c n g M A E : ℝ) (p : ℝ × ℝ × ℝ) : ℝ :=
  (mixture x K p.1 M c g).alk 3 (correctedAcidity E p) - (A * M - p.1 * c * n) / (p.1 + M)

theorem adjustMisfit_eq {x K : String → ℝ} {c n g M A E : ℝ} {p : ℝ × ℝ × ℝ} (hT : -273.15 < p.2.2) :
    pointMisfit x K c n g M A E (zeroEmf p) = adjustMisfit x K c n g M A E p := by
  unfold pointMisfit adjustMisfit
  rw [read_zeroEmf E p hT]
  rfl

/-- **C117**: a solve in `ph_adjust` mode reports an alkalinity `A` and an electrode error `E` such that
no other pair fits the points used better (sum of squares of alkalinity of the mixture at the
corrected acidity less what is left of `A`), for a sound optimiser that finds minima. -/
theorem C117_best (w : World) (f : String) (S : Flt) (kw : Dict Val) (x K : String → ℝ)
    (c n g M : ℝ) (pts : List (ℝ × ℝ × ℝ)) (h : AdjustRun w f S kw x K c n g M pts)
    (hmin : LsGlobalMin w.ls) (r : SolveRes) (hr : files_solve w f (fin c) S kw = .ok r) :
    ∃ sr, r = .emf sr (pts.map fun p => fin p.2.2) ∧
      ∀ A E : ℝ, sr.opt_result.x = (fin A, fin E) → true ∈ sr.used →
        sr.alkalinity = fin (1e6 * A) ∧ sr.emf0 = fin E ∧
        sr.alkalinity_all = pts.map (fun p => fin (1e6 * ((mixture x K p.1 M c g).alk 3
          (correctedAcidity E p) * (p.1 + M) + p.1 * c * n) / M)) ∧
        ∀ A' E' : ℝ, ((mask sr.used pts).map fun p => adjustMisfit x K c n g M A E p ^ 2).sum
          ≤ ((mask sr.used pts).map fun p => adjustMisfit x K c n g M A' E' p ^ 2).sum := by
  rw [h.same] at hr
  obtain ⟨sr, rfl, hest⟩ := C112_estimates _ _ _ _ _ _ _ _ _ _ _ h.emf r hr
  have hmis : ∀ A E : ℝ, (mask sr.used (pts.map zeroEmf)).map
      (fun p => pointMisfit x K c n g M A E p ^ 2)
        = (mask sr.used pts).map fun p => adjustMisfit x K c n g M A E p ^ 2 := by
    intro A E
    rw [mask_map, List.map_map]
    apply List.map_congr_left
    intro p hp
    have hp' : p ∈ pts := mask_subset _ _ hp
    simp only [Function.comp_apply, adjustMisfit_eq (h.temps p hp')]
  refine ⟨sr, by rw [List.map_map]; rfl, ?_⟩
  intro A E hx hu
  obtain ⟨h1, h2, h3, -⟩ := hest A E hx hu
  refine ⟨h1, h2, ?_, ?_⟩
  · rw [h3, List.map_map]
    apply List.map_congr_left
    intro p hp
    simp only [Function.comp_apply, pointEstimate, read_zeroEmf E p (h.temps p hp)]
    rfl
  · intro A' E'
    have := C112_best _ _ _ _ _ _ _ _ _ _ _ h.emf hmin sr _ hr A E hx A' E'
    rwa [hmis, hmis] at this

/-- **C117**: with exact data but for an electrode whose EMF0 is `E` off (every point of the mixture of
acid with a sample of alkalinity `A` at the corrected acidity), alkalinity and error of the electrode
are found, if two of the points used are at the same temperature, the second with clearly more acid,
and the first is fitted as acid. -/
theorem C117_exact (w : World) (f : String) (S : Flt) (kw : Dict Val) (x K : String → ℝ)
    (c n g M : ℝ) (pts : List (ℝ × ℝ × ℝ)) (h : AdjustRun w f S kw x K c n g M pts)
    (hmin : LsGlobalMin w.ls) (sr : SolveEmf) (T : List Flt)
    (hr : files_solve w f (fin c) S kw = .ok (.emf sr T)) (A E A' E' : ℝ)
    (hx : sr.opt_result.x = (fin A', fin E'))
    (hdata : ∀ p ∈ pts, (mixture x K p.1 M c g).alk 3 (correctedAcidity E p) * (p.1 + M)
      = A * M - p.1 * c * n)
    (i j : ℕ) (p q : ℝ × ℝ × ℝ) (hi : pts[i]? = some p) (hj : pts[j]? = some q)
    (hui : sr.used[i]? = some true) (huj : sr.used[j]? = some true) (hTT : p.2.2 = q.2.2)
    (lo : ℝ) (hlo : 0 < lo) (hl : lo ≤ correctedAcidity E p) (hl' : lo ≤ correctedAcidity E' p)
    (hmore : (1 + (mixture x K p.1 M c g).buffering lo) * ((p.1 + M) * correctedAcidity E p)
      < (q.1 + M) * correctedAcidity E q) :
    sr.alkalinity = fin (1e6 * A) ∧ sr.emf0 = fin E := by
  rw [h.same] at hr
  have hp : p ∈ pts := List.mem_of_getElem? hi
  have hq : q ∈ pts := List.mem_of_getElem? hj
  have hc : ∀ (e : ℝ) (p : ℝ × ℝ × ℝ), p ∈ pts → readAcidity e (zeroEmf p) = correctedAcidity e p :=
    fun e p hp => read_zeroEmf e p (h.temps p hp)
  refine C112_exact _ _ _ _ _ _ _ _ _ _ _ h.emf hmin sr T hr A E A' E' hx (readAcidity E) ?_ i j
    (zeroEmf p) (zeroEmf q) (by rw [List.getElem?_map, hi]; rfl) (by rw [List.getElem?_map, hj]; rfl)
    hui huj hTT lo hlo (by rw [hc _ _ hp]; exact hl) (by rw [hc _ _ hp]; exact hl') ?_
  · intro p' hp'
    obtain ⟨p, hp, rfl⟩ := List.mem_map.mp hp'
    refine ⟨by unfold readAcidity; positivity, ?_, ?_⟩
    · have : 0 < p.2.2 + 273.15 := by linarith [h.temps p hp]
      unfold readAcidity nernst
      simp only [Real.log_exp, zeroEmf]
      field_simp
      ring
    · rw [hc _ _ hp]; exact hdata p hp
  · rw [hc _ _ hp, hc _ _ hq]; exact hmore

/-! ### A case: the two points of `qPts`, reported as pH by an electrode 10 mV off -/

/-- an optimiser that goes to `x` if all residuals are zero there, and raises otherwise -/
noncomputable def lsAt (x : Flt × Flt) : LsFun (Flt × Flt) := fun f _ => lsExact f x

theorem lsAt_contracts (x : Flt × Flt) : LsSound (lsAt x) ∧ LsGlobalMin (lsAt x) :=
  ⟨fun f _ r h => lsExact_contracts.1 f x r h, fun f _ r h => lsExact_contracts.2 f x r h⟩

/-- the pH values -/
noncomputable def adjPts : List (ℝ × ℝ × ℝ) :=
  [(0.001, -Real.logb 10 (2e-4 * Real.exp (-10 / (8.3144621 * (25 + 273.15) / 96.4853365))), 25),
   (0.002, -Real.logb 10 (9e-4 * Real.exp (-10 / (8.3144621 * (25 + 273.15) / 96.4853365))), 25)]

theorem adj_zero : adjPts.map zeroEmf = qPts (-10) := by
  have e : ∀ h : ℝ, 0 < h → nernst 0 25 ((10 : ℝ) ^ (-(-Real.logb 10
      (h * Real.exp (-10 / (8.3144621 * (25 + 273.15) / 96.4853365)))))) = nernst (-10) 25 h := by
    intro h hh
    rw [neg_neg, Real.rpow_logb (by norm_num) (by norm_num) (by positivity), nernst, nernst,
      Real.log_mul hh.ne' (Real.exp_pos _).ne', Real.log_exp]
    field_simp
    ring
  simp only [adjPts, qPts, zeroEmf, List.map_cons, List.map_nil, e 2e-4 (by norm_num),
    e 9e-4 (by norm_num)]

noncomputable def adjData : DatData where
  titrant_amount := adjPts.map fun p => fin p.1
  measurement := adjPts.map fun p => fin p.2.1
  temperature := adjPts.map fun p => fin p.2.2

noncomputable def adjWorld : World :=
  { keepWorld with readDat := fun _ _ => .ok adjData, ls := lsAt (fin qTrue, fin (-10)) }

noncomputable def adjArgs : Dict Val := ("solve_mode", .str "pH_adjust") :: qArgs 0

theorem adj_load : ∃ totals ks, load adjWorld "a.dat" (fin 35) adjArgs
    = .ok ({ qCv 0 with measurement := adjPts.map fun p => fin p.2.1 }, totals, ks) := by
  obtain ⟨totals, ks, h⟩ := q_load 0
  refine ⟨totals, ks, ?_⟩
  obtain ⟨fname, dd, h1, h2, h3, h4⟩ := load_parts h
  have hd : adjData = { qData 0 with measurement := adjPts.map fun p => fin p.2.1 } := rfl
  obtain rfl : qData 0 = dd := Except.ok.inj h2
  have h3' : amount_units adjData (fin 35) (get_kwargs_for keys_cau adjArgs none)
      = .ok { qCv 0 with measurement := adjPts.map fun p => fin p.2.1 } := by
    rw [hd, show get_kwargs_for keys_cau adjArgs none = get_kwargs_for keys_cau (qArgs 0) none from rfl]
    simp only [amount_units, bind_ok_iff, pure_ok, Except.ok.injEq] at h3 ⊢
    obtain ⟨t, ht, tm, htm, a, ha, e⟩ := h3
    refine ⟨t, ht, tm, htm, a, ha, ?_⟩
    rw [← e]
  unfold load
  rw [show full_name "a.dat" adjArgs = .ok "a.dat" from rfl, bind_ok,
    show adjWorld.readDat "a.dat" (get_kwargs_for keys_read_dat adjArgs none) = .ok adjData from rfl,
    bind_ok, h3', bind_ok,
    show totals_ks adjWorld { qCv 0 with measurement := adjPts.map fun p => fin p.2.1 }
      (get_kwargs_for keys_totals_ks adjArgs none) = .ok (totals, ks) from h4]
  rfl

theorem adj_run : AdjustRun adjWorld "a.dat" (fin 35) adjArgs pContents qConstants qAcid 1 0 0.1 adjPts := by
  have h := q_run 0
  refine ⟨?_, keepWorld_totals, keepWorld_ks, (lsAt_contracts _).1, ?_, ⟨"pH_adjust", rfl, by decide⟩,
    ⟨?_, ?_, ?_⟩, .inr ⟨rfl, rfl⟩, rfl, rfl, .inr ⟨rfl, rfl⟩, by norm_num, ?_, ?_, by norm_num⟩
  · obtain ⟨totals, ks, h⟩ := adj_load
    exact ⟨_, _, _, h, rfl, rfl, rfl, rfl⟩
  · have : Dict.keys adjArgs = "solve_mode" :: ([ "analyte_mass", "titrant_amount_unit", "emf0_init",
      "alkalinity_init" ] ++ ("dic" :: (optionalContents ++ saltContents)) ++ allConstants) := rfl
    rw [this]
    decide
  · intro k hk
    rw [show adjArgs.get? k = if k = "solve_mode" then some (.str "pH_adjust") else (qArgs 0).get? k by
      unfold adjArgs; rw [Dict.get?_cons]; simp only [eq_comm],
      if_neg ((by decide : ∀ k ∈ "dic" :: (optionalContents ++ saltContents), k ≠ "solve_mode") k hk)]
    exact h.sample.contents k hk
  · intro k hk
    rw [show adjArgs.get? k = if k = "solve_mode" then some (.str "pH_adjust") else (qArgs 0).get? k by
      unfold adjArgs; rw [Dict.get?_cons]; simp only [eq_comm],
      if_neg ((by decide : ∀ k ∈ allConstants, k ≠ "solve_mode") k hk)]
    exact h.sample.constants k hk
  · exact h.sample.scale
  · intro p hp
    simp only [adjPts, List.mem_cons, List.not_mem_nil, or_false] at hp
    rcases hp with rfl | rfl <;> norm_num
  · intro p hp
    simp only [adjPts, List.mem_cons, List.not_mem_nil, or_false] at hp
    rcases hp with rfl | rfl <;> norm_num

/-- the acidity that is read at first is in the window too -/
theorem adj_used : pH_used (emf_to_pH_arr (((qPts (-10)).map (·.2.1)).map fin) (fin 0)
    (((qPts (-10)).map (·.2.2)).map fin)) (fin 3) (fin 4) = [true, true] := by
  rw [emf_to_pH_arr_fin (by
      intro t ht; obtain ⟨p, hp, rfl⟩ := List.mem_map.mp ht; exact (q_run (-10)).temps p hp)]
  set k : ℝ := Real.exp (-10 / (8.3144621 * (25 + 273.15) / 96.4853365)) with hk
  have hk0 : 0 < k := Real.exp_pos _
  have hk1 : k ≤ 1 := by
    rw [hk, ← Real.exp_zero]
    exact Real.exp_le_exp.mpr (by norm_num)
  have hk2 : 0.6 ≤ k := by
    have := Real.add_one_le_exp (-10 / (8.3144621 * (25 + 273.15) / 96.4853365))
    rw [← hk] at this
    norm_num at this ⊢
    linarith
  have hn : ∀ h : ℝ, 0 < h → nernst (-10) 25 h = nernst 0 25 (h * k) := by
    intro h hh
    rw [nernst, nernst, Real.log_mul hh.ne' hk0.ne', hk, Real.log_exp]
    field_simp
    ring
  simp only [pHRs, qPts, List.map_cons, List.map_nil, List.zipWith_cons_cons, List.zipWith_nil_left,
    hn 2e-4 (by norm_num), hn 9e-4 (by norm_num)]
  rw [pHR_nernst (by norm_num) (by positivity), pHR_nernst (by norm_num) (by positivity)]
  have := pH_used_fin (pH := [-Real.logb 10 (2e-4 * k), -Real.logb 10 (9e-4 * k)]) (lo := 3) (hi := 4)
  simp only [List.map_cons, List.map_nil] at this
  rw [this]
  have key : ∀ h : ℝ, 1e-4 ≤ h → h ≤ 1e-3 → inWin 3 4 (-Real.logb 10 h) = true := by
    intro h h1 h2
    have a1 : Real.logb 10 h ≤ -3 := by
      rw [Real.logb_le_iff_le_rpow (by norm_num) (by linarith), Real.rpow_neg (by norm_num)]
      norm_num; linarith
    have a2 : -4 ≤ Real.logb 10 h := by
      rw [Real.le_logb_iff_rpow_le (by norm_num) (by linarith), Real.rpow_neg (by norm_num)]
      norm_num; linarith
    simp only [inWin, Bool.and_eq_true, decide_eq_true_eq]
    constructor <;> linarith
  rw [key _ (by linarith) (by linarith), key _ (by linarith) (by linarith)]

/-- the run on it: solved twice, as is the default -/
theorem adj_solve : ∃ sr, files_solve adjWorld "a.dat" (fin qAcid) (fin 35) adjArgs
      = .ok (.emf sr (adjPts.map fun p => fin p.2.2)) ∧
    sr.opt_result.x = (fin qTrue, fin (-10)) ∧ sr.used = [true, true] := by
  have hrun := adj_run.emf
  rw [adj_run.same, show adjPts.map (fun p => fin p.2.2) = (qPts (-10)).map fun p => fin p.2.2 from rfl]
  rw [adj_zero] at hrun
  set w' := adjWorld.showing (adjPts.map fun p => fin (zeroEmf p).2.1)
  have hw' : w'.ls = lsAt (fin qTrue, fin (-10)) := rfl
  obtain ⟨totals, ks, hs, hv, hk, hf, hf', hsol⟩ := hrun.reduces
  obtain ⟨gg, hg⟩ := (q_gran (-10)) qAcid
  have hopts : emf_opts (asEmf adjArgs) = .ok (qOpts 0, true) := by with_unfolding_all rfl
  have hmis : (mask [true, true] (qPts (-10))).map
      (pointMisfit pContents qConstants qAcid 1 0 0.1 qTrue (-10)) = List.replicate 2 0 := by
    have hz : ∀ p ∈ (qPts (-10)), pointMisfit pContents qConstants qAcid 1 0 0.1 qTrue (-10) p = 0 := by
      intro p hp
      have h3 := ((q_exact (-10)) p hp).2.2
      have hp0 : p.1 + 0.1 ≠ 0 := by have := (q_run (-10)).masses p hp; positivity
      rw [pointMisfit, ← h3, mul_div_assoc, div_self hp0, mul_one, sub_self]
    have : mask [true, true] (qPts (-10)) = (qPts (-10)) := rfl
    rw [this]
    exact List.eq_replicate_iff.mpr ⟨by simp [qPts], fun b hb => by
      obtain ⟨p, hp, rfl⟩ := List.mem_map.mp hb
      exact hz p hp⟩
  have hprob := hrun.problem (by rw [List.length_map]; exact hv) hk hsol [true, true] qTrue (-10)
  rw [hmis] at hprob
  have hex : ∃ k, emfProblem (fin qAcid) (fin 1) (fin 0.1) (((qPts (-10)).map (·.1)).map fin)
      (((qPts (-10)).map (·.2.1)).map fin) (((qPts (-10)).map (·.2.2)).map fin) totals ks [true, true]
      (fin qTrue, fin (-10)) = .ok ((List.replicate k (0:ℝ)).map fin) := ⟨2, hprob⟩
  have hls : ∀ x0, ∃ opt, w'.ls (emfProblem (fin qAcid) (fin 1) (fin 0.1)
      (((qPts (-10)).map (·.1)).map fin) (((qPts (-10)).map (·.2.1)).map fin)
      (((qPts (-10)).map (·.2.2)).map fin) totals ks [true, true]) x0 = .ok opt ∧
        opt.x = (fin qTrue, fin (-10)) := by
    intro x0
    rw [hw']
    exact ⟨_, dif_pos hex, rfl⟩
  have hone : ∀ o : EmfOpts, o.pH_min = fin 3 → o.pH_max = fin 4 → o.titrant_normality = fin 1 →
      o.gran_logic = "v23.7+" →
      (emfStart o gg (((qPts (-10)).map (·.2.1)).map fin) (((qPts (-10)).map (·.2.2)).map fin)).used
        = [true, true] →
      ∃ sr, solve_emf w'.ls (fin qAcid) (((qPts (-10)).map (·.1)).map fin)
        (((qPts (-10)).map (·.2.1)).map fin) (((qPts (-10)).map (·.2.2)).map fin) (fin 0.1) totals ks o false
          = .ok sr ∧ sr.opt_result.x = (fin qTrue, fin (-10)) ∧ sr.used = [true, true] ∧
        sr.alkalinity = fin (1e6 * qTrue) ∧ sr.emf0 = fin (-10) := by
    intro o h1 h2 h3 h4 hu
    obtain ⟨opt, hls, hx⟩ := hls ((emfStart o gg (((qPts (-10)).map (·.2.1)).map fin)
      (((qPts (-10)).map (·.2.2)).map fin)).alk, (emfStart o gg (((qPts (-10)).map (·.2.1)).map fin)
      (((qPts (-10)).map (·.2.2)).map fin)).emf0)
    refine ⟨_, solve_emf_false_iff.mpr ⟨gg, opt, by rw [h3, h4]; exact hg, ?_, hk, by simpa using hf,
      by simpa using hf', by rw [hu, h3]; exact hls, rfl⟩, hx, hu, ?_, ?_⟩
    · rw [h1, h2]; simp; norm_num
    · simp only [emfResult, hx, mul_fin, mul_comm]
    · simp only [emfResult, hx]
  obtain ⟨sr1, h1, -, -, h4, h5⟩ := hone (qOpts 0) rfl rfl rfl rfl (by
    simp only [emfStart, qOpts]; exact adj_used)
  obtain ⟨sr, h1', h2', h3', -, -⟩ := hone (qOpts (-10)) rfl rfl rfl rfl (by
    simp only [emfStart, qOpts, (q_used (-10)).1, (q_used (-10)).2])
  refine ⟨sr, ?_, h2', h3'⟩
  have htwo : solve_emf w'.ls (fin qAcid) (((qPts (-10)).map (·.1)).map fin)
      (((qPts (-10)).map (·.2.1)).map fin) (((qPts (-10)).map (·.2.2)).map fin) (fin 0.1) totals ks
      (qOpts 0) true = .ok sr := by
    rw [solve_emf_true_eq, h1, bind_ok, h4, h5]
    exact h1'
  rw [hs, hopts]
  simp only [bind_ok, htwo]
  rfl

/-- C117 on it: the electrode is found to be 10 mV off -/
example : ∃ sr T, files_solve adjWorld "a.dat" (fin qAcid) (fin 35) adjArgs = .ok (.emf sr T) ∧
    sr.alkalinity = fin (1e6 * qTrue) ∧ sr.emf0 = fin (-10) := by
  obtain ⟨sr, h, hx, hu⟩ := adj_solve
  have hc : ∀ m h : ℝ, 0 < h → correctedAcidity (-10) (m, -Real.logb 10 (h * Real.exp (-10 /
      (8.3144621 * (25 + 273.15) / 96.4853365))), 25) = h := by
    intro m h hh
    simp only [correctedAcidity, neg_neg]
    rw [Real.rpow_logb (by norm_num) (by norm_num) (by positivity), mul_assoc, ← Real.exp_add,
      neg_div, neg_neg, neg_add_cancel, Real.exp_zero, mul_one]
  obtain ⟨e1, e2⟩ := C117_exact _ _ _ _ _ _ _ _ _ _ _ adj_run (lsAt_contracts _).2 sr _ h qTrue (-10)
    _ _ hx (by
      intro p hp
      have hz : zeroEmf p ∈ qPts (-10) := by rw [← adj_zero]; exact List.mem_map.mpr ⟨p, hp, rfl⟩
      have := (q_exact (-10) _ hz).2.2
      rw [read_zeroEmf _ _ (adj_run.temps p hp)] at this
      exact this) 0 1 _ _ rfl rfl (by rw [hu]; rfl) (by rw [hu]; rfl) rfl 2e-4 (by norm_num)
    (by rw [hc _ _ (by norm_num)]) (by rw [hc _ _ (by norm_num)])
    (by
      rw [hc _ _ (by norm_num), hc _ _ (by norm_num)]
      norm_num [Sol.buffering, mono, mixture, mixContent, pContents, qConstants])
  exact ⟨sr, _, h, e1, e2⟩

end Calk
