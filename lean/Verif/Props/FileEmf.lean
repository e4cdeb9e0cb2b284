import Verif.Props.FileLevel
import Verif.Props.EmfFit
import Verif.Props.Unique

/-!
# Property C112: `files.solve` in EMF mode, from the arguments and the data

As C109, for EMF titrations: the quantity that is fitted, the best fit, and exact data.
-/

namespace Calk
open Flt Spec

/-- the arguments and the data of an EMF-mode solve with everything given: contents `x`, constants
`K`, acid `c` mol/kg with `n` protons and `g` sulfates per mole; the file holds points (titrant mass
in kg, EMF in mV, temperature in °C), the sample has mass `M` -/
structure EmfRun (w : World) (f : String) (S : Flt) (kw : Dict Val) (x K : String → ℝ)
    (c n g M : ℝ) (pts : List (ℝ × ℝ × ℝ)) : Prop where
  loads : ∃ cv totals ks, load w f S kw = .ok (cv, totals, ks) ∧
    cv.titrant_mass = pts.map (fun p => fin p.1) ∧ cv.analyte_mass = fin M ∧
    cv.measurement = pts.map (fun p => fin p.2.1) ∧ cv.temperature = pts.map (fun p => fin p.2.2)
  keepsTotals : KeepsTotals w
  keepsKs : KeepsKs w
  sound : LsSound w.ls
  nodup : kw.keys.Nodup
  mode : kw.get? "solve_mode" = none ∨ ∃ s, kw.get? "solve_mode" = some (.str s) ∧ lowerS s = "emf"
  sample : GivenSample kw x K
  sulfate : NumOr kw "titrant_total_sulfate" 0 g
  no_phosphate : kw.get? "titrant_total_phosphate" = none
  no_fluoride : kw.get? "titrant_total_fluoride" = none
  normality : NumOr kw "titrant_normality" 1 n
  mass : 0 < M
  masses : ∀ p ∈ pts, 0 ≤ p.1
  temps : ∀ p ∈ pts, -273.15 < p.2.2
  acid : 0 ≤ c * g

/-- the acidity that an electrode reads at a point, for the EMF0 `E` -/
noncomputable def readAcidity (E : ℝ) (p : ℝ × ℝ × ℝ) : ℝ :=
  Real.exp ((p.2.1 - E) / (8.3144621 * (p.2.2 + 273.15) / 96.4853365))

/-- the estimate of the sample's alkalinity (µmol/kg) from one point -/
noncomputable def pointEstimate (x K : String → ℝ) (c n g M E : ℝ) (p : ℝ × ℝ × ℝ) : ℝ :=
  1e6 * ((mixture x K p.1 M c g).alk 3 (readAcidity E p) * (p.1 + M) + p.1 * c * n) / M

/-- what is fitted: alkalinity of the mixture at the acidity read, less what is left after dilution
and addition of acid -/
noncomputable def pointMisfit (x K : String → ℝ) (c n g M A E : ℝ) (p : ℝ × ℝ × ℝ) : ℝ :=
  (mixture x K p.1 M c g).alk 3 (readAcidity E p) - (A * M - p.1 * c * n) / (p.1 + M)

theorem EmfRun.reduces {w : World} {f : String} {S : Flt} {kw : Dict Val} {x K : String → ℝ}
    {c n g M : ℝ} {pts : List (ℝ × ℝ × ℝ)} (h : EmfRun w f S kw x K c n g M pts) :
    ∃ (totals ks : Dict NpVal),
      files_solve w f (fin c) S kw = (do
        let (o, double) ← emf_opts kw
        let sr ← solve_emf w.ls (fin c) ((pts.map (·.1)).map fin) ((pts.map (·.2.1)).map fin)
          ((pts.map (·.2.2)).map fin) (fin M) totals ks o double
        return .emf sr (pts.map fun p => fin p.2.2)) ∧
      ValidRows totals ks pts.length ∧ HasKsN totals ks 3 ∧ dictFits pts.length totals = true ∧
      dictFits pts.length ks = true ∧ ∀ i, (hi : i < pts.length) →
        Sol.of (rowAt totals i) (rowAt ks i) = mixture x K pts[i].1 M c g := by
  obtain ⟨cv, totals, ks, hl, htm, hM, hE, hT⟩ := h.loads
  have e : ∀ q : ℝ × ℝ × ℝ → ℝ, (pts.map fun p => fin (q p)) = (pts.map q).map fin := by
    intro q; rw [List.map_map]; rfl
  rw [e] at htm hE
  obtain ⟨tts, totals', ht, ha, hv, hk, hf, hf', halk⟩ := given_solver h.keepsTotals h.keepsKs hl
    h.nodup h.sample h.sulfate h.no_phosphate h.no_fluoride htm hM h.mass
    (by intro m hm; obtain ⟨p, hp, rfl⟩ := List.mem_map.mp hm; exact h.masses p hp) h.acid
  rw [List.length_map] at hv hf hf'
  refine ⟨totals', ks, ?_, hv, hk, hf, hf', ?_⟩
  · have hmode : solve_mode kw = .ok "emf" := by
      unfold solve_mode argVal
      rcases h.mode with hs | ⟨s, hs, hs'⟩
      · rw [hs]
        have : lowerS "emf" = "emf" := by decide
        exact congrArg Except.ok this
      · rw [hs, ← hs']; rfl
    have hopts : emf_opts (get_kwargs_for keys_solve_emf kw none) = emf_opts kw := by
      have e1 : ∀ k ∈ keys_solve_emf,
          Dict.get? (get_kwargs_for keys_solve_emf kw none) k = kw.get? k := by
        intro k hk
        rw [show get_kwargs_for keys_solve_emf kw none
            = kw.filter fun kv => keys_solve_emf.contains kv.1 from rfl,
          Dict.get?_filter (fun k => keys_solve_emf.contains k), if_pos (by simpa using hk)]
      simp only [emf_opts, argOpt, argNum, argVal, e1 "alkalinity_init" (by decide),
        e1 "emf0_init" (by decide), e1 "pH_min" (by decide), e1 "pH_max" (by decide),
        e1 "titrant_normality" (by decide), e1 "gran_logic" (by decide), e1 "double" (by decide)]
    unfold files_solve
    rw [hl]
    simp only [bind_ok, ht, ha, hmode]
    unfold solve_dispatch
    rw [if_pos rfl, hopts]
    rw [e] at hT
    simp only [htm, hM, hE, hT, e]
  · intro i hi
    have := halk i (by simpa using hi)
    simpa using this

/-- a finished run, in terms of the solver -/
theorem EmfRun.solver {w : World} {f : String} {S : Flt} {kw : Dict Val} {x K : String → ℝ}
    {c n g M : ℝ} {pts : List (ℝ × ℝ × ℝ)} (h : EmfRun w f S kw x K c n g M pts) {r : SolveRes}
    (hr : files_solve w f (fin c) S kw = .ok r) :
    ∃ (totals ks : Dict NpVal) (o : EmfOpts) (double : Bool) (sr : SolveEmf),
      r = .emf sr (pts.map fun p => fin p.2.2) ∧ o.titrant_normality = fin n ∧
      solve_emf w.ls (fin c) ((pts.map (·.1)).map fin) ((pts.map (·.2.1)).map fin)
          ((pts.map (·.2.2)).map fin) (fin M) totals ks o double = .ok sr ∧
      ValidRows totals ks (pts.map (·.2.1)).length ∧ ∀ i, (hi : i < pts.length) →
        Sol.of (rowAt totals i) (rowAt ks i) = mixture x K pts[i].1 M c g := by
  obtain ⟨totals, ks, hs, hv, -, -, -, hsol⟩ := h.reduces
  rw [hs] at hr
  simp only [bind_ok_iff, pure_ok, Except.ok.injEq] at hr
  obtain ⟨⟨o, double⟩, ho, sr, hsr, rfl⟩ := hr
  refine ⟨totals, ks, o, double, sr, rfl, ?_, hsr, by rw [List.length_map]; exact hv, hsol⟩
  simp only [emf_opts, bind_ok_iff, pure_ok, Except.ok.injEq, Prod.mk.injEq] at ho
  obtain ⟨a, -, b, -, lo, -, hi, -, m, hm, rfl, -⟩ := ho
  rw [h.normality.arg] at hm
  exact (Except.ok.inj hm).symm

theorem EmfRun.misfits {x K : String → ℝ} {c n g M : ℝ} {pts : List (ℝ × ℝ × ℝ)}
    {totals ks : Dict NpVal} (hsol : ∀ i, (hi : i < pts.length) →
      Sol.of (rowAt totals i) (rowAt ks i) = mixture x K pts[i].1 M c g) (A E : ℝ) {res : List ℝ}
    (hl : res.length = (pts.map (·.1)).length)
    (hres : ∀ i, (h : i < res.length) → (h1 : i < (pts.map (·.1)).length) →
      (h2 : i < (pts.map (·.2.1)).length) → (h3 : i < (pts.map (·.2.2)).length) →
      res[i] = fitResidual c n M A E totals ks i (pts.map (·.1))[i] (pts.map (·.2.1))[i]
        (pts.map (·.2.2))[i]) : res = pts.map (pointMisfit x K c n g M A E) := by
  apply List.ext_getElem
  · simpa using hl
  · intro i h1 h2
    have hi : i < pts.length := by simpa using h2
    rw [hres i h1 (by simpa using hi) (by simpa using hi) (by simpa using hi)]
    simp only [List.getElem_map, fitResidual, pointMisfit, readAcidity, hsol i hi]

/-- **C112**: in EMF mode with contents and constants given, `files.solve` reports the alkalinity and
EMF0 found; for each point the alkalinity that the mixture of sample and titrant has at the acidity
read with that EMF0; and as spread that of the misfits of the used points. -/
theorem C112_estimates (w : World) (f : String) (S : Flt) (kw : Dict Val) (x K : String → ℝ)
    (c n g M : ℝ) (pts : List (ℝ × ℝ × ℝ)) (h : EmfRun w f S kw x K c n g M pts) (r : SolveRes)
    (hr : files_solve w f (fin c) S kw = .ok r) :
    ∃ sr, r = .emf sr (pts.map fun p => fin p.2.2) ∧
      ∀ A E : ℝ, sr.opt_result.x = (fin A, fin E) → true ∈ sr.used →
        sr.alkalinity = fin (1e6 * A) ∧ sr.emf0 = fin E ∧
        sr.alkalinity_all = pts.map (fun p => fin (pointEstimate x K c n g M E p)) ∧
        sr.alkalinity_std
          = fin (1e6 * Spec.sd ((mask sr.used pts).map (pointMisfit x K c n g M A E))) := by
  obtain ⟨totals, ks, o, double, sr, rfl, ho, hsr, hv, hsol⟩ := h.solver hr
  refine ⟨sr, rfl, fun A E hx hne => ?_⟩
  have hm : ∀ m ∈ pts.map (·.1), 0 < m + M := by
    intro m hm
    obtain ⟨p, hp, rfl⟩ := List.mem_map.mp hm
    exact add_pos_of_nonneg_of_pos (h.masses p hp) h.mass
  have hT : ∀ t ∈ pts.map (·.2.2), -273.15 < t := by
    intro t ht
    obtain ⟨p, hp, rfl⟩ := List.mem_map.mp ht
    exact h.temps p hp
  obtain ⟨res, est, hl1, hl2, hall, hre, hstd⟩ := C84_emf w.ls h.sound c n M A E _ _ _ totals ks o
    double sr ho h.mass hm hT hv hsr hx hne
  have hres := EmfRun.misfits hsol A E hl1 (fun i h0 h1 h2 h3 =>
    (hre i h0 h1 h2 h3 (by omega)).1)
  obtain ⟨o', -, -, -, hlast⟩ := solve_emf_last hsr
  obtain ⟨gg, opt, -, -, -, -, -, -, hres'⟩ := solve_emf_false_iff.mp hlast
  have hx' : opt.x = (fin A, fin E) := by rw [hres'] at hx; exact hx
  refine ⟨?_, ?_, ?_, ?_⟩
  · rw [hres']; simp only [emfResult, hx', mul_fin, fin_inj]; ring
  · rw [hres']; simp only [emfResult, hx']
  · rw [hall]
    apply List.ext_getElem
    · simpa using hl2
    · intro i h1 h2
      have hi : i < pts.length := by simpa using h2
      have he : i < est.length := by simpa using h1
      have := (hre i (by rw [hl1]; simpa using hi) (by simpa using hi) (by simpa using hi)
        (by simpa using hi) he).2
      simp only [List.getElem_map, fin_inj]
      rw [this]
      have hri : res[i]'(by rw [hl1]; simpa using hi) = pointMisfit x K c n g M A E pts[i] := by
        simp only [hres, List.getElem_map]
      rw [hri]
      have hp := hm pts[i].1 (List.mem_map.mpr ⟨_, List.getElem_mem hi, rfl⟩)
      have hM := h.mass
      simp only [List.getElem_map, pointMisfit, pointEstimate]
      field_simp
      ring
  · rw [hstd, hres, mask_map]

/-- what the optimiser is given to minimise -/
theorem EmfRun.problem {w : World} {f : String} {S : Flt} {kw : Dict Val} {x K : String → ℝ}
    {c n g M : ℝ} {pts : List (ℝ × ℝ × ℝ)} (h : EmfRun w f S kw x K c n g M pts)
    {totals ks : Dict NpVal} (hv : ValidRows totals ks (pts.map (·.2.1)).length)
    (hk : HasKsN totals ks 3) (hsol : ∀ i, (hi : i < pts.length) →
      Sol.of (rowAt totals i) (rowAt ks i) = mixture x K pts[i].1 M c g) (used : List Bool) (a e : ℝ) :
    emfProblem (fin c) (fin n) (fin M) ((pts.map (·.1)).map fin)
      ((pts.map (·.2.1)).map fin) ((pts.map (·.2.2)).map fin) totals ks used (fin a, fin e)
      = .ok (((mask used pts).map (pointMisfit x K c n g M a e)).map fin) := by
  have hm : ∀ m ∈ pts.map (·.1), 0 < m + M := by
    intro m hm
    obtain ⟨p, hp, rfl⟩ := List.mem_map.mp hm
    exact add_pos_of_nonneg_of_pos (h.masses p hp) h.mass
  have hT : ∀ t ∈ pts.map (·.2.2), -273.15 < t := by
    intro t ht
    obtain ⟨p, hp, rfl⟩ := List.mem_map.mp ht
    exact h.temps p hp
  simp only [emfProblem]
  rw [emfRes_fin hT hm (by simp) hv hk, mask_map]
  have : emfResR c n M a e (pts.map (·.1)) (pts.map (·.2.1)) (pts.map (·.2.2)) totals ks
      = pts.map (pointMisfit x K c n g M a e) := by
    apply EmfRun.misfits hsol
    · simp [emfResR, pHRs]
    · intro i h0 h1 h2 h3
      exact emfResR_spec hm hT i h0 h1 h2 h3
  rw [this, mask_map]

/-- **C112**: what is found is the best fit: with a sound optimiser that finds minima, no other
alkalinity and EMF0 has a smaller sum of squared misfits over the points used. -/
theorem C112_best (w : World) (f : String) (S : Flt) (kw : Dict Val) (x K : String → ℝ)
    (c n g M : ℝ) (pts : List (ℝ × ℝ × ℝ)) (h : EmfRun w f S kw x K c n g M pts)
    (hmin : LsGlobalMin w.ls) (sr : SolveEmf) (T : List Flt)
    (hr : files_solve w f (fin c) S kw = .ok (.emf sr T)) (A E : ℝ)
    (hx : sr.opt_result.x = (fin A, fin E)) (A' E' : ℝ) :
    ((mask sr.used pts).map fun p => pointMisfit x K c n g M A E p ^ 2).sum
      ≤ ((mask sr.used pts).map fun p => pointMisfit x K c n g M A' E' p ^ 2).sum := by
  obtain ⟨totals, ks, o, double, sr', he, ho, hsr, hv, hsol⟩ := h.solver hr
  cases he
  obtain ⟨o', -, -, hn, hlast⟩ := solve_emf_last hsr
  rw [ho] at hn
  obtain ⟨gg, opt, -, -, hk, -, -, hopt, hres⟩ := solve_emf_false_iff.mp hlast
  have hx' : opt.x = (fin A, fin E) := by rw [hres] at hx; exact hx
  have hu : sr.used = (emfStart o' gg ((pts.map (·.2.1)).map fin) ((pts.map (·.2.2)).map fin)).used := by
    rw [hres]; rfl
  rw [← hu, hn] at hopt
  have hprob := h.problem hv hk hsol sr.used
  have hs := h.sound _ _ _ hopt
  rw [hx', hprob] at hs
  obtain ⟨res, h1, h2⟩ := hmin _ _ _ hopt (fin A', fin E') _ (hprob A' E')
  have hinj : res = (mask sr.used pts).map (pointMisfit x K c n g M A E) := by
    rw [← Except.ok.inj hs] at h1
    exact (List.map_injective_iff.mpr (fun a b hab => Flt.fin.inj hab) h1).symm
  rw [hinj] at h2
  simpa [List.map_map, Function.comp_def] using h2

/-- **C112**: for exact data - every point an electrode of EMF0 `E` at the pH of the mixture of acid
with a sample of alkalinity `A` - a sound optimiser that finds minima finds `A` and `E`, if two of the
points used are at the same temperature, the second with clearly more acid than the first, and the
first is fitted as acid. -/
theorem C112_exact (w : World) (f : String) (S : Flt) (kw : Dict Val) (x K : String → ℝ)
    (c n g M : ℝ) (pts : List (ℝ × ℝ × ℝ)) (h : EmfRun w f S kw x K c n g M pts)
    (hmin : LsGlobalMin w.ls) (sr : SolveEmf) (T : List Flt)
    (hr : files_solve w f (fin c) S kw = .ok (.emf sr T)) (A E A' E' : ℝ)
    (hx : sr.opt_result.x = (fin A', fin E')) (acidity : ℝ × ℝ × ℝ → ℝ)
    (hdata : ∀ p ∈ pts, 0 < acidity p ∧ p.2.1 = nernst E p.2.2 (acidity p) ∧
      (mixture x K p.1 M c g).alk 3 (acidity p) * (p.1 + M) = A * M - p.1 * c * n)
    (i j : ℕ) (p q : ℝ × ℝ × ℝ) (hi : pts[i]? = some p) (hj : pts[j]? = some q)
    (hui : sr.used[i]? = some true) (huj : sr.used[j]? = some true) (hTT : p.2.2 = q.2.2)
    (lo : ℝ) (hlo : 0 < lo) (hl : lo ≤ acidity p) (hl' : lo ≤ readAcidity E' p)
    (hmore : (1 + (mixture x K p.1 M c g).buffering lo) * ((p.1 + M) * acidity p)
      < (q.1 + M) * acidity q) :
    sr.alkalinity = fin (1e6 * A) ∧ sr.emf0 = fin E := by
  obtain ⟨totals, ks, o, double, sr', he, ho, hsr, hv, hsol⟩ := h.solver hr
  cases he
  have hm : ∀ m ∈ pts.map (·.1), 0 < m + M := by
    intro m hm
    obtain ⟨p, hp, rfl⟩ := List.mem_map.mp hm
    exact add_pos_of_nonneg_of_pos (h.masses p hp) h.mass
  have hT : ∀ t ∈ pts.map (·.2.2), -273.15 < t := by
    intro t ht
    obtain ⟨p, hp, rfl⟩ := List.mem_map.mp ht
    exact h.temps p hp
  obtain ⟨hip, rfl⟩ := List.getElem?_eq_some_iff.mp hi
  obtain ⟨hjp, rfl⟩ := List.getElem?_eq_some_iff.mp hj
  have h10 : ∀ y : ℝ, 0 < y → (10 : ℝ) ^ (- -Real.logb 10 y) = y := fun y hy => by
    rw [neg_neg, Real.rpow_logb (by norm_num) (by norm_num) hy]
  have ha : ∀ k, (hk : k < pts.length) → (10 : ℝ) ^ (- -Real.logb 10 (acidity pts[k])) = acidity pts[k] :=
    fun k hk => h10 _ (hdata _ (List.getElem_mem hk)).1
  obtain ⟨o', -, -, -, hlast⟩ := solve_emf_last hsr
  obtain ⟨gg, opt, -, -, -, -, -, -, hres⟩ := solve_emf_false_iff.mp hlast
  have hx' : opt.x = (fin A', fin E') := by rw [hres] at hx; exact hx
  have hpH : sr.pH[i]? = some (fin (pHR E' pts[i].2.1 pts[i].2.2)) := by
    rw [hres]
    simp only [emfResult, hx']
    rw [emf_to_pH_arr_fin hT]
    simp [pHRs, hip]
  have hread : (10 : ℝ) ^ (-(pHR E' pts[i].2.1 pts[i].2.2)) = readAcidity E' pts[i] := by
    have hns := nslope_pos (h.temps _ (List.getElem_mem hip))
    have h0 : 8.3144621 * (pts[i].2.2 + 273.15) / 96.4853365 = nslope pts[i].2.2 := by
      simp [nslope, ideal_gas, faraday, absolute_zero]
    rw [readAcidity, h0, pHR, Real.rpow_def_of_pos (by norm_num), neg_neg]
    congr 1
    have := log10_pos
    field_simp
  refine C95_recovers w.ls h.sound hmin c n M A E A' E' (pts.map (·.1)) (pts.map (·.2.1))
    (pts.map (·.2.2)) (pts.map fun p => -Real.logb 10 (acidity p)) totals ks o double sr ho h.mass hm hT
    hv (by simp) ?_ hsr hx i j (by simpa using hip) (by simpa using hjp) (by simpa using hip)
    (by simpa using hjp) (by simpa using hip) (by simpa using hjp) hui huj (by simpa using hTT) lo _ hlo
    hpH (by rw [hread]; exact hl') ?_ ?_
  · intro k h1 h2 h3 h4
    have hk : k < pts.length := by simpa using h1
    obtain ⟨-, d1, d2⟩ := hdata _ (List.getElem_mem hk)
    simp only [List.getElem_map, specAlk, hsol k hk, ha k hk]
    exact ⟨d1, d2⟩
  · simp only [List.getElem_map, ha i hip]; exact hl
  · simp only [List.getElem_map, ha i hip, ha j hjp, hsol i hip]; exact hmore

/-! ### A case -/

/-- Two points of a sample with some of everything -/
noncomputable def qPts (Q : ℝ) : List (ℝ × ℝ × ℝ) :=
  [(0.001, nernst Q 25 2e-4, 25), (0.002, nernst Q 25 9e-4, 25)]

noncomputable def qData (Q : ℝ) : DatData where
  titrant_amount := (qPts Q).map fun p => fin p.1
  measurement := (qPts Q).map fun p => fin p.2.1
  temperature := (qPts Q).map fun p => fin p.2.2

noncomputable def qWorld (Q : ℝ) : World := { keepWorld with readDat := fun _ _ => .ok (qData Q), ls := lsExact }

noncomputable def qConstants (_ : String) : ℝ := 1e-8

/-- alkalinity of the mixtures; contents do not depend on the acid, as it brings no sulfate -/
noncomputable def qAlk (m h : ℝ) : ℝ := (mixture pContents qConstants m 0.1 0 0).alk 3 h

/-- the acid and the alkalinity with which the two points are exact -/
noncomputable def qAcid : ℝ := (qAlk 0.001 2e-4 * 0.101 - qAlk 0.002 9e-4 * 0.102) / 0.001

noncomputable def qTrue : ℝ := (qAlk 0.001 2e-4 * 0.101 + 0.001 * qAcid) / 0.1

noncomputable def qArgs (Q : ℝ) : Dict Val :=
  [ ("analyte_mass", .num (fin 0.1)), ("titrant_amount_unit", .str "kg"),
    ("emf0_init", .num (fin Q)), ("alkalinity_init", .num (fin (1e6 * qTrue))) ] ++
  (("dic" :: (optionalContents ++ saltContents)).map fun k => (k, Val.num (fin (pContents k)))) ++
  allConstants.map fun k => (k, Val.num (fin (qConstants k)))

theorem q_totals (Q : ℝ) : ∃ t tp, get_totals (qWorld Q) (fin 35)
      ((get_kwargs_for keys_totals_ks (qArgs Q) none).filter fun kv => keys_get_totals.contains kv.1)
        = .ok (t, tp) ∧ ∀ kv ∈ t, kv.2.fits 2 = true := by
  have hkw : ((get_kwargs_for keys_totals_ks (qArgs Q) none).filter
      fun kv => keys_get_totals.contains kv.1)
        = ("dic" :: (optionalContents ++ saltContents)).map fun k => (k, Val.num (fin 10)) := rfl
  rw [hkw]
  simp [get_totals, qWorld, keepWorld, argNum, argNotNull, Dict.get?, Val.toFlt, bind_ok, pure_ok,
    copyIfPos, Val.isNull, Dict.get, Dict.get?_append, totals_for_pyco2, setIf_get?,
    optionalContents, saltContents, setIfPos, Dict.set, NpVal.fits]
  intro a b h
  rcases h with h | h | h | h | h | h | h | h | h | h <;> rw [h.2]

theorem q_ks (Q : ℝ) : ∃ ks, ∀ tp, get_k_constants (qWorld Q) tp [fin 25, fin 25]
      ((get_kwargs_for keys_totals_ks (qArgs Q) none).filter
        fun kv => keys_get_k_constants.contains kv.1) = .ok ks := by
  have hkw : ((get_kwargs_for keys_totals_ks (qArgs Q) none).filter
      fun kv => keys_get_k_constants.contains kv.1)
        = allConstants.map fun k => (k, Val.num (fin 1e-8)) := rfl
  rw [hkw]
  simp [get_k_constants, qWorld, keepWorld, ks_for_pyco2, argNotNull, Dict.get?, Val.toFlt, bind_ok,
    pure_ok, Val.isNull, calk_to_pyco2_ks, setIf, Dict.set, argVal, Val.eqNum, feq, allConstants]

noncomputable def qCv (Q : ℝ) : Converted :=
  ⟨[fin 0.001, fin 0.002], (qPts Q).map fun p => fin p.2.1, [fin 25, fin 25], fin 0.1, fin 35⟩

theorem q_load (Q : ℝ) : ∃ totals ks, load (qWorld Q) "a.dat" (fin 35) (qArgs Q) = .ok ((qCv Q), totals, ks) := by
  obtain ⟨t, tp, h1, hfit⟩ := (q_totals Q)
  obtain ⟨ks, h2⟩ := (q_ks Q)
  obtain ⟨totals, h3, -⟩ := C05_dilute_totals t [fin 0.001, fin 0.002] (fin 0.1) hfit
  refine ⟨totals, ks, ?_⟩
  unfold load
  have e1 : full_name "a.dat" (qArgs Q) = .ok "a.dat" := rfl
  have e2 : (qWorld Q).readDat "a.dat" (get_kwargs_for keys_read_dat (qArgs Q) none) = .ok (qData Q) := rfl
  have e3 : amount_units (qData Q) (fin 35) (get_kwargs_for keys_cau (qArgs Q) none) = .ok (qCv Q) := by
    have hkw : get_kwargs_for keys_cau (qArgs Q) none
      = [("analyte_mass", .num (fin 0.1)), ("titrant_amount_unit", .str "kg")] := rfl
    rw [hkw]
    simp [amount_units, override_temperature, titrant_masses, get_analyte_mass, argOpt, argVal,
      argNotNull, Dict.get?, Val.toFlt, Val.isNull, Val.lower, bind_ok, pure_ok, pyAssert, qData, qCv,
      qPts, show lowerS "kg" = "kg" by decide]
  have e4 : totals_for_ks (qCv Q) tp (get_kwargs_for keys_totals_ks (qArgs Q) none) = .ok tp := rfl
  have h3' : dilute_totals t (qCv Q).titrant_mass (qCv Q).analyte_mass = .ok totals := h3
  have h1' : get_totals (qWorld Q) (qCv Q).salinity
      ((get_kwargs_for keys_totals_ks (qArgs Q) none).filter fun kv => keys_get_totals.contains kv.1)
        = .ok (t, tp) := h1
  have h2' : get_k_constants (qWorld Q) tp (qCv Q).temperature
      ((get_kwargs_for keys_totals_ks (qArgs Q) none).filter
        fun kv => keys_get_k_constants.contains kv.1) = .ok ks := h2 tp
  rw [e1, bind_ok, e2, bind_ok, e3, bind_ok]
  unfold totals_ks
  simp only [h1', bind_ok, h3', e4, h2']
  rfl

theorem q_run (Q : ℝ) : EmfRun (qWorld Q) "a.dat" (fin 35) (qArgs Q) pContents qConstants qAcid 1 0 0.1 (qPts Q) := by
  refine ⟨?_, keepWorld_totals, keepWorld_ks, lsExact_contracts.1, ?_, .inl rfl, ⟨?_, ?_, ?_⟩,
    .inr ⟨rfl, rfl⟩, rfl, rfl, .inr ⟨rfl, rfl⟩, by norm_num, ?_, ?_, by norm_num⟩
  · obtain ⟨totals, ks, h⟩ := (q_load Q)
    exact ⟨_, _, _, h, rfl, rfl, rfl, rfl⟩
  · have : Dict.keys (qArgs Q) = [ "analyte_mass", "titrant_amount_unit", "emf0_init",
      "alkalinity_init" ] ++ ("dic" :: (optionalContents ++ saltContents)) ++ allConstants := rfl
    rw [this]
    decide
  · intro k hk
    refine ⟨?_, by norm_num [pContents]⟩
    simp only [optionalContents, saltContents, List.cons_append, List.nil_append, List.mem_cons,
      List.not_mem_nil, or_false] at hk
    rcases hk with rfl | rfl | rfl | rfl | rfl | rfl | rfl | rfl | rfl | rfl <;> rfl
  · intro k hk
    refine ⟨?_, by norm_num [qConstants]⟩
    simp only [allConstants, List.mem_cons, List.not_mem_nil, or_false] at hk
    rcases hk with rfl | rfl | rfl | rfl | rfl | rfl | rfl | rfl | rfl | rfl | rfl | rfl | rfl | rfl
      <;> rfl
  · exact not_onTotalScale rfl
  · intro p hp
    simp only [qPts, List.mem_cons, List.not_mem_nil, or_false] at hp
    rcases hp with rfl | rfl <;> norm_num
  · intro p hp
    simp only [qPts, List.mem_cons, List.not_mem_nil, or_false] at hp
    rcases hp with rfl | rfl <;> norm_num

/-- the same with another optimiser -/
theorem q_run_ls (Q : ℝ) (ls : LsFun (Flt × Flt)) (hls : LsSound ls) :
    EmfRun { qWorld Q with ls := ls } "a.dat" (fin 35) (qArgs Q) pContents qConstants qAcid 1 0 0.1 (qPts Q) :=
  let h := q_run Q
  { loads := h.loads, keepsTotals := h.keepsTotals, keepsKs := h.keepsKs, sound := hls, nodup := h.nodup,
    mode := h.mode, sample := h.sample, sulfate := h.sulfate, no_phosphate := h.no_phosphate,
    no_fluoride := h.no_fluoride, normality := h.normality, mass := h.mass, masses := h.masses,
    temps := h.temps, acid := h.acid }

theorem mixture_no_sulfate (x K : String → ℝ) (m M c c' : ℝ) :
    mixture x K m M c 0 = mixture x K m M c' 0 := by
  simp only [mixture, mixContent, mul_zero]

theorem read_nernst {E t h : ℝ} (m : ℝ) (ht : -273.15 < t) (hh : 0 < h) :
    readAcidity E (m, nernst E t h, t) = h := by
  have : 0 < t + 273.15 := by linarith
  have e : (nernst E t h - E) / (8.3144621 * (t + 273.15) / 96.4853365) = Real.log h := by
    unfold nernst; field_simp; ring
  simp only [readAcidity, e, Real.exp_log hh]

/-- the points are exact -/
theorem q_exact (Q : ℝ) : ∀ p ∈ (qPts Q), 0 < readAcidity Q p ∧ p.2.1 = nernst Q p.2.2 (readAcidity Q p) ∧
    (mixture pContents qConstants p.1 0.1 qAcid 0).alk 3 (readAcidity Q p) * (p.1 + 0.1)
      = qTrue * 0.1 - p.1 * qAcid * 1 := by
  intro p hp
  simp only [qPts, List.mem_cons, List.not_mem_nil, or_false] at hp
  rcases hp with rfl | rfl
  · rw [read_nernst _ (by norm_num) (by norm_num), mixture_no_sulfate _ _ _ _ _ 0]
    refine ⟨by norm_num, rfl, ?_⟩
    rw [show (mixture pContents qConstants 0.001 0.1 0 0).alk 3 2e-4 = qAlk 0.001 2e-4 from rfl]
    unfold qTrue
    ring
  · rw [read_nernst _ (by norm_num) (by norm_num), mixture_no_sulfate _ _ _ _ _ 0]
    refine ⟨by norm_num, rfl, ?_⟩
    rw [show (mixture pContents qConstants 0.002 0.1 0 0).alk 3 9e-4 = qAlk 0.002 9e-4 from rfl]
    unfold qTrue qAcid
    ring

theorem q_gran (Q : ℝ) (c : ℝ) (n : ℝ := 1) : ∃ g, gran_guesses (((qPts Q).map (·.1)).map fin) (((qPts Q).map (·.2.1)).map fin)
    (((qPts Q).map (·.2.2)).map fin) (fin 0.1) (fin c) (fin n) "v23.7+" = .ok g := by
  have hT : ∀ p ∈ (qPts Q), -273.15 < p.2.2 := (q_run Q).temps
  have hg := gran_gfunc (qPts Q) 0.1 hT
  set k := Real.exp (Q * 96.4853365 / (8.3144621 * (25 + 273.15))) with hk
  have hgr : ∀ m h : ℝ, 0 < h → Spec.gran 0.1 (m, nernst Q 25 h, 25) = (m + 0.1) * (k * h) := by
    intro m h hh
    simp only [Spec.gran, hk]
    congr 1
    rw [← Real.exp_log hh, ← Real.exp_add, Real.exp_log hh]
    congr 1
    unfold nernst
    field_simp
  have hk0 : 0 < k := Real.exp_pos _
  have hpts : (qPts Q).map (Spec.gran 0.1) = [0.101 * (k * 2e-4), 0.102 * (k * 9e-4)] := by
    simp only [qPts, List.map_cons, List.map_nil, hgr _ 2e-4 (by norm_num), hgr _ 9e-4 (by norm_num)]
    norm_num
  obtain ⟨j, mx, hmx, hle, ⟨hj, hj'⟩, hlt, hu⟩ := gran_used_default (gs := (qPts Q).map (Spec.gran 0.1))
    (by simp [qPts]) (by
      intro g hg
      rw [hpts] at hg
      simp only [List.mem_cons, List.not_mem_nil, or_false] at hg
      rcases hg with rfl | rfl <;> positivity)
  rw [hpts] at hmx hu hj
  simp only [hpts] at hlt
  have hj0 : j = 0 := by
    by_contra hc
    have := hlt 0 (by simp) (Nat.pos_of_ne_zero hc)
    simp only [List.getElem_cons_zero] at this
    simp only [List.mem_cons, List.not_mem_nil, or_false] at hmx
    rcases hmx with rfl | rfl <;> nlinarith
  subst hj0
  set g0 := 0.101 * (k * 2e-4)
  set g1 := 0.102 * (k * 9e-4)
  obtain ⟨lr, hlr, -⟩ := linregress_exact (xs := [0.001, 0.002]) ((g1 - g0) / 0.001) (2 * g0 - g1)
    (by exact ⟨0.001, by simp, 0.002, by simp, by norm_num⟩)
  have e1 : List.map (fun x => fin ((g1 - g0) / 0.001 * x + (2 * g0 - g1))) [0.001, 0.002]
      = [fin g0, fin g1] := by
    simp only [List.map_cons, List.map_nil, List.cons.injEq, fin_inj, and_true]
    constructor <;> ring
  rw [e1] at hlr
  unfold gran_guesses gran_alkalinity
  have hz : zip3With (fun m e t => gran_function m e t (fin 0.1)) (((qPts Q).map (·.1)).map fin)
      (((qPts Q).map (·.2.1)).map fin) (((qPts Q).map (·.2.2)).map fin) = [fin g0, fin g1] := by
    rw [List.map_map, List.map_map, List.map_map]
    refine Eq.trans hg ?_
    rw [hpts]; rfl
  have hu' : gran_used [fin g0, fin g1] "v23.7+" = .ok [true, true] := hu
  have hm : ∀ a b : Flt, mask [true, true] [a, b] = [a, b] := fun _ _ => rfl
  have hl' : linregress [fin 0.001, fin 0.002] [fin g0, fin g1] = .ok lr := hlr
  have hs : sameShape3 (((qPts Q).map (·.1)).map fin) (((qPts Q).map (·.2.1)).map fin)
      (((qPts Q).map (·.2.2)).map fin) = .ok () := by
    simp [sameShape3]
  have hx : mask [true, true] (((qPts Q).map (·.1)).map fin) = [fin 0.001, fin 0.002] := rfl
  simp only [hs, bind_ok, hz, hu', hm, hx, hl']
  exact ⟨_, rfl⟩

noncomputable def qOpts (Q : ℝ) : EmfOpts :=
  { alkalinity_init := some (fin (1e6 * qTrue)), emf0_init := some (fin Q) }

theorem q_used (Q : ℝ) : (emf_to_pH_arr (((qPts Q).map (·.2.1)).map fin) (fin Q) (((qPts Q).map (·.2.2)).map fin))
    = ([-Real.logb 10 2e-4, -Real.logb 10 9e-4].map fin) ∧
    pH_used ([-Real.logb 10 2e-4, -Real.logb 10 9e-4].map fin) (fin 3) (fin 4) = [true, true] := by
  constructor
  · rw [emf_to_pH_arr_fin (by
      intro t ht; obtain ⟨p, hp, rfl⟩ := List.mem_map.mp ht; exact (q_run Q).temps p hp)]
    simp only [pHRs, qPts, List.map_cons, List.map_nil, List.zipWith_cons_cons, List.zipWith_nil_left]
    rw [pHR_nernst (by norm_num) (by norm_num), pHR_nernst (by norm_num) (by norm_num)]
  · rw [pH_used_fin]
    have key : ∀ h : ℝ, 1e-4 ≤ h → h ≤ 1e-3 → inWin 3 4 (-Real.logb 10 h) = true := by
      intro h h1 h2
      have a1 : Real.logb 10 h ≤ -3 := by
        rw [Real.logb_le_iff_le_rpow (by norm_num) (by linarith), Real.rpow_neg (by norm_num)]
        norm_num; linarith
      have a2 : -4 ≤ Real.logb 10 h := by
        rw [Real.le_logb_iff_rpow_le (by norm_num) (by linarith), Real.rpow_neg (by norm_num)]
        norm_num; linarith
      simp only [inWin, Bool.and_eq_true, decide_eq_true_eq]
      constructor <;> linarith
    simp only [List.map_cons, List.map_nil]
    rw [key _ (by norm_num) (by norm_num), key _ (by norm_num) (by norm_num)]

/-- the run on it: solved twice, as is the default, by an optimiser that stops at a start without
residuals -/
theorem q_solve_ls (Q : ℝ) (ls : LsFun (Flt × Flt)) (hsound : LsSound ls)
    (hstop : ∀ f (A E : ℝ), f (fin A, fin E) = .ok ((List.replicate 2 (0:ℝ)).map fin) →
      ∃ opt, ls f (fin A, fin E) = .ok opt ∧ opt.x = (fin A, fin E)) :
    ∃ sr, files_solve { qWorld Q with ls := ls } "a.dat" (fin qAcid) (fin 35) (qArgs Q)
      = .ok (.emf sr ((qPts Q).map fun p => fin p.2.2)) ∧
    sr.opt_result.x = (fin qTrue, fin Q) ∧ sr.used = [true, true] := by
  obtain ⟨totals, ks, hs, hv, hk, hf, hf', hsol⟩ := (q_run_ls Q ls hsound).reduces
  obtain ⟨gg, hg⟩ := (q_gran Q) qAcid
  have hopts : emf_opts (qArgs Q) = .ok ((qOpts Q), true) := by with_unfolding_all rfl
  have hst : emfStart (qOpts Q) gg (((qPts Q).map (·.2.1)).map fin) (((qPts Q).map (·.2.2)).map fin)
      = { alk := fin qTrue, emf0 := fin Q, used := [true, true] } := by
    simp only [emfStart, qOpts, (q_used Q).1, (q_used Q).2, mul_fin]
    congr 2
    ring
  have hmis : (mask [true, true] (qPts Q)).map (pointMisfit pContents qConstants qAcid 1 0 0.1 qTrue Q)
      = List.replicate 2 0 := by
    have hz : ∀ p ∈ (qPts Q), pointMisfit pContents qConstants qAcid 1 0 0.1 qTrue Q p = 0 := by
      intro p hp
      have h3 := ((q_exact Q) p hp).2.2
      have hp0 : p.1 + 0.1 ≠ 0 := by have := (q_run Q).masses p hp; positivity
      rw [pointMisfit, ← h3, mul_div_assoc, div_self hp0, mul_one, sub_self]
    have : mask [true, true] (qPts Q) = (qPts Q) := rfl
    rw [this]
    exact List.eq_replicate_iff.mpr ⟨by simp [qPts], fun b hb => by
      obtain ⟨p, hp, rfl⟩ := List.mem_map.mp hb
      exact hz p hp⟩
  have hprob := (q_run_ls Q ls hsound).problem (by rw [List.length_map]; exact hv) hk hsol [true, true] qTrue Q
  rw [hmis] at hprob
  obtain ⟨opt, hls, hx⟩ : ∃ opt, ls (emfProblem (fin qAcid) (fin 1) (fin 0.1)
      (((qPts Q).map (·.1)).map fin) (((qPts Q).map (·.2.1)).map fin) (((qPts Q).map (·.2.2)).map fin) totals ks
      [true, true]) (fin qTrue, fin Q) = .ok opt ∧ opt.x = (fin qTrue, fin Q) :=
    hstop _ _ _ hprob
  have hone : ∃ sr, solve_emf ls (fin qAcid) (((qPts Q).map (·.1)).map fin)
      (((qPts Q).map (·.2.1)).map fin) (((qPts Q).map (·.2.2)).map fin) (fin 0.1) totals ks (qOpts Q) false
        = .ok sr ∧ sr.opt_result.x = (fin qTrue, fin Q) ∧ sr.used = [true, true] ∧
      sr.alkalinity = fin (1e6 * qTrue) ∧ sr.emf0 = fin Q := by
    refine ⟨_, solve_emf_false_iff.mpr ⟨gg, opt, hg, by simp [qOpts]; norm_num, hk, by simpa using hf,
      by simpa using hf', by rw [hst]; exact hls, rfl⟩, hx, by rw [hst]; rfl, ?_, ?_⟩
    · simp only [emfResult, hx, mul_fin, mul_comm]
    · simp only [emfResult, hx]
  obtain ⟨sr, h1, h2, h3, h4, h5⟩ := hone
  refine ⟨sr, ?_, h2, h3⟩
  have htwo : solve_emf ls (fin qAcid) (((qPts Q).map (·.1)).map fin)
      (((qPts Q).map (·.2.1)).map fin) (((qPts Q).map (·.2.2)).map fin) (fin 0.1) totals ks (qOpts Q) true
        = .ok sr := by
    rw [solve_emf_true_eq, h1, bind_ok, h4, h5]
    exact h1
  rw [hs, hopts]
  simp only [bind_ok, htwo]
  rfl

theorem lsExact_stops (f : Flt × Flt → Py (List Flt)) (A E : ℝ)
    (h : f (fin A, fin E) = .ok ((List.replicate 2 (0:ℝ)).map fin)) :
    ∃ opt, lsExact f (fin A, fin E) = .ok opt ∧ opt.x = (fin A, fin E) :=
  ⟨_, dif_pos ⟨2, h⟩, rfl⟩

theorem q_solve (Q : ℝ) : ∃ sr, files_solve (qWorld Q) "a.dat" (fin qAcid) (fin 35) (qArgs Q)
      = .ok (.emf sr ((qPts Q).map fun p => fin p.2.2)) ∧
    sr.opt_result.x = (fin qTrue, fin Q) ∧ sr.used = [true, true] :=
  q_solve_ls Q lsExact lsExact_contracts.1 lsExact_stops

/-- C112 applies to it -/
example : ∃ sr T, files_solve (qWorld 400) "a.dat" (fin qAcid) (fin 35) (qArgs 400) = .ok (.emf sr T) ∧
    sr.alkalinity = fin (1e6 * qTrue) ∧ sr.emf0 = fin 400 ∧
    sr.alkalinity_all = (qPts 400).map (fun p => fin (pointEstimate pContents qConstants qAcid 1 0 0.1 400 p)) ∧
    ∀ A E : ℝ, ((qPts 400).map fun p => pointMisfit pContents qConstants qAcid 1 0 0.1 qTrue 400 p ^ 2).sum
      ≤ ((qPts 400).map fun p => pointMisfit pContents qConstants qAcid 1 0 0.1 A E p ^ 2).sum := by
  obtain ⟨sr, h, hx, hu⟩ := (q_solve 400)
  obtain ⟨sr', he, hest⟩ := C112_estimates _ _ _ _ _ _ _ _ _ _ _ (q_run 400) _ h
  cases he
  have hest := hest _ _ hx (by rw [hu]; simp)
  have hbest := C112_best _ _ _ _ _ _ _ _ _ _ _ (q_run 400) lsExact_contracts.2 _ _ h _ _ hx
  rw [hu] at hbest
  obtain ⟨e1, e2⟩ := C112_exact _ _ _ _ _ _ _ _ _ _ _ (q_run 400) lsExact_contracts.2 _ _ h qTrue 400 _ _ hx
    (readAcidity 400) (q_exact 400) 0 1 _ _ rfl rfl (by rw [hu]; rfl) (by rw [hu]; rfl) rfl 2e-4 (by norm_num)
    (by rw [read_nernst _ (by norm_num) (by norm_num)]) (by rw [read_nernst _ (by norm_num) (by norm_num)])
    (by
      rw [read_nernst _ (by norm_num) (by norm_num), read_nernst _ (by norm_num) (by norm_num)]
      norm_num [Sol.buffering, mono, mixture, mixContent, pContents, qConstants])
  exact ⟨sr, _, h, e1, e2, hest.2.2.1, hbest⟩

end Calk
