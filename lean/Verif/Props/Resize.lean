import Verif.Lemmas.Scale
import Verif.Props.FileLevel

/-!
# Property C115: only the ratio of titrant to sample matters

The same titration done with `k` times as much of everything.
-/

namespace Calk
open Flt

/-- `f'` with `kw'` is the titration of `f` with `kw` done `k` times as large: the file holds `k`
times the titrant amounts and the same readings, and the sample is `k` times as large, by its mass
or, if that is not given, its volume -/
structure Resized (w : World) (k : ℝ) (f f' : String) (kw kw' : Dict Val) : Prop where
  pos : 0 < k
  read : ∀ p p' opts, full_name f kw = .ok p → full_name f' kw = .ok p' →
    w.readDat p' opts = (w.readDat p opts).map fun d =>
      { d with titrant_amount := d.titrant_amount.map fun x => fin k * x }
  sample : (∃ m, m ≠ nan ∧ kw.get? "analyte_mass" = some (.num m) ∧
      kw' = kw.set "analyte_mass" (.num (fin k * m))) ∨
    (∃ v, v ≠ nan ∧ kw.get? "analyte_mass" = none ∧ kw.get? "analyte_volume" = some (.num v) ∧
      kw' = kw.set "analyte_volume" (.num (fin k * v)))

theorem titrant_masses_scale {k : ℝ} (hk : 0 < k) (d : DatData) (kw : Dict Val) :
    titrant_masses { d with titrant_amount := d.titrant_amount.map fun x => fin k * x } kw
      = (titrant_masses d kw).map fun m => m.map fun x => fin k * x := by
  have e : ∀ r : Flt, (d.titrant_amount.map fun x => fin k * x).map (fun x => x * r * fin 1e-3)
      = (d.titrant_amount.map fun x => x * r * fin 1e-3).map fun x => fin k * x := by
    intro r
    rw [List.map_map, List.map_map]
    apply List.map_congr_left
    intro x _
    simp only [Function.comp_apply, scale_mul hk]
  have e' : (d.titrant_amount.map fun x => fin k * x).map (fun x => x * fin 1e-3)
      = (d.titrant_amount.map fun x => x * fin 1e-3).map fun x => fin k * x := by
    rw [List.map_map, List.map_map]
    apply List.map_congr_left
    intro x _
    simp only [Function.comp_apply, scale_mul hk]
  unfold titrant_masses
  cases (argVal kw "titrant_amount_unit" (.str "ml")).lower with
  | error e => rfl
  | ok unit =>
  simp only [bind_ok]
  cases pyAssert (unit ∈ ["ml", "g", "kg"]) with
  | error e => rfl
  | ok _ =>
  simp only [bind_ok]
  by_cases h1 : unit = "ml"
  · simp only [h1, if_true]
    cases argOpt kw "titrant_density" with
    | error e => rfl
    | ok o =>
    simp only [bind_ok]
    cases o with
    | some r => simp only [e]; rfl
    | none =>
      simp only
      cases (argVal kw "titrant" (.str "HCl")).upper with
      | error e => rfl
      | ok t =>
      simp only [bind_ok]
      cases pyAssert (t ∈ ["H2SO4", "HCL"]) with
      | error e => rfl
      | ok _ =>
      simp only [bind_ok]
      by_cases h2 : t = "H2SO4"
      · simp only [h2, if_true]
        cases argNum kw "molinity_H2SO4" (fin 0.1) with
        | error e => rfl
        | ok m => simp only [bind_ok, e]; rfl
      · simp only [h2, if_false]
        cases argNum kw "molinity_HCl" (fin 0.1) with
        | error e => rfl
        | ok m =>
        cases argNum kw "molinity_NaCl" (fin 0.6) with
        | error e => rfl
        | ok m' => simp only [bind_ok, e]; rfl
  · simp only [h1, if_false]
    by_cases h2 : unit = "g"
    · simp only [h2, if_true, e']; rfl
    · simp only [h2, if_false]; rfl

theorem scale_ne_nan {k : ℝ} (hk : 0 < k) {x : Flt} (hx : x ≠ nan) : fin k * x ≠ nan := by
  cases x with
  | nan => exact absurd rfl hx
  | ninf => rw [scale_ninf hk]; simp
  | pinf => rw [scale_pinf hk]; simp
  | fin x => simp

theorem titrant_masses_set (d : DatData) (kw : Dict Val) (key : String) (v : Val)
    (h : key = "analyte_mass" ∨ key = "analyte_volume") :
    titrant_masses d (kw.set key v) = titrant_masses d kw := by
  have : ∀ key', key' ∈ ["titrant_amount_unit", "titrant_density", "titrant", "molinity_H2SO4",
      "molinity_HCl", "molinity_NaCl"] → (kw.set key v).get? key' = kw.get? key' := by
    intro key' hk'
    apply get?_ne_set
    rcases h with rfl | rfl
    · exact (by decide : ∀ key' ∈ ["titrant_amount_unit", "titrant_density", "titrant",
        "molinity_H2SO4", "molinity_HCl", "molinity_NaCl"], key' ≠ "analyte_mass") key' hk'
    · exact (by decide : ∀ key' ∈ ["titrant_amount_unit", "titrant_density", "titrant",
        "molinity_H2SO4", "molinity_HCl", "molinity_NaCl"], key' ≠ "analyte_volume") key' hk'
  simp only [titrant_masses, argVal, argOpt, argNum, this "titrant_amount_unit" (by decide),
    this "titrant_density" (by decide), this "titrant" (by decide), this "molinity_H2SO4" (by decide),
    this "molinity_HCl" (by decide), this "molinity_NaCl" (by decide)]

theorem kwargs_get? (keys : List String) (kw : Dict Val) {key : String} (h : keys.contains key = true) :
    (get_kwargs_for keys kw none).get? key = kw.get? key := by
  rw [show get_kwargs_for keys kw none = kw.filter fun kv => keys.contains kv.1 from rfl,
    Dict.get?_filter (fun k => keys.contains k), if_pos h]

theorem amount_units_resized {w : World} {k : ℝ} {f f' : String} {kw kw' : Dict Val}
    (h : Resized w k f f' kw kw') (d : DatData) (S : Flt) :
    amount_units { d with titrant_amount := d.titrant_amount.map fun x => fin k * x } S
        (get_kwargs_for keys_cau kw' none)
      = (amount_units d S (get_kwargs_for keys_cau kw none)).map (Converted.scaled k) := by
  have hk := h.pos
  have key : ∀ T, (∀ d', titrant_masses d' (get_kwargs_for keys_cau kw' none)
        = titrant_masses d' (get_kwargs_for keys_cau kw none)) ∧
      (get_kwargs_for keys_cau kw' none).get? "temperature_override"
        = (get_kwargs_for keys_cau kw none).get? "temperature_override" ∧
      get_analyte_mass T S (get_kwargs_for keys_cau kw' none)
        = (get_analyte_mass T S (get_kwargs_for keys_cau kw none)).map fun m => fin k * m := by
    intro T
    rcases h.sample with ⟨m, hm, h1, rfl⟩ | ⟨v, hv, h1, h2, rfl⟩
    · rw [kwargs_set_on (by decide)]
      refine ⟨fun d' => titrant_masses_set d' _ _ _ (.inl rfl), get?_ne_set (by decide), ?_⟩
      have a1 := argNotNull_num (kw := get_kwargs_for keys_cau kw none) (k := "analyte_mass")
        hm (by rw [kwargs_get? _ _ (by decide)]; exact h1)
      have a2 := argNotNull_num (kw := (get_kwargs_for keys_cau kw none).set "analyte_mass"
        (.num (fin k * m))) (k := "analyte_mass") (scale_ne_nan hk hm)
        (by rw [Dict.get?_set, if_pos rfl])
      simp only [get_analyte_mass, a1, a2, bind_ok]
      rfl
    · rw [kwargs_set_on (by decide)]
      refine ⟨fun d' => titrant_masses_set d' _ _ _ (.inr rfl), get?_ne_set (by decide), ?_⟩
      have b1 : argNotNull (get_kwargs_for keys_cau kw none) "analyte_mass" = .ok none := by
        simp only [argNotNull, kwargs_get? keys_cau kw (key := "analyte_mass") (by decide), h1]
      have b2 : argNotNull ((get_kwargs_for keys_cau kw none).set "analyte_volume"
          (.num (fin k * v))) "analyte_mass" = .ok none := by
        rw [← b1]
        simp only [argNotNull, get?_ne_set (kw := get_kwargs_for keys_cau kw none)
          (k := "analyte_volume") (k' := "analyte_mass") (v := .num (fin k * v)) (by decide)]
      have a1 := argNotNull_num (kw := get_kwargs_for keys_cau kw none) (k := "analyte_volume")
        hv (by rw [kwargs_get? _ _ (by decide)]; exact h2)
      have a2 := argNotNull_num (kw := (get_kwargs_for keys_cau kw none).set "analyte_volume"
        (.num (fin k * v))) (k := "analyte_volume") (scale_ne_nan hk hv)
        (by rw [Dict.get?_set, if_pos rfl])
      simp only [get_analyte_mass, b1, b2, a1, a2, bind_ok]
      cases T with
      | nil => rfl
      | cons t T => simp only [scale_mul hk, pure_ok]; rfl
  have ho : override_temperature { d with titrant_amount := d.titrant_amount.map fun x => fin k * x }
      (get_kwargs_for keys_cau kw' none) = override_temperature d (get_kwargs_for keys_cau kw none) := by
    simp only [override_temperature, argOpt, (key []).2.1]
  unfold amount_units
  simp only [ho, (key []).1, titrant_masses_scale hk, (key _).2.2]
  cases override_temperature d (get_kwargs_for keys_cau kw none) with
  | error e => rfl
  | ok T =>
  cases titrant_masses d (get_kwargs_for keys_cau kw none) with
  | error e => rfl
  | ok tm =>
  simp only [bind_ok, Except.map]
  cases get_analyte_mass T S (get_kwargs_for keys_cau kw none) with
  | error e => rfl
  | ok M => rfl

theorem Resized.same {w : World} {k : ℝ} {f f' : String} {kw kw' : Dict Val}
    (h : Resized w k f f' kw kw') :
    full_name f' kw' = full_name f' kw ∧ solve_mode kw' = solve_mode kw ∧
    titrant_totals kw' = titrant_totals kw ∧
    ∀ keys ∈ [keys_read_dat, keys_totals_ks, keys_solve_emf, keys_solve_pH, keys_solve_pH_gran,
      keys_calibrate_emf, keys_calibrate_pH, keys_calibrate_pH_gran],
      get_kwargs_for keys kw' none = get_kwargs_for keys kw none := by
  obtain ⟨key, v, rfl, hkey⟩ : ∃ key v, kw' = kw.set key v ∧
      (key = "analyte_mass" ∨ key = "analyte_volume") := by
    rcases h.sample with ⟨m, -, -, rfl⟩ | ⟨v, -, -, -, rfl⟩
    · exact ⟨_, _, rfl, .inl rfl⟩
    · exact ⟨_, _, rfl, .inr rfl⟩
  have g : ∀ key' ∈ ["file_path", "solve_mode"], (kw.set key v).get? key' = kw.get? key' := by
    intro key' hk'
    apply get?_ne_set
    rcases hkey with rfl | rfl
    · exact (by decide : ∀ k' ∈ ["file_path", "solve_mode"], k' ≠ "analyte_mass") key' hk'
    · exact (by decide : ∀ k' ∈ ["file_path", "solve_mode"], k' ≠ "analyte_volume") key' hk'
  refine ⟨?_, ?_, ?_, ?_⟩
  · simp only [full_name, g "file_path" (by decide)]
  · simp only [solve_mode, argVal, g "solve_mode" (by decide)]
  · apply titrant_totals_set
    rcases hkey with rfl | rfl <;> decide
  · intro keys hkeys
    apply kwargs_set_off
    rcases hkey with rfl | rfl
    · exact (by decide : ∀ keys ∈ [keys_read_dat, keys_totals_ks, keys_solve_emf, keys_solve_pH,
        keys_solve_pH_gran, keys_calibrate_emf, keys_calibrate_pH, keys_calibrate_pH_gran],
        keys.contains "analyte_mass" = false) keys hkeys
    · exact (by decide : ∀ keys ∈ [keys_read_dat, keys_totals_ks, keys_solve_emf, keys_solve_pH,
        keys_solve_pH_gran, keys_calibrate_emf, keys_calibrate_pH, keys_calibrate_pH_gran],
        keys.contains "analyte_volume" = false) keys hkeys

theorem load_resized {w : World} {k : ℝ} {f f' : String} {kw kw' : Dict Val}
    (h : Resized w k f f' kw kw') (S : Flt) :
    load w f' S kw' = (load w f S kw).map fun out => (out.1.scaled k, out.2) := by
  obtain ⟨h1, -, -, h2⟩ := h.same
  have key : full_name f kw = .error .TypeError ∧ full_name f' kw = .error .TypeError ∨
      ∃ p p', full_name f kw = .ok p ∧ full_name f' kw = .ok p' := by
    unfold full_name
    cases kw.get? "file_path" with
    | none => exact .inr ⟨_, _, rfl, rfl⟩
    | some v =>
      cases v with
      | str s => exact .inr ⟨_, _, rfl, rfl⟩
      | _ => exact .inl ⟨rfl, rfl⟩
  unfold load
  rw [h1, h2 keys_read_dat (by simp), h2 keys_totals_ks (by simp)]
  rcases key with ⟨e1, e2⟩ | ⟨p, p', e1, e2⟩
  · rw [e1, e2]; rfl
  · rw [e1, e2, bind_ok, bind_ok, h.read p p' _ e1 e2]
    cases w.readDat p (get_kwargs_for keys_read_dat kw none) with
    | error e => rfl
    | ok d =>
    simp only [bind_ok, Except.map, amount_units_resized h]
    cases amount_units d S (get_kwargs_for keys_cau kw none) with
    | error e => rfl
    | ok cv =>
    simp only [bind_ok, Except.map, totals_ks_scale h.pos]
    cases totals_ks w cv (get_kwargs_for keys_totals_ks kw none) with
    | error e => rfl
    | ok tk => rfl

/-- **C115**: solving the same titration done `k` times as large - `k` times the titrant amounts in the
file, `k` times the sample - gives the same result, in every mode and with every acid: the same
alkalinity, EMF0, spread, point estimates, points used, pH and warnings, the same optimiser result;
only the Gran function is `k` times as large.  It fails if and only if the original fails, in the same
way. -/
theorem C115_solve (w : World) (k : ℝ) (f f' : String) (kw kw' : Dict Val)
    (h : Resized w k f f' kw kw') (c S : Flt) :
    (∀ r, files_solve w f c S kw = .ok r → ∃ r', files_solve w f' c S kw' = .ok r' ∧
      match r, r' with
      | .emf sr T, .emf sr' T' => T' = T ∧ sr'.alkalinity = sr.alkalinity ∧ sr'.emf0 = sr.emf0 ∧
          sr'.used = sr.used ∧ sr'.pH = sr.pH ∧ sr'.alkalinity_std = sr.alkalinity_std ∧
          sr'.alkalinity_all = sr.alkalinity_all ∧ sr'.opt_result = sr.opt_result ∧
          sr'.ggr.ga.used = sr.ggr.ga.used ∧ sr'.ggr.ga.alkalinity = sr.ggr.ga.alkalinity ∧
          sr'.ggr.ga.warnFew = sr.ggr.ga.warnFew ∧ sr'.ggr.ga.warnR = sr.ggr.ga.warnR ∧
          sr'.ggr.emf0 = sr.ggr.emf0 ∧ sr'.ggr.emf0s = sr.ggr.emf0s ∧ sr'.ggr.pH = sr.ggr.pH ∧
          sr'.ggr.ga.gfunc = (sr.ggr.ga.gfunc.map fun y => fin k * y)
      | .pH sr p T, .pH sr' p' T' => sr' = sr ∧ p' = p ∧ T' = T
      | .pH_gran sr p T, .pH_gran sr' p' T' => p' = p ∧ T' = T ∧ sr'.alkalinity = sr.alkalinity ∧
          sr'.used = sr.used ∧ sr'.lr.rvalue = sr.lr.rvalue ∧
          sr'.gfunc = (sr.gfunc.map fun y => fin k * y)
      | _, _ => False) ∧
    ∀ e, files_solve w f c S kw = .error e → files_solve w f' c S kw' = .error e := by
  obtain ⟨-, h1, h2, h3⟩ := h.same
  have hd : ∀ mode cv totals ks, solve_dispatch w mode cv c totals ks kw'
      = solve_dispatch w mode cv c totals ks kw := by
    intro mode cv totals ks
    unfold solve_dispatch
    rw [h3 keys_solve_emf (by simp), h3 keys_solve_pH (by simp), h3 keys_solve_pH_gran (by simp)]
  have key : Parallel (SolveRes.SameRatio k) (files_solve w f c S kw) (files_solve w f' c S kw') := by
    unfold files_solve
    rw [load_resized h, h1, h2]
    refine Parallel.bind (R := fun a b => b = (a.1.scaled k, a.2)) ?_ ?_
    · cases load w f S kw with
      | error e => exact ⟨fun a ha => (by cases ha), fun e' he => by cases he; rfl⟩
      | ok out => exact ⟨fun a ha => by cases ha; exact ⟨_, rfl, rfl⟩, fun e he => (by cases he)⟩
    · rintro ⟨cv, totals, ks⟩ b rfl
      refine Parallel.bind_same _ fun tts => ?_
      simp only [show ∀ c p tts, add_titrant_totals (cv.scaled k).titrant_mass
        (cv.scaled k).analyte_mass c p tts = add_titrant_totals cv.titrant_mass cv.analyte_mass c p tts
        from fun c p tts => add_titrant_totals_scale h.pos _ _ c p tts, hd]
      exact Parallel.bind_same _ fun _ => Parallel.bind_same _ fun mode =>
        solve_dispatch_scale h.pos w mode cv c _ ks kw
  refine ⟨fun r hr => ?_, key.2⟩
  obtain ⟨r', hr', hR⟩ := key.1 r hr
  refine ⟨r', hr', ?_⟩
  cases r <;> cases r' <;> first | exact hR.elim | exact hR | skip
  · obtain ⟨⟨a1, a2, a3, a4, a5, a6, a7, b1, b2, b3, b4, b5, b6, b7, b8⟩, hT⟩ := hR
    exact ⟨hT, a1, a2, a3, a4, a5, a6, a7, b1, b2, b4, b5, b6, b7, b8, b3⟩
  · obtain ⟨⟨a1, a2, a3, a4⟩, hp, hT⟩ := hR
    exact ⟨hp, hT, a1, a2, a4, a3⟩

/-- **C115**: and calibrating with it finds the same molinity (the very same optimiser result). -/
theorem C115_calibrate (w : World) (k : ℝ) (f f' : String) (kw kw' : Dict Val)
    (h : Resized w k f f' kw kw') (A S : Flt) :
    files_calibrate w f' A S kw' = files_calibrate w f A S kw := by
  obtain ⟨-, h1, -, h3⟩ := h.same
  have hd : ∀ mode cv ks, calibrate_dispatch w mode cv A ks kw'
      = calibrate_dispatch w mode cv A ks kw := by
    intro mode cv ks
    unfold calibrate_dispatch
    rw [h3 keys_calibrate_emf (by simp), h3 keys_calibrate_pH (by simp),
      h3 keys_calibrate_pH_gran (by simp)]
  unfold files_calibrate
  rw [load_resized h, h1]
  cases load w f S kw with
  | error e => rfl
  | ok out =>
    simp only [Except.map, bind_ok, hd, calibrate_dispatch_scale h.pos]

/-! ### A case -/

/-- three times as much of the titration of C109 -/
noncomputable def pDataThrice (p q : ℝ) : DatData :=
  { pData p q with titrant_amount := (pData p q).titrant_amount.map fun x => fin 3 * x }

/-- the titration of C109 in one file, three times as much of it in another -/
noncomputable def sizeWorld (p q : ℝ) : World :=
  { keepWorld with readDat := fun name _ => .ok (if name = "b.dat" then pDataThrice p q else pData p q) }

theorem resized_case (p q : ℝ) : Resized (sizeWorld p q) 3 "a.dat" "b.dat" pArgs
    (pArgs.set "analyte_mass" (.num (fin 0.3))) where
  pos := by norm_num
  read := by
    intro a b opts ha hb
    obtain rfl : "a.dat" = a := Except.ok.inj ha
    obtain rfl : "b.dat" = b := Except.ok.inj hb
    rfl
  sample := .inl ⟨fin 0.1, by simp, rfl, by rw [mul_fin]; norm_num⟩

theorem size_original (p q : ℝ) (c : Flt) : files_solve (sizeWorld p q) "a.dat" c (fin 35) pArgs
    = files_solve (pWorld p q) "a.dat" c (fin 35) pArgs := by
  have e : full_name "a.dat" pArgs = .ok "a.dat" := rfl
  have hl : load (sizeWorld p q) "a.dat" (fin 35) pArgs = load (pWorld p q) "a.dat" (fin 35) pArgs := by
    unfold load
    rw [e]
    rfl
  unfold files_solve
  rw [hl]
  rfl

/-- C115 applies to it -/
example : ∃ (x : ℝ) (sr sr' : SolvePH) (p T p' T' : List Flt),
    files_solve (sizeWorld 3.8 3.2) "a.dat" (fin 0.1) (fin 35) pArgs = .ok (.pH sr p T) ∧
    sr.alkalinity = fin x ∧
    files_solve (sizeWorld 3.8 3.2) "b.dat" (fin 0.1) (fin 35)
      (pArgs.set "analyte_mass" (.num (fin 0.3))) = .ok (.pH sr' p' T') ∧ sr'.alkalinity = fin x := by
  obtain ⟨r, T, est, h, -, -, -, h'⟩ := C109_estimates (pWorld 3.8 3.2) "a.dat" (fin 35) pArgs
    pContents pConstants 0.1 2 1 3 4 0.1 [0.001, 0.002] [3.8, 3.2] (p_run 3.8 3.2)
    ⟨3.2, by simp, by norm_num⟩
  rw [← size_original] at h
  obtain ⟨r', hr', hR⟩ := (C115_solve _ _ _ _ _ _ (resized_case 3.8 3.2) (fin 0.1) (fin 35)).1 _ h
  cases r' with
  | emf => exact hR.elim
  | pH_gran => exact hR.elim
  | pH sr' p' T' => exact ⟨_, r, sr', _, _, p', T', h, h', hr', by rw [hR.1, h']⟩

end Calk
