import Verif.Props.AdjustCalibrate

/-!
# Property C140: a case

The file of pH values of C117, whose electrode is 10 mV off, calibrated in `ph_adjust` mode; alone, and as the
reference of a data set.
-/

namespace Calk
open Flt Spec

noncomputable def acWorld : World := { adjWorld with opt := lsqAt qAcid }

def acNames : List String := "solve_mode" :: deNames

theorem ac_keys : adjArgs.keys = acNames := rfl

noncomputable def acArgs : Dict Val := adjArgs ++ [("opt_total_borate", .num (fin 1))]

noncomputable def acRow (cert : Flt) : Row := cellRow adjArgs cert

def acCols : List String := ["file_name", "salinity", "alkalinity_certified"] ++ acNames

theorem ac_not_null : ∀ kv ∈ adjArgs, kv.2.isNull = false := by
  intro kv hkv
  simp only [adjArgs, qArgs, List.mem_append, List.mem_cons, List.not_mem_nil, or_false, List.mem_map] at hkv
  rcases hkv with rfl | ((rfl | rfl | rfl | rfl) | ⟨k, -, rfl⟩) | ⟨k, -, rfl⟩ <;> rfl

theorem ac_run0 : AdjustRun acWorld "a.dat" (fin 35) adjArgs pContents qConstants qAcid 1 0 0.1 adjPts :=
  let h := adj_run
  { loads := h.loads, keepsTotals := h.keepsTotals, keepsKs := h.keepsKs, sound := h.sound, nodup := h.nodup,
    mode := h.mode, sample := h.sample, sulfate := h.sulfate, no_phosphate := h.no_phosphate,
    no_fluoride := h.no_fluoride, normality := h.normality, mass := h.mass, masses := h.masses,
    temps := h.temps, acid := h.acid }

theorem ac_solve_settings (w : World) (cert : Flt) : SettingsOf keys_solve w [] acCols (acRow cert) acArgs :=
  cell_settings w cert adjArgs ac_run0.nodup ac_not_null (by rw [ac_keys]; decide)
    (by rw [ac_keys]; decide) (by rw [ac_keys]; decide) (by rw [ac_keys]; decide) keys_solve (by decide)
    (by decide)

theorem ac_cal_settings (w : World) (cert : Flt) : SettingsOf keys_calibrate w [] acCols (acRow cert) acArgs :=
  cell_settings w cert adjArgs ac_run0.nodup ac_not_null (by rw [ac_keys]; decide)
    (by rw [ac_keys]; decide) (by rw [ac_keys]; decide) (by rw [ac_keys]; decide) keys_calibrate (by decide)
    (by decide)

theorem ac_load : load acWorld "a.dat" (fin 35) acArgs = load acWorld "a.dat" (fin 35) adjArgs := by
  with_unfolding_all rfl

theorem ac_same (c : Flt) : files_solve acWorld "a.dat" c (fin 35) acArgs
    = files_solve acWorld "a.dat" c (fin 35) adjArgs := by
  unfold files_solve
  rw [ac_load]
  rfl

theorem ac_byName : ByName acWorld := fun _ _ _ _ => rfl

theorem ac_run : AdjustRun acWorld "a.dat" (fin 35) acArgs pContents qConstants qAcid 1 0 0.1 adjPts :=
  let h := ac_run0
  have hget : ∀ k ∈ acNames, acArgs.get? k = adjArgs.get? k := by
    intro k hk
    unfold acArgs
    rw [Dict.get?_append]
    cases h : adjArgs.get? k with
    | some v => rfl
    | none => exact absurd hk ((Dict.get?_eq_none_iff _ _).mp h)
  { loads := by rw [ac_load]; exact h.loads
    keepsTotals := h.keepsTotals, keepsKs := h.keepsKs, sound := h.sound
    nodup := (ac_solve_settings acWorld nan).1
    mode := h.mode
    sample :=
      { contents := fun k hk => by
          rw [hget k (List.mem_cons_of_mem _ (List.mem_append_left _ (List.mem_append_right _ hk)))]
          exact h.sample.contents k hk
        constants := fun k hk => by
          rw [hget k (List.mem_cons_of_mem _ (List.mem_append_right _ hk))]; exact h.sample.constants k hk
        scale := h.sample.scale }
    sulfate := h.sulfate, no_phosphate := rfl, no_fluoride := rfl, normality := h.normality
    mass := h.mass, masses := h.masses, temps := h.temps, acid := h.acid }

/-- the points as potentials of an electrode of EMF0 zero -/
noncomputable def acPoint1 : ℝ × ℝ × ℝ := (0.001, nernst (-10) 25 2e-4, 25)

noncomputable def acPoint2 : ℝ × ℝ × ℝ := (0.002, nernst (-10) 25 9e-4, 25)

theorem ac_points : adjPts.map zeroEmf = [acPoint1, acPoint2] := adj_zero

theorem ac_read1 : readAcidity (-10) acPoint1 = 2e-4 := read_nernst _ (by norm_num) (by norm_num)

theorem ac_read2 : readAcidity (-10) acPoint2 = 9e-4 := read_nernst _ (by norm_num) (by norm_num)

theorem ac_read {p : ℝ × ℝ × ℝ} (hp : p ∈ adjPts) : readAcidity (-10) (zeroEmf p) = correctedAcidity (-10) p :=
  read_zeroEmf _ _ (adj_run.temps p hp)

theorem ac_balance : ∀ p ∈ adjPts, p.2.2 = 25 ∧
    (mixture pContents qConstants p.1 0.1 qAcid 0).alk 3 (correctedAcidity (-10) p) * (p.1 + 0.1)
      = qTrue * 0.1 - p.1 * qAcid * 1 := by
  intro p hp
  have hz : zeroEmf p ∈ qPts (-10) := by rw [← adj_zero]; exact List.mem_map.mpr ⟨p, hp, rfl⟩
  have h3 := (q_exact (-10) _ hz).2.2
  rw [read_zeroEmf _ _ (adj_run.temps p hp)] at h3
  refine ⟨?_, h3⟩
  simp only [adjPts, List.mem_cons, List.not_mem_nil, or_false] at hp
  rcases hp with rfl | rfl <;> rfl

/-- solving the file with the true molinity, whatever the order of its settings -/
theorem ac_solved {st : Dict Val} (hn : st.keys.Nodup) (hs : SameGet acArgs st) :
    ∃ sr T, files_solve acWorld "a.dat" (fin qAcid) (fin 35) st = .ok (.emf sr T) ∧
      sr.opt_result.x = (fin qTrue, fin (-10)) ∧ sr.used = [true, true] ∧ sr.alkalinity = fin (1e6 * qTrue) := by
  obtain ⟨sr, h, hx, hu⟩ := adj_solve
  have h' : files_solve acWorld "a.dat" (fin qAcid) (fin 35) adjArgs = _ := h
  have h'' := h'
  rw [ac_run0.same] at h''
  obtain ⟨sr', he, hrep⟩ := C112_estimates _ "a.dat" (fin 35) _ pContents qConstants qAcid 1 0 0.1
    _ ac_run0.emf _ h''
  cases he
  refine ⟨sr, _, files_solve_alike ac_byName (ac_solve_settings acWorld nan).1 hn
    ⟨fun k _ _ => hs k, fun k _ _ => argNotNull_of_get (hs k)⟩ ((ac_same _).trans h'), hx, hu,
    (hrep _ _ hx (by rw [hu]; simp)).1⟩

theorem ac_excess : 6.5e-5 ≤ acidExcess pContents qConstants qAcid 0 0.1 (-10) 2e-4 acPoint1 acPoint2 := by
  unfold acidExcess
  rw [ac_read1, ac_read2]
  show _ ≤ (0.002 + 0.1) * 9e-4
    - (1 + (mixture pContents qConstants 0.001 0.1 qAcid 0).buffering 2e-4) * ((0.001 + 0.1) * 2e-4)
  have := de_buffer
  nlinarith

theorem ac_apart {sr : SolveEmf} (hx : sr.opt_result.x = (fin qTrue, fin (-10))) (hu : sr.used = [true, true]) :
    ToldApart pContents qConstants qAcid 0 (-10) 0.1 (adjPts.map zeroEmf) sr 1 2e-4 acPoint1 acPoint2 := by
  have hm : mask sr.used (adjPts.map zeroEmf) = [acPoint1, acPoint2] := by rw [hu, ac_points]; rfl
  have := ac_excess
  refine ⟨by norm_num, ?_, by rw [hm]; simp, by rw [hm]; simp, ⟨_, _, hx, ac_read1.ge⟩, by rw [one_mul]; linarith⟩
  intro y hy
  rw [hm] at hy
  simp only [List.mem_cons, List.not_mem_nil, or_false] at hy
  rw [one_mul]
  rcases hy with rfl | rfl
  · exact ⟨ac_read1.ge, ac_read1.ge⟩
  · rw [ac_read2]; norm_num

theorem ac_small : (0.001 + 0.1) * ((1 + Real.sqrt 2) * 1.2e-4)
      * (1 + (1 + (mixture pContents qConstants 0.001 0.1 qAcid 0).buffering 2e-4) * 2e-4
        * (((0.001 + 0.1) + (0.002 + 0.1))
          / acidExcess pContents qConstants qAcid 0 0.1 (-10) 2e-4 acPoint1 acPoint2)) < qTrue * 0.1 := by
  refine lt_of_le_of_lt ?_ (lt_of_lt_of_le (by norm_num : (5.3e-5 : ℝ) < 5.4e-5) ec_true)
  have hs2 : Real.sqrt 2 ≤ 1.4143 := by
    rw [Real.sqrt_le_left (by norm_num)]; norm_num
  have hb := de_buffer
  have hex := ac_excess
  have b0 := (q_buffer (m := 0.001) (lo := 2e-4) (.inl rfl) (by norm_num)).1
  calc _ ≤ ((0.001 : ℝ) + 0.1) * ((1 + 1.4143) * 1.2e-4) * (1 + (1 + 0.26) * 2e-4 * (((0.001 + 0.1) + (0.002 + 0.1))
        / 6.5e-5)) := by gcongr
    _ ≤ (5.3e-5 : ℝ) := by norm_num

theorem ac_exact (cert : Flt) : ExactAdjust acWorld [] acCols (acRow cert) qTrue qAcid (-10) "a.dat" (fin 35)
    pContents qConstants 1 0 0.1 25 adjPts where
  file := cell_file adjArgs cert (by rw [ac_keys]; decide)
  run := ⟨acArgs, ac_solve_settings _ cert, ac_run⟩
  positive := de_acid
  balance := ac_balance

theorem ac_solvable (cert : Flt) : SolvableEmf acWorld [] acCols (acRow cert) qAcid (-10) "a.dat" (fin 35)
    pContents qConstants 0 0.1 (adjPts.map zeroEmf) := by
  intro st hst
  obtain ⟨sr, T, h, hx, hu, -⟩ := ac_solved hst.1 ((ac_solve_settings acWorld cert).same hst)
  exact ⟨sr, T, 2e-4, acPoint1, acPoint2, h, ac_apart hx hu⟩

theorem ac_calibrate (cert : Flt) {st : Dict Val}
    (hst : SettingsOf keys_calibrate acWorld [] acCols (acRow cert) st) :
    files_calibrate acWorld "a.dat" (fin (1e6 * qTrue)) (fin 35) st = .ok ⟨fin qAcid, [fin 0]⟩ := by
  have hsame := (ac_cal_settings acWorld cert).same hst
  have hag := (ac_cal_settings acWorld cert).agree hst calibrate_keys calibrate_keys
  obtain ⟨sr, T, h, hx, hu, ha⟩ := ac_solved hst.1 hsame
  obtain ⟨totals, ks, hl⟩ := adj_load
  obtain ⟨cv, hcv⟩ : ∃ cv : Converted, cv = { qCv 0 with measurement := adjPts.map fun p : ℝ × ℝ × ℝ => fin p.2.1 } := ⟨_, rfl⟩
  rw [← hcv] at hl
  have hl' : load acWorld "a.dat" (fin 35) st = .ok (cv, totals, ks) := by
    rw [← hag.load ac_byName, ac_load]; exact hl
  have htt : titrant_totals st = .ok [] := by
    have : st.filter (fun kv => keys_titrant_totals.contains kv.1) = [] := by
      rw [List.filter_eq_nil_iff]
      intro kv hkv hc
      have hg := Dict.mem_get? hst.1 hkv
      rw [← hsame] at hg
      have : kv.1 ∈ keys_titrant_totals := by simpa using hc
      simp only [keys_titrant_totals, List.mem_cons, List.not_mem_nil, or_false] at this
      rcases this with e | e | e <;> (rw [e] at hg; cases hg)
    unfold titrant_totals
    rw [this]; rfl
  have htyped : Typed st "ph_adjust" (fin 0.1) (ttArgs []) := by
    refine ⟨?_, ?_, htt, ?_⟩
    · unfold solve_mode argVal
      rw [← hsame "solve_mode"]
      have : acArgs.get? "solve_mode" = some (.str "pH_adjust") := rfl
      rw [this]
      decide
    · rw [← hsame.argNum]; rfl
    · rw [← emf_opts_congr hsame]; exact ⟨_, rfl⟩
  have hgl : st.get? "gran_logic" = none := by rw [← hsame]; rfl
  have hc := C32_same_solver acWorld "a.dat" "ph_adjust" (fin (1e6 * qTrue)) (fin 35) (fin 0.1) st
    cv totals ks hl' htyped hgl (by decide) (by rw [hcv]; rfl)
  have hs : solveRes acWorld "a.dat" (fin 35) (fin (1e6 * qTrue)) st (fin qAcid) () = (.ok [fin 0], ()) := by
    simp only [solveRes, h, bind_ok, pure_ok, SolveRes.alkalinity, ha, sub_fin, PyS.lift, sub_self]
  rw [hc]
  show ((lsqAt qAcid).run (solveRes acWorld "a.dat" (fin 35) (fin (1e6 * qTrue)) st) (fin 0.1) ()).1 = _
  simp [Lsq.run, Lsq.loop, lsqAt, allFinite, PyS.bind_apply, hs]

theorem ac_len : ((adjPts.map zeroEmf).length : ℝ) = 2 := by
  rw [ac_points]; norm_num

theorem ac_calibratable : CalibratableEmf acWorld [] acCols (acRow (fin (1e6 * qTrue))) qTrue qAcid (-10) "a.dat"
    (fin 35) pContents qConstants 0 0.1 (adjPts.map zeroEmf) where
  certified := rfl
  typed := ⟨acArgs, ac_cal_settings _ _, ⟨_, rfl⟩, ⟨_, rfl⟩⟩
  zero st hst res hres := by
    rw [ac_calibrate _ hst] at hres
    rw [← Except.ok.inj hres]
    refine ⟨rfl, qAcid, rfl, de_acid, fun sr T h => ?_⟩
    obtain ⟨sr', T', h', hx, hu, -⟩ := ac_solved hst.1 ((ac_cal_settings acWorld _).same hst)
    rw [h'] at h
    cases h
    have hm : mask sr.used (adjPts.map zeroEmf) = adjPts.map zeroEmf := by rw [hu]; rfl
    rw [div_self de_acid.ne']
    refine ⟨2e-4, 1.2e-4, acPoint1, acPoint2, ac_apart hx hu, by rw [hm, adj_zero]; exact ec_leftover_at _, ?_⟩
    rw [hm, ac_read1, ac_len]
    exact ac_small

/-- every hypothesis of `C140_recovers` is met -/
example : ∃ (res : LsqResult Flt) (sr : SolveEmf) (T : List Flt),
    files_calibrate acWorld "a.dat" (fin (1e6 * qTrue)) (fin 35) acArgs = .ok res ∧ res.x = fin qAcid ∧
    files_solve acWorld "a.dat" (fin qAcid) (fin 35) acArgs = .ok (.emf sr T) ∧
    sr.alkalinity = fin (1e6 * qTrue) ∧ sr.emf0 = fin (-10) := by
  have hst := ac_cal_settings acWorld (fin (1e6 * qTrue))
  obtain ⟨sr, T, h, hx, hu, -⟩ := ac_solved hst.1 (hst.same hst)
  have hm : mask sr.used adjPts = adjPts := by rw [hu]; rfl
  have hread : ∀ p ∈ adjPts, 2e-4 ≤ correctedAcidity (-10) p := by
    intro p hp
    have hz : zeroEmf p ∈ [acPoint1, acPoint2] := by rw [← ac_points]; exact List.mem_map.mpr ⟨p, hp, rfl⟩
    rw [← ac_read hp]
    simp only [List.mem_cons, List.not_mem_nil, or_false] at hz
    rcases hz with e | e
    · rw [e, ac_read1]
    · rw [e, ac_read2]; norm_num
  obtain ⟨p, q, hpq⟩ : ∃ p q, adjPts = [p, q] := ⟨_, _, rfl⟩
  have hz := ac_points
  rw [hpq] at hz
  simp only [List.map_cons, List.map_nil, List.cons.injEq, and_true] at hz
  have hp : p ∈ adjPts := by rw [hpq]; simp
  have hq : q ∈ adjPts := by rw [hpq]; simp
  have e1 : correctedAcidity (-10) p = 2e-4 := by
    rw [← ac_read hp, hz.1, ac_read1]
  have p1 : p.1 = 0.001 := by
    show (zeroEmf p).1 = _
    rw [hz.1]; rfl
  have q1 : q.1 = 0.002 := by
    show (zeroEmf q).1 = _
    rw [hz.2]; rfl
  obtain ⟨-, r1, r2⟩ := C140_recovers acWorld "a.dat" (fin 35) acArgs pContents qConstants qAcid qAcid 1 0 0.1
    adjPts ac_run de_acid de_acid (lsAt_contracts _).2 (lsqAt_reports _) (lsqAt_finite _) qTrue (-10) 25 2e-4 1.2e-4
    ⟨_, rfl⟩ ⟨_, rfl⟩ rfl _ (ac_calibrate _ hst) rfl rfl sr T h _ _ hx (by norm_num)
    (by
      rw [hm, div_self de_acid.ne']
      intro y hy
      rw [one_mul]
      exact ⟨(ac_balance y hy).1, hread y hy, hread y hy, (ac_balance y hy).2⟩)
    (by
      rw [hm, div_self de_acid.ne']
      intro y hy
      refine ec_leftover_at (-10) _ ?_
      rw [← adj_zero]
      exact List.mem_map_of_mem hy)
    p q (by rw [hm]; exact hp) (by rw [hm]; exact hq) e1.ge
    (by rw [hz.1, hz.2]; have := ac_excess; linarith)
    (by
      have hlen : (adjPts.length : ℝ) = 2 := by rw [hpq]; norm_num
      rw [hm, hlen, e1, hz.1, hz.2, p1, q1]
      exact ac_small)
  exact ⟨_, sr, T, ac_calibrate _ hst, rfl, h, r1, r2⟩

/-- every hypothesis of `C140_dataset` is met: the sample, which has no certified value, gets the molinity
found with the reference and its true alkalinity and the error of the electrode -/
example : ∃ (df' : DF) (r1 r2 : Row),
    dataset_calibrate acWorld [] ⟨acCols, [acRow (fin (1e6 * qTrue)), acRow nan]⟩ = (.ok (), df') ∧
    df'.rows = [r1, r2] ∧ r2 "titrant_molinity" = .num (fin qAcid) ∧
    r2 "alkalinity" = .num (fin (1e6 * qTrue)) ∧ r2 "emf0" = .num (fin (-10)) ∧
    r1 "alkalinity_offset" = .num (fin 0) := by
  obtain ⟨df', r1, r2, h, hr, hb, h1, h2⟩ := cell_frame acWorld adjArgs qTrue qAcid
    (by rw [ac_keys]; decide) (by rw [ac_keys]; decide) (by rw [ac_keys]; decide)
    (by rw [ac_keys]; decide) (by rw [ac_keys]; decide)
    (fun st hst => ac_calibrate _ hst)
  have hmain := C140_dataset acWorld ac_byName (lsAt_contracts _).2 (lsqAt_reports _) (lsqAt_finite _) [] _ df'
    (by decide) h (fun r hr => by rw [hb r hr]; exact .inr ⟨_, rfl, by simp⟩) (fun _ => qAcid)
  rw [hr] at hmain hb
  simp only [List.forall₂_cons, List.Forall₂.nil, and_true] at hmain
  obtain ⟨g1, g2⟩ := hmain ⟨fun _ => ⟨qTrue, .adjust (ac_exact _) ac_calibratable⟩, fun hi => absurd hi h2⟩
  have hq : ∀ r ∈ [r1, r2], ∃ q ∈ [r1, r2], IsReference q ∧ q "analysis_batch" = r "analysis_batch" :=
    fun r hr => ⟨r1, by simp, h1, by rw [hb r1 (by simp), hb r hr]⟩
  have g1 := (g1 (hq r1 (by simp))).2 _ _ (.adjust (ac_exact _) (ac_solvable _))
  have g2 := g2 (hq r2 (by simp))
  have g3 := g2.2 _ _ (.adjust (ac_exact _) (ac_solvable _))
  exact ⟨df', r1, r2, h, hr, g2.1, g3.1, g3.2.1 _ rfl, g1.2.2 rfl⟩

end Calk
