import Verif.Lemmas.FileOrder
import Verif.Props.FileGran
import Verif.Props.FileEmf
import Verif.Props.DensityFormula
import Verif.Props.EmfCalibrate

/-! # C139: the order of the lines of a titration file

The functions of `files.py` for two files that hold the same lines in different orders. -/

namespace Calk

open Flt

/-- Two files with the same lines: line `i` of the second is line `idx[i]` of the first.  The analyte mass does not
depend on the order (`Spec.SameMass`). -/
structure Spec.Reordered (w : World) (f f' : String) (kw : Dict Val) (idx : List ℕ) (dd : DatData) : Prop where
  perm : idx.Perm (List.range dd.measurement.length)
  amounts : dd.titrant_amount.length = dd.measurement.length
  temperatures : dd.temperature.length = dd.measurement.length
  first : ∃ p, full_name f kw = .ok p ∧ w.readDat p (get_kwargs_for keys_read_dat kw none) = .ok dd
  second : ∃ p, full_name f' kw = .ok p ∧ w.readDat p (get_kwargs_for keys_read_dat kw none)
    = .ok ⟨pick nan idx dd.titrant_amount, pick nan idx dd.measurement, pick nan idx dd.temperature,
      dd.temperature_int⟩
  mass : Spec.SameMass kw dd ⟨pick nan idx dd.titrant_amount, pick nan idx dd.measurement,
    pick nan idx dd.temperature, dd.temperature_int⟩

/-! ## Loading -/

theorem load_pick {w : World} (hw : Spec.PointByPoint w) {f f' : String} {kw : Dict Val} {idx : List ℕ} {dd : DatData}
    (hr : Spec.Reordered w f f' kw idx dd) (hn : 2 ≤ dd.measurement.length) {S : Flt} {cv : Converted}
    {totals ks : Dict NpVal} (h : load w f S kw = .ok (cv, totals, ks)) :
    load w f' S kw = .ok (cv.reorder idx, reindexD idx totals, reindexD idx ks) ∧
      cv.titrant_mass.length = dd.measurement.length ∧ cv.measurement = dd.measurement ∧
      cv.temperature.length = dd.measurement.length ∧
      dictFits dd.measurement.length totals = true ∧ dictFits dd.measurement.length ks = true := by
  obtain ⟨p, p1, p2⟩ := hr.first
  obtain ⟨q, q1, q2⟩ := hr.second
  simp only [load, p1, p2, bind_ok, bind_ok_iff] at h
  obtain ⟨cv', h1, ⟨t', k'⟩, h2, h⟩ := h
  simp only [pure_ok, Except.ok.injEq, Prod.mk.injEq] at h
  obtain ⟨rfl, rfl, rfl⟩ := h
  obtain ⟨e1, l1, l2, l3⟩ := amount_units_pick hr.perm hr.amounts hr.temperatures (SameMass_kwargs hr.mass) h1
  obtain ⟨e2, f2, f3⟩ := totals_ks_pick (idx := idx) hw (by rw [l3]; exact hr.perm) (by rw [l3]; exact hn) (by rw [l1, l3]) h2
  rw [l3] at f2 f3
  refine ⟨?_, l1, l2, l3, f2, f3⟩
  have e1' : amount_units ⟨pick nan idx dd.titrant_amount, pick nan idx dd.measurement, pick nan idx dd.temperature,
      dd.temperature_int⟩ S (get_kwargs_for keys_cau kw none) = .ok (cv'.reorder idx) := e1
  simp only [load, q1, q2, bind_ok, e1', e2, pure_ok]

theorem load_short {w : World} {f f' : String} {kw : Dict Val} {idx : List ℕ} {dd : DatData}
    (hr : Spec.Reordered w f f' kw idx dd) (hn : dd.measurement.length ≤ 1) (S : Flt) :
    load w f' S kw = load w f S kw := by
  obtain ⟨p, p1, p2⟩ := hr.first
  obtain ⟨q, q1, q2⟩ := hr.second
  rw [pick_short nan hr.perm hn hr.amounts, pick_short nan hr.perm hn rfl,
    pick_short nan hr.perm hn hr.temperatures] at q2
  simp only [load, p1, p2, q1, q2, bind_ok]

theorem load_lengths {w : World} {f f' : String} {kw : Dict Val} {idx : List ℕ} {dd : DatData}
    (hr : Spec.Reordered w f f' kw idx dd) {S : Flt} {cv : Converted}
    {totals ks : Dict NpVal} (h : load w f S kw = .ok (cv, totals, ks)) :
    cv.measurement.length = dd.measurement.length ∧ cv.temperature.length = dd.measurement.length := by
  obtain ⟨p, p1, p2⟩ := hr.first
  simp only [load, p1, p2, bind_ok, bind_ok_iff] at h
  obtain ⟨cv', h1, ⟨t', k'⟩, h2, h⟩ := h
  simp only [pure_ok, Except.ok.injEq, Prod.mk.injEq] at h
  obtain ⟨rfl, rfl, rfl⟩ := h
  obtain ⟨-, -, l2, l3⟩ := amount_units_pick hr.perm hr.amounts hr.temperatures (SameMass_kwargs hr.mass) h1
  exact ⟨by rw [l2], l3⟩

theorem files_solve_parts {w : World} {f : String} {c S : Flt} {kw : Dict Val} {res : SolveRes} :
    files_solve w f c S kw = .ok res ↔ ∃ cv totals ks tts totals' mode,
      load w f S kw = .ok (cv, totals, ks) ∧ titrant_totals kw = .ok tts ∧
      add_titrant_totals cv.titrant_mass cv.analyte_mass c (fin 0) tts totals = (.ok (), totals') ∧
      solve_mode kw = .ok mode ∧ solve_dispatch w mode cv c totals' ks kw = .ok res := by
  simp only [files_solve, bind_ok_iff]
  constructor
  · rintro ⟨⟨cv, totals, ks⟩, h1, tts, h2, ⟨⟩, h3, mode, h4, h5⟩
    refine ⟨cv, totals, ks, tts, _, mode, h1, h2, ?_, h4, h5⟩
    simp only at h3
    rw [← h3]
  · rintro ⟨cv, totals, ks, tts, totals', mode, h1, h2, h3, h4, h5⟩
    refine ⟨⟨cv, totals, ks⟩, h1, tts, h2, (), ?_, mode, h4, ?_⟩
    · simp only [h3]
    · simp only [h3]; exact h5

/-- everything before the solver is called, for the second file -/
theorem solve_pick {w : World} (hw : Spec.PointByPoint w) {f f' : String} {kw : Dict Val} {idx : List ℕ}
    {dd : DatData} (hr : Spec.Reordered w f f' kw idx dd) (hn : 2 ≤ dd.measurement.length) {c S : Flt} {res : SolveRes}
    (h : files_solve w f c S kw = .ok res) : ∃ cv totals ks mode, solve_mode kw = .ok mode ∧
      cv.titrant_mass.length = dd.measurement.length ∧ cv.measurement = dd.measurement ∧
      cv.temperature.length = dd.measurement.length ∧
      solve_dispatch w mode cv c totals ks kw = .ok res ∧
      files_solve w f' c S kw
        = solve_dispatch w mode (cv.reorder idx) c (reindexD idx totals) (reindexD idx ks) kw := by
  obtain ⟨cv, totals, ks, tts, totals', mode, h1, h2, h3, h4, h5⟩ := files_solve_parts.mp h
  obtain ⟨e1, l1, l2, l3, -, -⟩ := load_pick hw hr hn h1
  refine ⟨cv, totals', ks, mode, h4, l1, l2, l3, h5, ?_⟩
  have e3 := add_titrant_pick (idx := idx) (by rw [l1]; exact hr.perm) (by rw [l1]; exact hn) _ _ _ _ _ _ h3
  have e3' : add_titrant_totals (cv.reorder idx).titrant_mass (cv.reorder idx).analyte_mass c (fin 0) tts
      (reindexD idx totals) = (.ok (), reindexD idx totals') := e3
  simp only [files_solve, e1, h2, h4, bind_ok, e3']

theorem solve_short {w : World} {f f' : String} {kw : Dict Val} {idx : List ℕ} {dd : DatData}
    (hr : Spec.Reordered w f f' kw idx dd) (hn : dd.measurement.length ≤ 1) (c S : Flt) :
    files_solve w f' c S kw = files_solve w f c S kw := by
  simp only [files_solve, load_short hr hn]

/-! ## pH data -/

/-- C139 (pH mode): two files with the same lines in different orders give the same alkalinity and standard
deviation; the pH values and temperatures reported go with the lines. -/
theorem C139_pH (w : World) (hw : Spec.PointByPoint w) (f f' : String) (c S : Flt) (kw : Dict Val) (idx : List ℕ)
    (dd : DatData) (hr : Spec.Reordered w f f' kw idx dd) (r : SolvePH) (pH T : List Flt)
    (h : files_solve w f c S kw = .ok (.pH r pH T)) :
    ∃ r', files_solve w f' c S kw = .ok (.pH r' (pick nan idx pH) (pick nan idx T)) ∧
      r'.alkalinity = r.alkalinity ∧ r'.alkalinity_std = r.alkalinity_std := by
  by_cases hn : 2 ≤ dd.measurement.length
  · obtain ⟨cv, totals, ks, mode, hm, l1, l2, l3, hd, he⟩ := solve_pick hw hr hn h
    rw [he]
    unfold solve_dispatch at hd ⊢
    split at hd
    · simp only [bind_ok_iff] at hd; obtain ⟨_, -, _, -, hd⟩ := hd; cases Except.ok.inj hd
    · rename_i h1
      split at hd
      · simp only [bind_ok_iff] at hd; obtain ⟨_, -, _, -, _, -, hd⟩ := hd; cases Except.ok.inj hd
      · rename_i h2
        split at hd
        · rename_i h3
          rw [if_neg h1, if_neg h2, if_pos h3]
          simp only [bind_ok_iff] at hd
          obtain ⟨o, ho, sr, hs, hd⟩ := hd
          cases Except.ok.inj hd
          obtain ⟨r', e1, e2, e3⟩ := C15_order c _ cv.titrant_mass cv.measurement _ _ _ r idx (by rw [l2]; exact hr.perm) hs
          refine ⟨r', ?_, e2, e3⟩
          rw [ho, bind_ok]
          show (solve_pH c (pick nan idx cv.titrant_mass) (pick nan idx cv.measurement) cv.analyte_mass _ _ o >>= _) = _
          rw [e1]
          rfl
        · split at hd
          · simp only [bind_ok_iff] at hd; obtain ⟨_, -, _, -, hd⟩ := hd; cases Except.ok.inj hd
          · cases hd
  · have hn' : dd.measurement.length ≤ 1 := by omega
    obtain ⟨cv, totals, ks, tts, totals', mode, h1, h2, h3, h4, h5⟩ := files_solve_parts.mp h
    obtain ⟨l1, l2⟩ := load_lengths hr h1
    refine ⟨r, ?_, rfl, rfl⟩
    rw [solve_short hr hn', h]
    unfold solve_dispatch at h5
    split at h5
    · simp only [bind_ok_iff] at h5; obtain ⟨_, -, _, -, h5⟩ := h5; cases Except.ok.inj h5
    · split at h5
      · simp only [bind_ok_iff] at h5; obtain ⟨_, -, _, -, _, -, h5⟩ := h5; cases Except.ok.inj h5
      · split at h5
        · simp only [bind_ok_iff] at h5
          obtain ⟨_, -, _, -, h5⟩ := h5
          cases Except.ok.inj h5
          rw [pick_short nan hr.perm hn' l1, pick_short nan hr.perm hn' l2]
        · split at h5
          · simp only [bind_ok_iff] at h5; obtain ⟨_, -, _, -, h5⟩ := h5; cases Except.ok.inj h5
          · cases h5

/-- C139 (Gran mode): likewise for the alkalinity and the fitted line. -/
theorem C139_gran (w : World) (hw : Spec.PointByPoint w) (f f' : String) (c S : Flt) (kw : Dict Val) (idx : List ℕ)
    (dd : DatData) (hr : Spec.Reordered w f f' kw idx dd) (r : SolvePHGran) (pH T : List Flt)
    (h : files_solve w f c S kw = .ok (.pH_gran r pH T)) :
    ∃ r', files_solve w f' c S kw = .ok (.pH_gran r' (pick nan idx pH) (pick nan idx T)) ∧
      r'.alkalinity = r.alkalinity ∧ r'.lr = r.lr := by
  by_cases hn : 2 ≤ dd.measurement.length
  · obtain ⟨cv, totals, ks, mode, hm, l1, l2, l3, hd, he⟩ := solve_pick hw hr hn h
    rw [he]
    unfold solve_dispatch at hd ⊢
    split at hd
    · simp only [bind_ok_iff] at hd; obtain ⟨_, -, _, -, hd⟩ := hd; cases Except.ok.inj hd
    · rename_i h1
      split at hd
      · simp only [bind_ok_iff] at hd; obtain ⟨_, -, _, -, _, -, hd⟩ := hd; cases Except.ok.inj hd
      · rename_i h2
        split at hd
        · simp only [bind_ok_iff] at hd; obtain ⟨_, -, _, -, hd⟩ := hd; cases Except.ok.inj hd
        · rename_i h3
          split at hd
          · rename_i h4
            rw [if_neg h1, if_neg h2, if_neg h3, if_pos h4]
            simp only [bind_ok_iff] at hd
            obtain ⟨o, ho, sr, hs, hd⟩ := hd
            cases Except.ok.inj hd
            obtain ⟨r', e1, e2, e3, -⟩ := C138_gran_mode idx c _ cv.titrant_mass cv.measurement _ r (by rw [l2]; exact hr.perm) hs
            refine ⟨r', ?_, e2, e3⟩
            rw [ho, bind_ok]
            show (solve_pH_gran c (pick nan idx cv.titrant_mass) (pick nan idx cv.measurement) cv.analyte_mass o
              >>= _) = _
            rw [e1]
            rfl
          · cases hd
  · have hn' : dd.measurement.length ≤ 1 := by omega
    obtain ⟨cv, totals, ks, tts, totals', mode, h1, h2, h3, h4, h5⟩ := files_solve_parts.mp h
    obtain ⟨l1, l2⟩ := load_lengths hr h1
    refine ⟨r, ?_, rfl, rfl⟩
    rw [solve_short hr hn', h]
    unfold solve_dispatch at h5
    split at h5
    · simp only [bind_ok_iff] at h5; obtain ⟨_, -, _, -, h5⟩ := h5; cases Except.ok.inj h5
    · split at h5
      · simp only [bind_ok_iff] at h5; obtain ⟨_, -, _, -, _, -, h5⟩ := h5; cases Except.ok.inj h5
      · split at h5
        · simp only [bind_ok_iff] at h5; obtain ⟨_, -, _, -, h5⟩ := h5; cases Except.ok.inj h5
        · split at h5
          · simp only [bind_ok_iff] at h5
            obtain ⟨_, -, _, -, h5⟩ := h5
            cases Except.ok.inj h5
            rw [pick_short nan hr.perm hn' l1, pick_short nan hr.perm hn' l2]
          · cases h5

/-! ## EMF data -/

/-- the start of the EMF solver does not come from the default Gran estimate: legacy logic, or both start values given
(`pH_adjust` mode sets the second one itself) -/
def Spec.StartGiven (kw : Dict Val) : Prop :=
  kw.get? "gran_logic" = some (.str "legacy") ∨
  ((kw.get? "gran_logic" = none ∨ kw.get? "gran_logic" = some (.str "v23.7+")) ∧
    (∃ x, kw.get? "alkalinity_init" = some (.num x)) ∧
    ((∃ x, kw.get? "emf0_init" = some (.num x)) ∨ solve_mode kw = .ok "ph_adjust"))

theorem gran_any {tm emf T : List Flt} {M c n : Flt} {logic : String} {g : GranGuesses}
    (h : gran_guesses tm emf T M c n logic = .ok g) (c' n' : Flt) :
    ∃ g', gran_guesses tm emf T M c' n' logic = .ok g' := by
  simp only [gran_guesses, gran_alkalinity, bind_ok_iff] at h ⊢
  obtain ⟨ga, ⟨x, h1, u, h2, lr, h3, -⟩, -⟩ := h
  exact ⟨_, _, ⟨x, h1, u, h2, lr, h3, rfl⟩, rfl⟩

/-- a run of the solver has made the default Gran estimate, unless it is a single pass with legacy logic -/
theorem solve_emf_gran {ls : LsFun (Flt × Flt)} {c M : Flt} {tm emf T : List Flt} {totals ks : Dict NpVal}
    {o : EmfOpts} {double : Bool} {r : SolveEmf} (h : solve_emf ls c tm emf T M totals ks o double = .ok r)
    (hd : double = true ∨ o.gran_logic = "v23.7+") :
    ∃ g, gran_guesses tm emf T M c o.titrant_normality "v23.7+" = .ok g := by
  cases double with
  | false =>
    obtain ⟨g, opt, hg, -⟩ := solve_emf_false_iff.mp h
    rcases hd with hd | hd
    · cases hd
    · exact ⟨g, by rw [hd] at hg; exact hg⟩
  | true =>
    rw [solve_emf_true_eq, bind_ok_iff] at h
    obtain ⟨r1, -, h⟩ := h
    obtain ⟨g, opt, hg, -⟩ := solve_emf_false_iff.mp h
    exact ⟨g, hg⟩

theorem emf_opts_start {kw : Dict Val} {o : EmfOpts} {double : Bool} (h : emf_opts kw = .ok (o, double)) :
    (kw.get? "gran_logic" = some (.str "legacy") → o.gran_logic = "legacy") ∧
    (kw.get? "gran_logic" = none ∨ kw.get? "gran_logic" = some (.str "v23.7+") → o.gran_logic = "v23.7+") ∧
    (∀ x, kw.get? "alkalinity_init" = some (.num x) → o.alkalinity_init = some x) ∧
    (∀ x, kw.get? "emf0_init" = some (.num x) → o.emf0_init = some x) := by
  simp only [emf_opts, bind_ok_iff] at h
  obtain ⟨a, h1, e, h2, lo, -, hi, -, n, -, h⟩ := h
  simp only [pure_ok, Except.ok.injEq, Prod.mk.injEq] at h
  obtain ⟨rfl, -⟩ := h
  refine ⟨fun hg => ?_, fun hg => ?_, fun x hx => ?_, fun x hx => ?_⟩
  · simp only [argVal, hg]; rfl
  · rcases hg with hg | hg <;> simp only [argVal, hg] <;> rfl
  · simp only [argOpt, hx] at h1; exact (Except.ok.inj h1).symm
  · simp only [argOpt, hx] at h2; exact (Except.ok.inj h2).symm

/-- C139 (EMF and `pH_adjust` modes): when the start does not come from the default Gran estimate and the optimiser
does not mind the order of residuals, two files with the same lines that can both be solved give the same
alkalinity, electrode constant and standard deviation. -/
theorem C139_emf (w : World) (hw : Spec.PointByPoint w) (hls : Spec.Unordered w.ls) (f f' : String) (c S : Flt)
    (kw : Dict Val) (idx : List ℕ) (dd : DatData) (hr : Spec.Reordered w f f' kw idx dd) (hst : Spec.StartGiven kw)
    (r : SolveEmf) (T : List Flt) (res : SolveRes) (h : files_solve w f c S kw = .ok (.emf r T))
    (h' : files_solve w f' c S kw = .ok res) :
    ∃ r', res = .emf r' (pick nan idx T) ∧
      r'.alkalinity = r.alkalinity ∧ r'.emf0 = r.emf0 ∧ r'.alkalinity_std = r.alkalinity_std := by
  by_cases hn : 2 ≤ dd.measurement.length
  · obtain ⟨cv, totals, ks, mode, hm, l1, l2, l3, hd, he⟩ := solve_pick hw hr hn h
    rw [he] at h'
    unfold solve_dispatch at hd h'
    split at hd
    · rename_i h1
      rw [if_pos h1] at h'
      simp only [bind_ok_iff] at hd h'
      obtain ⟨⟨o, double⟩, ho, sr, hs, hd⟩ := hd
      obtain ⟨⟨o', double'⟩, ho', sr', hs', hd'⟩ := h'
      rw [ho] at ho'
      obtain ⟨rfl, rfl⟩ := Prod.mk.inj (Except.ok.inj ho')
      cases Except.ok.inj hd
      rw [← Except.ok.inj hd']
      rw [emf_opts_solve] at ho
      obtain ⟨s1, s2, s3, s4⟩ := emf_opts_start ho
      obtain ⟨r', e1, e2, e3, e4, -⟩ := C138_emf w.ls hls idx c _ cv.titrant_mass cv.measurement cv.temperature _ _ o double r (by rw [l2]; exact hr.perm)
        (by
          rcases hst with hst | ⟨g1, ⟨a, g2⟩, g3⟩
          · exact .inl (s1 hst)
          · refine .inr ⟨s2 g1, ⟨a, s3 a g2⟩, ?_⟩
            rcases g3 with ⟨x, g3⟩ | g3
            · exact ⟨x, s4 x g3⟩
            · rw [g3] at hm; rw [← Except.ok.inj hm] at h1; exact absurd h1 (by decide))
        (fun hgg => solve_emf_gran hs' hgg) hs
      have e1' : _ = Except.ok r' := e1
      have : sr' = r' := Except.ok.inj (hs'.symm.trans e1')
      subst this
      exact ⟨sr', rfl, e2, e3, e4⟩
    · rename_i h1
      split at hd
      · rename_i h2
        rw [if_neg h1, if_pos h2] at h'
        simp only [bind_ok_iff] at hd h'
        obtain ⟨⟨o, double⟩, ho, emf, hem, sr, hs, hd⟩ := hd
        obtain ⟨⟨o', double'⟩, ho', emf', hem', sr', hs', hd'⟩ := h'
        rw [ho] at ho'
        obtain ⟨rfl, rfl⟩ := Prod.mk.inj (Except.ok.inj ho')
        cases Except.ok.inj hd
        rw [← Except.ok.inj hd']
        obtain ⟨s1, s2, s3, s4⟩ := emf_opts_start ho
        rw [Dict.get?_set_ne _ _ _ _ (by decide), get?_kwargs (by decide)] at s1 s2
        have s3' : ∀ x, kw.get? "alkalinity_init" = some (.num x) → o.alkalinity_init = some x := by
          intro x hx
          refine s3 x ?_
          rw [Dict.get?_set_ne _ _ _ _ (by decide), get?_kwargs (by decide), hx]
        have s4' := s4 (fin 0) (Dict.get?_set_self _ _ _)
        have hemf : emf.length = cv.measurement.length ∧ emf' = pick nan idx emf := by
          simp only [pH_to_emf_arr, bind_ok_iff] at hem hem'
          obtain ⟨_, -, hem⟩ := hem
          obtain ⟨_, -, hem'⟩ := hem'
          cases Except.ok.inj hem
          cases Except.ok.inj hem'
          have hi := idx_lt hr.perm
          refine ⟨by simp [l2, l3], ?_⟩
          exact (pick_zipWith nan nan nan _ idx _ _ (by rw [l2]; exact hi) (by rw [l3]; exact hi)).symm
        obtain ⟨r', e1, e2, e3, e4, -⟩ := C138_emf w.ls hls idx c _ cv.titrant_mass emf cv.temperature _ _ o double r
          (by rw [hemf.1, l2]; exact hr.perm)
          (by
            rcases hst with hst | ⟨g1, ⟨a, g2⟩, g3⟩
            · exact .inl (s1 hst)
            · exact .inr ⟨s2 g1, ⟨a, s3' a g2⟩, _, s4'⟩)
          (fun hgg => by rw [hemf.2] at hs'; exact solve_emf_gran hs' hgg) hs
        rw [hemf.2] at hs'
        have e1' : _ = Except.ok r' := e1
        have : sr' = r' := Except.ok.inj (hs'.symm.trans e1')
        subst this
        exact ⟨sr', rfl, e2, e3, e4⟩
      · split at hd
        · simp only [bind_ok_iff] at hd; obtain ⟨_, -, _, -, hd⟩ := hd; cases Except.ok.inj hd
        · split at hd
          · simp only [bind_ok_iff] at hd; obtain ⟨_, -, _, -, hd⟩ := hd; cases Except.ok.inj hd
          · cases hd
  · have hn' : dd.measurement.length ≤ 1 := by omega
    obtain ⟨cv, totals, ks, tts, totals', mode, h1, h2, h3, h4, h5⟩ := files_solve_parts.mp h
    obtain ⟨l1, l2⟩ := load_lengths hr h1
    rw [solve_short hr hn', h] at h'
    refine ⟨r, ?_, rfl, rfl, rfl⟩
    rw [← Except.ok.inj h']
    unfold solve_dispatch at h5
    split at h5
    · simp only [bind_ok_iff] at h5
      obtain ⟨_, -, _, -, h5⟩ := h5
      cases Except.ok.inj h5
      rw [pick_short nan hr.perm hn' l2]
    · split at h5
      · simp only [bind_ok_iff] at h5
        obtain ⟨_, -, _, -, _, -, h5⟩ := h5
        cases Except.ok.inj h5
        rw [pick_short nan hr.perm hn' l2]
      · split at h5
        · simp only [bind_ok_iff] at h5; obtain ⟨_, -, _, -, h5⟩ := h5; cases Except.ok.inj h5
        · split at h5
          · simp only [bind_ok_iff] at h5; obtain ⟨_, -, _, -, h5⟩ := h5; cases Except.ok.inj h5
          · cases h5

/-! ## Calibrations -/

/-- C139 (calibration on pH data and in Gran mode): two files with the same lines in different orders give the same
titrant molinity, and everything else that is reported. -/
theorem C139_calibrate (w : World) (hw : Spec.PointByPoint w) (f f' : String) (cert S : Flt) (kw : Dict Val)
    (idx : List ℕ) (dd : DatData) (hr : Spec.Reordered w f f' kw idx dd)
    (hmode : solve_mode kw = .ok "ph" ∨ solve_mode kw = .ok "ph_gran") (r : LsqResult Flt)
    (h : files_calibrate w f cert S kw = .ok r) : files_calibrate w f' cert S kw = .ok r := by
  by_cases hn : 2 ≤ dd.measurement.length
  · simp only [files_calibrate, bind_ok_iff] at h
    obtain ⟨⟨cv, totals, ks⟩, h1, mode, h2, h⟩ := h
    obtain ⟨e1, l1, l2, l3, ft, fk⟩ := load_pick hw hr hn h1
    simp only [files_calibrate, e1, bind_ok, h2]
    rw [← l2] at ft fk
    have hp : idx.Perm (List.range cv.measurement.length) := by rw [l2]; exact hr.perm
    have hl : cv.titrant_mass.length = cv.measurement.length := by rw [l1, l2]
    dsimp only at h
    unfold calibrate_dispatch at h ⊢
    rcases hmode with hm | hm <;> (rw [hm] at h2; cases Except.ok.inj h2)
    · rw [if_neg (by decide), if_neg (by decide), if_pos rfl] at h ⊢
      simp only [PyS.bind_apply, PyS.lift_apply] at h ⊢
      cases ho : ph_opts (get_kwargs_for keys_calibrate_pH kw none) with
      | error e => rw [ho] at h; cases h
      | ok o =>
        rw [ho] at h
        simp only at h ⊢
        cases hc : argNum (get_kwargs_for keys_calibrate_pH kw none) "titrant_molinity_init" (fin 0.1) with
        | error e => rw [hc] at h; cases h
        | ok c0 =>
          rw [hc] at h
          simp only at h ⊢
          cases ht : titrant_totals (get_kwargs_for keys_calibrate_pH kw none) with
          | error e => rw [ht] at h; cases h
          | ok tts =>
            rw [ht] at h
            simp only at h ⊢
            obtain ⟨fin', e, -⟩ := C138_calibrate_pH w.opt idx cert cv.analyte_mass cv.titrant_mass cv.measurement ks
              o.pH_min o.pH_max c0 o.titrant_normality tts totals _ r hp hl ft fk (Prod.ext h rfl)
            exact congrArg Prod.fst e
    · rw [if_neg (by decide), if_neg (by decide), if_neg (by decide), if_pos rfl] at h ⊢
      simp only [PyS.bind_apply, PyS.lift_apply] at h ⊢
      cases ho : ph_opts (get_kwargs_for keys_calibrate_pH_gran kw none) with
      | error e => rw [ho] at h; cases h
      | ok o =>
        rw [ho] at h
        simp only at h ⊢
        cases hc : argNum (get_kwargs_for keys_calibrate_pH_gran kw none) "titrant_molinity_init" (fin 0.1) with
        | error e => rw [hc] at h; cases h
        | ok c0 =>
          rw [hc] at h
          simp only at h ⊢
          cases ht : titrant_totals (get_kwargs_for keys_calibrate_pH_gran kw none) with
          | error e => rw [ht] at h; cases h
          | ok tts =>
            rw [ht] at h
            simp only at h ⊢
            obtain ⟨fin', e, -⟩ := C138_calibrate_gran w.opt idx cert cv.analyte_mass cv.titrant_mass cv.measurement
              o.pH_min o.pH_max c0 o.titrant_normality tts totals _ r hp hl ft (Prod.ext h rfl)
            exact congrArg Prod.fst e
  · rw [← h]
    simp only [files_calibrate, load_short hr (by omega : dd.measurement.length ≤ 1)]

/-- C139 (calibration in EMF mode): likewise, when both start values of the solver are given, its optimiser does not
mind the order of residuals, and the second file can be solved for some titrant molinity. -/
theorem C139_calibrate_emf (w : World) (hw : Spec.PointByPoint w) (hls : Spec.Unordered w.ls) (f f' : String)
    (cert S : Flt) (kw : Dict Val) (idx : List ℕ) (dd : DatData) (hr : Spec.Reordered w f f' kw idx dd)
    (hmode : solve_mode kw = .ok "emf")
    (hlogic : kw.get? "gran_logic" = none ∨ kw.get? "gran_logic" = some (.str "v23.7+"))
    (ha : ∃ x, kw.get? "alkalinity_init" = some (.num x)) (he : ∃ x, kw.get? "emf0_init" = some (.num x))
    (hsol : ∃ c res, files_solve w f' c S kw = .ok res) (r : LsqResult Flt)
    (h : files_calibrate w f cert S kw = .ok r) : files_calibrate w f' cert S kw = .ok r := by
  by_cases hn : 2 ≤ dd.measurement.length
  · simp only [files_calibrate, bind_ok_iff] at h
    obtain ⟨⟨cv, totals, ks⟩, h1, mode, h2, h⟩ := h
    obtain ⟨e1, l1, l2, l3, ft, fk⟩ := load_pick hw hr hn h1
    have hgran : ∀ c n, ∃ g, gran_guesses (pick nan idx cv.titrant_mass) (pick nan idx cv.measurement)
        (pick nan idx cv.temperature) cv.analyte_mass c n "v23.7+" = .ok g := by
      intro c n
      obtain ⟨c1, res, hs⟩ := hsol
      obtain ⟨cv', t', k', tts, t2, mode', g1, -, -, g4, g5⟩ := files_solve_parts.mp hs
      rw [e1] at g1
      obtain ⟨rfl, -⟩ := Prod.mk.inj (Except.ok.inj g1)
      rw [hmode] at g4
      cases Except.ok.inj g4
      unfold solve_dispatch at g5
      rw [if_pos rfl] at g5
      simp only [bind_ok_iff] at g5
      obtain ⟨⟨o, double⟩, ho, sr, hsr, -⟩ := g5
      rw [emf_opts_solve] at ho
      obtain ⟨-, s2, -, -⟩ := emf_opts_start ho
      obtain ⟨g, hg⟩ := solve_emf_gran hsr (.inr (s2 hlogic))
      exact gran_any hg c n
    simp only [files_calibrate, e1, bind_ok, h2]
    dsimp only at h
    unfold calibrate_dispatch at h ⊢
    rw [hmode] at h2
    cases Except.ok.inj h2
    rw [if_pos rfl] at h ⊢
    simp only [PyS.bind_apply, PyS.lift_apply] at h ⊢
    cases ho : emf_opts (get_kwargs_for keys_calibrate_emf kw none) with
    | error e => rw [ho] at h; cases h
    | ok od =>
      obtain ⟨o, double⟩ := od
      obtain ⟨-, -, s3, s4⟩ := emf_opts_start ho
      rw [get?_kwargs (by decide)] at s3 s4
      obtain ⟨a0, ha⟩ := ha
      obtain ⟨e0, he⟩ := he
      have s3' := s3 a0 ha
      have s4' := s4 e0 he
      rw [ho] at h
      simp only at h ⊢
      cases hc : argNum (get_kwargs_for keys_calibrate_emf kw none) "titrant_molinity_init" (fin 0.1) with
      | error e => rw [hc] at h; cases h
      | ok c0 =>
        rw [hc] at h
        simp only at h ⊢
        cases ht : titrant_totals (get_kwargs_for keys_calibrate_emf kw none) with
        | error e => rw [ht] at h; cases h
        | ok tts =>
          rw [ht] at h
          simp only at h ⊢
          rw [s3', s4'] at h ⊢
          exact congrArg Prod.fst (C138_calibrate_emf w.opt w.ls hls idx cert cv.analyte_mass cv.titrant_mass
            cv.measurement cv.temperature ks a0 e0 double o.pH_min o.pH_max c0 o.titrant_normality tts totals _ r
            (by rw [l2]; exact hr.perm) (by rw [l1, l2]) (by rw [l2]; exact hn) (fun c => hgran c _) (Prod.ext h rfl))
  · rw [← h]
    simp only [files_calibrate, load_short hr (by omega : dd.measurement.length ≤ 1)]

/-! ## Examples -/

/-- PyCO2SYS as in the examples meets the contract -/
theorem keepWorld_points : Spec.PointByPoint keepWorld := by
  have happ : ∀ {a b : Dict NpVal}, ScalarD a → ScalarD b → ScalarD (a ++ b) := by
    intro a b ha hb kv hkv
    rcases List.mem_append.mp hkv with h | h
    · exact ha kv h
    · exact hb kv h
  have hk : ScalarD [("KSO4", NpVal.scalar (fin 0.1))] := by
    intro kv hkv
    simp only [List.mem_singleton] at hkv
    subst hkv
    exact ⟨_, rfl⟩
  refine ⟨?_, ?_, ?_⟩
  · intro S a b c d o p t r ht h
    simp only [keepWorld, Except.ok.injEq] at h
    subst h
    refine happ ht ?_
    intro kv hkv
    simp only [List.mem_cons, List.not_mem_nil, or_false] at hkv
    rcases hkv with rfl | rfl | rfl | rfl | rfl | rfl | rfl <;> exact ⟨_, rfl⟩
  · intro T t a b c d k r _ hks h
    simp only [keepWorld, Except.ok.injEq] at h
    subst h
    exact (happ hks hk).fits _
  · intro idx T t a b c d k r _ _ hks h
    simp only [keepWorld, Except.ok.injEq] at h ⊢
    subst h
    exact ((happ hks hk).reindex idx).symm

/-- the contract is about PyCO2SYS only -/
theorem PointByPoint_of {w w' : World} (h : Spec.PointByPoint w) (h1 : w'.saltsAssemble = w.saltsAssemble)
    (h2 : w'.equilibriaAssemble = w.equilibriaAssemble) : Spec.PointByPoint w' :=
  ⟨by rw [h1]; exact h.salts, by rw [h2]; exact h.shape, by rw [h2]; exact h.order⟩

/-- two files, the second with the two lines of the first exchanged -/
noncomputable def twoFiles (dd : DatData) (w : World) : World :=
  { w with readDat := fun f _ => .ok (if f = "b.dat" then dd.reorder [1, 0] else dd) }

theorem two_reordered (dd : DatData) (w : World) (kw : Dict Val) (h1 : dd.titrant_amount.length = 2)
    (h2 : dd.measurement.length = 2) (h3 : dd.temperature.length = 2) (hf : kw.get? "file_path" = none)
    (hm : Spec.SameMass kw dd (dd.reorder [1, 0])) :
    Spec.Reordered (twoFiles dd w) "a.dat" "b.dat" kw [1, 0] dd := by
  have hn : ∀ f, full_name f kw = .ok f := fun f => by simp [full_name, hf]
  exact ⟨by rw [h2]; decide, by rw [h1, h2], by rw [h3, h2], ⟨_, hn _, rfl⟩, ⟨_, hn _, rfl⟩, hm⟩

/-- C139_pH: a file with pH 3.8 and 3.2, and the same with the lines exchanged -/
example : ∃ (r r' : SolvePH) (a : ℝ),
    files_solve (twoFiles (pData 3.8 3.2) keepWorld) "a.dat" (fin 0.1) (fin 35) pArgs
      = .ok (.pH r [fin 3.8, fin 3.2] [fin 25, fin 25]) ∧
    files_solve (twoFiles (pData 3.8 3.2) keepWorld) "b.dat" (fin 0.1) (fin 35) pArgs
      = .ok (.pH r' [fin 3.2, fin 3.8] [fin 25, fin 25]) ∧
    r.alkalinity = fin a ∧ r'.alkalinity = fin a := by
  obtain ⟨r, T, est, h, -, -, -, h'⟩ := C109_estimates (pWorld 3.8 3.2) "a.dat" (fin 35) pArgs
    pContents pConstants 0.1 2 1 3 4 0.1 [0.001, 0.002] [3.8, 3.2] (p_run 3.8 3.2)
    ⟨3.2, by simp, by norm_num⟩
  have hT : T = [fin 25, fin 25] := by
    obtain ⟨cv, totals, ks, hl, h1, h2, h3, h4⟩ := p_loads 3.8 3.2
    obtain ⟨cv', t', k', tts, t2, mode, g1, -, -, g4, g5⟩ := files_solve_parts.mp h
    rw [hl] at g1
    obtain ⟨rfl, -⟩ := Prod.mk.inj (Except.ok.inj g1)
    have hm : solve_mode pArgs = .ok (lowerS "pH") := rfl
    rw [hm, show lowerS "pH" = "ph" by decide] at g4
    cases Except.ok.inj g4
    unfold solve_dispatch at g5
    rw [if_neg (by decide), if_neg (by decide), if_pos rfl] at g5
    simp only [bind_ok_iff] at g5
    obtain ⟨_, -, _, -, g5⟩ := g5
    have g6 := Except.ok.inj g5
    simp only [SolveRes.pH.injEq] at g6
    rw [← g6.2.2]
    exact h4
  subst hT
  have ha : files_solve (twoFiles (pData 3.8 3.2) keepWorld) "a.dat" (fin 0.1) (fin 35) pArgs
      = files_solve (pWorld 3.8 3.2) "a.dat" (fin 0.1) (fin 35) pArgs := rfl
  have hr := two_reordered (pData 3.8 3.2) keepWorld pArgs rfl rfl rfl rfl
    (.inl ⟨.num (fin 0.1), rfl, by simp [Spec.Null]⟩)
  obtain ⟨r', e1, e2, -⟩ := C139_pH (twoFiles (pData 3.8 3.2) keepWorld) (PointByPoint_of keepWorld_points rfl rfl)
    "a.dat" "b.dat" (fin 0.1) (fin 35) pArgs [1, 0] _ hr r _ _ (ha.trans h)
  exact ⟨r, r', _, ha.trans h, e1, h', e2.trans h'⟩

/-- C139_gran and C139_calibrate: the lines of the example of C116 exchanged -/
example : ∃ sr sr', files_solve (twoFiles (pData fgP fgQ) (calWorld fgP fgQ)) "a.dat" (fin 0.05) (fin 35) fgArgs
      = .ok sr ∧ sr.alkalinity = fin (1e6 * 2e-4) ∧
    files_solve (twoFiles (pData fgP fgQ) (calWorld fgP fgQ)) "b.dat" (fin 0.05) (fin 35) fgArgs = .ok sr' ∧
    sr'.alkalinity = fin (1e6 * 2e-4) := by
  obtain ⟨sr, hs⟩ := C116_succeeds (calWorld fgP fgQ) "a.dat" (fin 35) (fin 0.05) fgArgs 1 3 4 0.1 _
    fg_run fg_two rfl rfl rfl
  have ha := C116_exact _ _ _ _ 2e-4 0.05 1 3 4 0.1 _ fg_run (by norm_num) fg_two fg_ideal sr hs
  obtain ⟨a, b, hb, -⟩ := C116_one_line 0.1 3 4 _ fg_two
  have hs' : files_solve (twoFiles (pData fgP fgQ) (calWorld fgP fgQ)) "a.dat" (fin 0.05) (fin 35) fgArgs = .ok sr :=
    hs
  have hr := two_reordered (pData fgP fgQ) (calWorld fgP fgQ) fgArgs rfl rfl rfl rfl
    (.inl ⟨.num (fin 0.1), rfl, by simp [Spec.Null]⟩)
  obtain ⟨cv', t', k', tts, t2, mode, g1, -, -, g4, g5⟩ := files_solve_parts.mp hs
  have hm := fg_run.mode_ok
  rw [hm] at g4
  cases Except.ok.inj g4
  unfold solve_dispatch at g5
  rw [if_neg (by decide), if_neg (by decide), if_neg (by decide), if_pos rfl] at g5
  simp only [bind_ok_iff] at g5
  obtain ⟨_, -, r, -, g5⟩ := g5
  cases Except.ok.inj g5
  obtain ⟨r', e1, e2, -⟩ := C139_gran (twoFiles (pData fgP fgQ) (calWorld fgP fgQ)) (PointByPoint_of keepWorld_points rfl rfl)
    "a.dat" "b.dat" (fin 0.05) (fin 35) fgArgs [1, 0] _ hr r _ _ hs'
  exact ⟨_, _, hs', ha, e1, e2.trans ha⟩

example : ∃ res : LsqResult Flt,
    files_calibrate (twoFiles (pData fgP fgQ) (calWorld fgP fgQ)) "b.dat" (fin (1e6 * 2e-4)) (fin 35) fgArgs
      = .ok res ∧ res.x = fin 0.05 := by
  obtain ⟨cv, totals, ks, hl, h1, h2, h3, h4⟩ := p_loads fgP fgQ
  obtain ⟨sr, hs, ha⟩ := fg_solved
  have hc := C32_same_solver (calWorld fgP fgQ) "a.dat" "ph_gran" (fin (1e6 * 2e-4)) (fin 35) (fin 0.05)
    fgArgs cv totals ks (by rw [fg_load]; exact hl) fg_typed rfl (by decide) (by rw [h3, h4]; rfl)
  have hs' : solveRes (calWorld fgP fgQ) "a.dat" (fin 35) (fin (1e6 * 2e-4)) fgArgs (fin 0.05) ()
      = (.ok [fin 0], ()) := by
    simp only [solveRes, hs, bind_ok, pure_ok, ha, sub_fin, sub_self, PyS.lift]
  have hcal : files_calibrate (twoFiles (pData fgP fgQ) (calWorld fgP fgQ)) "a.dat" (fin (1e6 * 2e-4)) (fin 35)
      fgArgs = .ok ⟨fin 0.05, [fin 0]⟩ := by
    show files_calibrate (calWorld fgP fgQ) "a.dat" (fin (1e6 * 2e-4)) (fin 35) fgArgs = _
    rw [hc]
    show (lsqOnce.run (solveRes (calWorld fgP fgQ) "a.dat" (fin 35) (fin (1e6 * 2e-4)) fgArgs) (fin 0.05) ()).1 = _
    simp [Lsq.run, Lsq.loop, lsqOnce, allFinite, PyS.bind_apply, hs']
  have hr := two_reordered (pData fgP fgQ) (calWorld fgP fgQ) fgArgs rfl rfl rfl rfl
    (.inl ⟨.num (fin 0.1), rfl, by simp [Spec.Null]⟩)
  exact ⟨_, C139_calibrate (twoFiles (pData fgP fgQ) (calWorld fgP fgQ))
    (PointByPoint_of keepWorld_points rfl rfl) "a.dat" "b.dat" _ (fin 35) fgArgs [1, 0] _ hr
    (.inr fg_run.mode_ok) _ hcal, rfl⟩

/-! ## The first temperature -/

noncomputable def foArgs : Dict Val :=
  [ ("solve_mode", .str "pH_Gran"), ("analyte_volume", .num (fin 100)), ("titrant_amount_unit", .str "kg") ] ++
  (("dic" :: (optionalContents ++ saltContents)).map fun k => (k, Val.num (fin (pContents k)))) ++
  allConstants.map fun k => (k, Val.num (fin (pConstants k)))

noncomputable def foData : DatData where
  titrant_amount := [fin 0.001, fin 0.002]
  measurement := [fin 4, fin 3]
  temperature := [fin 0, fin 10]

theorem fo_load (f : String) (dd : DatData) (m1 m2 p q t1 t2 : ℝ) (hd : (if f = "b.dat" then foData.reorder [1, 0]
      else foData) = ⟨[fin m1, fin m2], [fin p, fin q], [fin t1, fin t2], false⟩) :
    ∃ cv totals ks, load (twoFiles foData keepWorld) f (fin 0) foArgs = .ok (cv, totals, ks) ∧
    cv.titrant_mass = [fin m1, fin m2] ∧ cv.analyte_mass = fin (100 * Spec.seawaterDensity t1 0 * 1e-3) ∧
    cv.measurement = [fin p, fin q] := by
  obtain ⟨t, tp, h1, hfit⟩ := p_totals 0 0
  obtain ⟨ks, h2⟩ := p_ks 0 0
  obtain ⟨totals, h3, -⟩ := C05_dilute_totals t [fin m1, fin m2] (fin (100 * Spec.seawaterDensity t1 0 * 1e-3)) hfit
  refine ⟨⟨[fin m1, fin m2], [fin p, fin q], [fin t1, fin t2], fin (100 * Spec.seawaterDensity t1 0 * 1e-3), fin 0⟩,
    totals, ks, ?_, rfl, rfl, rfl⟩
  unfold load
  have e1 : full_name f foArgs = .ok f := rfl
  have e2 : (twoFiles foData keepWorld).readDat f (get_kwargs_for keys_read_dat foArgs none)
      = .ok ⟨[fin m1, fin m2], [fin p, fin q], [fin t1, fin t2], false⟩ := congrArg Except.ok hd
  have e3 : amount_units ⟨[fin m1, fin m2], [fin p, fin q], [fin t1, fin t2], false⟩ (fin 0)
      (get_kwargs_for keys_cau foArgs none)
      = .ok ⟨[fin m1, fin m2], [fin p, fin q], [fin t1, fin t2], fin (100 * Spec.seawaterDensity t1 0 * 1e-3),
        fin 0⟩ := by
    have hkw : get_kwargs_for keys_cau foArgs none
      = [("analyte_volume", .num (fin 100)), ("titrant_amount_unit", .str "kg")] := rfl
    rw [hkw]
    simp [amount_units, override_temperature, titrant_masses, get_analyte_mass, argOpt, argVal,
      argNotNull, Dict.get?, Val.toFlt, Val.isNull, Val.lower, bind_ok, pure_ok, pyAssert, C61_equation,
      show lowerS "kg" = "kg" by decide]
  have h1' : get_totals (twoFiles foData keepWorld) (fin 0)
      ((get_kwargs_for keys_totals_ks foArgs none).filter fun kv => keys_get_totals.contains kv.1) = .ok (t, tp) := h1
  have h2' : ∀ tp, get_k_constants (twoFiles foData keepWorld) tp [fin t1, fin t2]
      ((get_kwargs_for keys_totals_ks foArgs none).filter fun kv => keys_get_k_constants.contains kv.1) = .ok ks := h2
  have e4 : ∀ cv, totals_for_ks cv tp (get_kwargs_for keys_totals_ks foArgs none) = .ok tp := fun _ => rfl
  rw [e1, bind_ok, e2, bind_ok, e3, bind_ok]
  unfold totals_ks
  simp only [h1', bind_ok, h3, e4, h2', pure_ok]

theorem fo_alkalinity (f : String) (m1 m2 p q t1 t2 : ℝ) (hd : (if f = "b.dat" then foData.reorder [1, 0]
      else foData) = ⟨[fin m1, fin m2], [fin p, fin q], [fin t1, fin t2], false⟩)
    (hm : m1 ≠ m2) (hp : 3 ≤ p ∧ p ≤ 4) (hq : 3 ≤ q ∧ q ≤ 4) (M : ℝ)
    (hM : M = 100 * Spec.seawaterDensity t1 0 * 1e-3) (hM0 : 0 < M) (a b : ℝ) (ha : a ≠ 0)
    (h1 : (m1 + M) * (10 : ℝ) ^ (-p) = a * m1 + b) (h2 : (m2 + M) * (10 : ℝ) ^ (-q) = a * m2 + b) :
    ∃ sr, files_solve (twoFiles foData keepWorld) f (fin 0.1) (fin 0) foArgs = .ok sr ∧
      sr.alkalinity = fin (1e6 * (-b / a) * 0.1 * 1 / M) := by
  have run : GranRun (twoFiles foData keepWorld) f (fin 0) foArgs 1 3 4 M [(m1, p), (m2, q)] := by
    obtain ⟨cv, totals, ks, e1, e2, e3, e4⟩ := fo_load f foData m1 m2 p q t1 t2 hd
    refine ⟨⟨cv, totals, ks, e1, by rw [e2]; rfl, by rw [e3, hM], by rw [e4]; rfl⟩, ⟨"pH_Gran", rfl, by decide⟩,
      .inr ⟨rfl, rfl⟩, .inr ⟨rfl, rfl⟩, .inr ⟨rfl, rfl⟩, by norm_num, hM0⟩
  have hplot : Spec.granPlot M 3 4 [(m1, p), (m2, q)] = [(m1, a * m1 + b), (m2, a * m2 + b)] := by
    simp [Spec.granPlot, hp.1, hp.2, hq.1, hq.2, h1, h2]
  have two : ∃ x ∈ Spec.granPlot M 3 4 [(m1, p), (m2, q)], ∃ y ∈ Spec.granPlot M 3 4 [(m1, p), (m2, q)],
      x.1 ≠ y.1 := by
    rw [hplot]
    exact ⟨_, List.mem_cons_self .., _, List.mem_cons_of_mem _ (List.mem_cons_self ..), hm⟩
  obtain ⟨sr, hs⟩ := C116_succeeds _ _ _ (fin 0.1) _ _ _ _ _ _ run two rfl rfl rfl
  refine ⟨sr, hs, (C116_line _ _ _ _ 0.1 1 3 4 M _ run two a b ?_ ha sr hs).1⟩
  rw [hplot]
  intro a' b'
  simp only [Spec.lineMisfit, List.map_cons, List.map_nil, List.sum_cons, List.sum_nil]
  have e1 : a * m1 + b - (a * m1 + b) = 0 := by ring
  have e2 : a * m2 + b - (a * m2 + b) = 0 := by ring
  nlinarith [sq_nonneg (a' * m1 + b' - (a * m1 + b)), sq_nonneg (a' * m2 + b' - (a * m2 + b)),
    sq_nonneg (a * m1 + b - (a' * m1 + b')), sq_nonneg (a * m2 + b - (a' * m2 + b'))]

/-- C139 (finding): where the analyte is given as a volume and the temperature varies, the order of the lines
matters, for the volume is converted with the temperature of the first line.  A file of two lines, at 0 and 10 °C,
gives another alkalinity with its lines exchanged. -/
theorem C139_first_temperature : ∃ (w : World) (kw : Dict Val) (dd : DatData) (S c : Flt) (sr sr' : SolveRes),
    w.readDat "a.dat" (get_kwargs_for keys_read_dat kw none) = .ok dd ∧
    w.readDat "b.dat" (get_kwargs_for keys_read_dat kw none) = .ok ⟨pick nan [1, 0] dd.titrant_amount,
      pick nan [1, 0] dd.measurement, pick nan [1, 0] dd.temperature, dd.temperature_int⟩ ∧
    dd.measurement.length = 2 ∧ Spec.PointByPoint w ∧ (∃ v, kw.get? "analyte_volume" = some (.num (fin v))) ∧
    files_solve w "a.dat" c S kw = .ok sr ∧ files_solve w "b.dat" c S kw = .ok sr' ∧
    ∃ a a' : ℝ, sr.alkalinity = fin a ∧ sr'.alkalinity = fin a' ∧ a ≠ a' := by
  have d0 : Spec.seawaterDensity 0 0 = 0.999842594 := by
    unfold Spec.seawaterDensity Spec.seawaterTable
    simp only [List.map_cons, List.map_nil, List.sum_cons, List.sum_nil]
    norm_num
  have d10 : ∃ d, Spec.seawaterDensity 10 0 = d ∧ 0.9996 ≤ d ∧ d ≤ 0.9998 := by
    refine ⟨_, rfl, ?_⟩
    unfold Spec.seawaterDensity Spec.seawaterTable
    simp only [List.map_cons, List.map_nil, List.sum_cons, List.sum_nil]
    norm_num
  obtain ⟨d, hd, hd1, hd2⟩ := d10
  have h4 : (10 : ℝ) ^ (-4 : ℝ) = 1e-4 := by
    rw [Real.rpow_neg (by norm_num)]; norm_num
  have h3 : (10 : ℝ) ^ (-3 : ℝ) = 1e-3 := by
    rw [Real.rpow_neg (by norm_num)]; norm_num
  -- slope and intercept of the line for analyte mass M
  have key : ∀ M : ℝ, 0 < M → ((1.9e-6 + 9e-4 * M) * 1000 ≠ 0) ∧
      (0.001 + M) * (1e-4 : ℝ) = (1.9e-6 + 9e-4 * M) * 1000 * 0.001 + ((0.001 + M) * 1e-4 - (1.9e-6 + 9e-4 * M)) ∧
      (0.002 + M) * (1e-3 : ℝ) = (1.9e-6 + 9e-4 * M) * 1000 * 0.002 + ((0.001 + M) * 1e-4 - (1.9e-6 + 9e-4 * M)) := by
    intro M hM
    refine ⟨by positivity, by ring, by ring⟩
  obtain ⟨k1, k2, k3⟩ := key (100 * 0.999842594 * 1e-3) (by norm_num)
  have hd0 : (0 : ℝ) < 100 * d * 1e-3 := by linarith
  obtain ⟨k1', k2', k3'⟩ := key (100 * d * 1e-3) hd0
  obtain ⟨sr, e1, e2⟩ := fo_alkalinity "a.dat" 0.001 0.002 4 3 0 10 rfl (by norm_num) (by norm_num) (by norm_num)
    (100 * 0.999842594 * 1e-3) (by rw [d0]) (by norm_num) _ _ k1 (by rw [h4]; exact k2) (by rw [h3]; exact k3)
  obtain ⟨sr', e1', e2'⟩ := fo_alkalinity "b.dat" 0.002 0.001 3 4 10 0 rfl (by norm_num) (by norm_num) (by norm_num)
    (100 * d * 1e-3) (by rw [hd]) hd0 _ _ k1' (by rw [h3]; exact k3') (by rw [h4]; exact k2')
  refine ⟨twoFiles foData keepWorld, foArgs, foData, fin 0, fin 0.1, sr, sr', rfl, rfl, rfl,
    PointByPoint_of keepWorld_points rfl rfl, ⟨100, rfl⟩, e1, e1', _, _, e2, e2', ?_⟩
  have gen : ∀ M M' : ℝ, 0 < M' → M' < M →
      1e6 * (-((0.001 + M) * 1e-4 - (1.9e-6 + 9e-4 * M)) / ((1.9e-6 + 9e-4 * M) * 1000)) * 0.1 * 1 / M
        < 1e6 * (-((0.001 + M') * 1e-4 - (1.9e-6 + 9e-4 * M')) / ((1.9e-6 + 9e-4 * M') * 1000)) * 0.1 * 1 / M' := by
    intro M M' h0 hlt
    have hM : 0 < M := h0.trans hlt
    have e : ∀ x : ℝ, 0 < x → 1e6 * (-((0.001 + x) * 1e-4 - (1.9e-6 + 9e-4 * x)) / ((1.9e-6 + 9e-4 * x) * 1000)) * 0.1
        * 1 / x = (1.8e-4 + 8e-2 * x) / ((1.9e-6 + 9e-4 * x) * x) := by
      intro x hx
      have : 1.9e-6 + 9e-4 * x ≠ 0 := by positivity
      field_simp
      ring
    rw [e M hM, e M' h0, div_lt_div_iff₀ (by positivity) (by positivity)]
    have h1 : 0 < M * M' := mul_pos hM h0
    have h2 : 0 < (M - M') := by linarith
    nlinarith [mul_pos h2 h1, mul_pos h2 hM, mul_pos h2 h0]
  exact (gen _ _ hd0 (by linarith)).ne

/-- the two points of the example of C112: both above a tenth of the larger Gran function, in either order -/
theorem q_gran_turned (Q c : ℝ) : ∃ g, gran_guesses (pick nan [1, 0] (((qPts Q).map (·.1)).map fin))
    (pick nan [1, 0] (((qPts Q).map (·.2.1)).map fin)) (pick nan [1, 0] (((qPts Q).map (·.2.2)).map fin)) (fin 0.1)
    (fin c) (fin 1) "v23.7+" = .ok g := by
  obtain ⟨g, hg⟩ := q_gran Q c
  have hgf : g.ga.gfunc = ((qPts Q).map (Spec.gran 0.1)).map fin := by
    have h := hg
    simp only [gran_guesses, gran_alkalinity, bind_ok_iff] at h
    obtain ⟨ga, ⟨_, -, used, hus, lr, hlr, hga⟩, hgg⟩ := h
    cases Except.ok.inj hga
    rw [← Except.ok.inj hgg]
    simp only [List.map_map]
    exact gran_gfunc (qPts Q) 0.1 (q_run Q).temps
  set k := Real.exp (Q * 96.4853365 / (8.3144621 * (25 + 273.15))) with hk
  have hgr : ∀ m h : ℝ, 0 < h → Spec.gran 0.1 (m, Spec.nernst Q 25 h, 25) = (m + 0.1) * (k * h) := by
    intro m h hh
    simp only [Spec.gran, hk]
    congr 1
    rw [← Real.exp_log hh, ← Real.exp_add, Real.exp_log hh]
    congr 1
    unfold Spec.nernst
    field_simp
  have hk0 : 0 < k := Real.exp_pos _
  have hpts : (qPts Q).map (Spec.gran 0.1) = [0.101 * (k * 2e-4), 0.102 * (k * 9e-4)] := by
    simp only [qPts, List.map_cons, List.map_nil, hgr _ 2e-4 (by norm_num), hgr _ 9e-4 (by norm_num)]
    norm_num
  rw [hpts] at hgf
  have tail : ∀ a b : ℝ, 0 < a → 0 < b → a < 10 * b → b < 10 * a → Spec.TailAbove [fin a, fin b] := by
    intro a b ha hb h1 h2 mx hmx
    obtain ⟨m, hm, hle, hm'⟩ := npMax_fin (xs := [a, b]) (by simp)
    have hm'' : npMax [fin a, fin b] = .ok (fin m) := hm'
    rw [hm''] at hmx
    cases Except.ok.inj hmx
    simp only [List.mem_cons, List.not_mem_nil, or_false] at hm
    rw [List.pairwise_cons]
    refine ⟨fun y hy _ => ?_, List.pairwise_singleton _ _⟩
    simp only [List.mem_singleton] at hy
    subst hy
    simp only [mul_fin, lt_fin, decide_eq_true_eq]
    rcases hm with rfl | rfl <;> linarith
  obtain ⟨g', h, -⟩ := C138_default [1, 0] _ _ _ _ _ _ g (by simp [qPts]; decide) hg
    (by rw [hgf]; exact tail _ _ (by positivity) (by positivity) (by nlinarith) (by nlinarith))
    (by
      rw [hgf]
      exact tail _ _ (by positivity) (by positivity) (by nlinarith) (by nlinarith))
  exact ⟨g', h⟩

/-- C139_emf: the lines of the example of C112 exchanged -/
theorem q_turned (Q : ℝ) : ∃ sr sr', files_solve (twoFiles (qData Q) { qWorld Q with ls := lsStay }) "a.dat" (fin qAcid)
      (fin 35) (qArgs Q) = .ok (.emf sr [fin 25, fin 25]) ∧
    files_solve (twoFiles (qData Q) { qWorld Q with ls := lsStay }) "b.dat" (fin qAcid) (fin 35) (qArgs Q)
      = .ok (.emf sr' [fin 25, fin 25]) ∧ sr.opt_result.x = (fin qTrue, fin Q) ∧
    sr'.alkalinity = sr.alkalinity ∧ sr'.emf0 = sr.emf0 := by
  obtain ⟨sr, hs, hx, -⟩ := q_solve_ls Q lsStay lsStay_sound (by
    intro f A E hf
    exact ⟨⟨(fin A, fin E), (List.replicate 2 (0 : ℝ)).map fin⟩, by simp only [lsStay, hf, bind_ok, pure_ok], rfl⟩)
  have hs' : files_solve (twoFiles (qData Q) { qWorld Q with ls := lsStay }) "a.dat" (fin qAcid) (fin 35) (qArgs Q)
      = .ok (.emf sr [fin 25, fin 25]) := hs
  have hw : Spec.PointByPoint (twoFiles (qData Q) { qWorld Q with ls := lsStay }) :=
    PointByPoint_of keepWorld_points rfl rfl
  have hr := two_reordered (qData Q) { qWorld Q with ls := lsStay } (qArgs Q) rfl rfl rfl rfl
    (.inl ⟨.num (fin 0.1), rfl, by simp [Spec.Null]⟩)
  obtain ⟨totals0, ks0, hl⟩ := q_load Q
  have hl' : load (twoFiles (qData Q) { qWorld Q with ls := lsStay }) "a.dat" (fin 35) (qArgs Q)
      = .ok (qCv Q, totals0, ks0) := hl
  obtain ⟨cv, t', k', tts, totals, mode, g1, g2, g3, g4, g5⟩ := files_solve_parts.mp hs'
  rw [hl'] at g1
  obtain ⟨rfl, h23⟩ := Prod.mk.inj (Except.ok.inj g1)
  obtain ⟨rfl, rfl⟩ := Prod.mk.inj h23
  obtain ⟨e1, -⟩ := load_pick hw hr (by simp [qData, qPts]) hl'
  have hm : solve_mode (qArgs Q) = .ok (lowerS "emf") := rfl
  rw [hm, show lowerS "emf" = "emf" by decide] at g4
  cases Except.ok.inj g4
  have hopts : emf_opts (get_kwargs_for keys_solve_emf (qArgs Q) none) = .ok ((qOpts Q), true) := by
    rw [emf_opts_solve]; with_unfolding_all rfl
  unfold solve_dispatch at g5
  rw [if_pos rfl, hopts, bind_ok] at g5
  simp only [bind_ok_iff] at g5
  obtain ⟨sr1, hsr, g5⟩ := g5
  have hsr1 : sr1 = sr := by
    have := Except.ok.inj g5
    simp only [SolveRes.emf.injEq] at this
    exact this.1
  subst hsr1
  obtain ⟨r', f1, f2, f3, -⟩ := C138_emf lsStay lsStay_unordered [1, 0] (fin qAcid) (fin 0.1) (qCv Q).titrant_mass
    (qCv Q).measurement (qCv Q).temperature totals ks0 (qOpts Q) true sr1 (by simp [qCv, qPts]; decide)
    (.inr ⟨rfl, ⟨_, rfl⟩, _, rfl⟩) (fun _ => q_gran_turned Q qAcid) hsr
  have e3 := add_titrant_pick (idx := [1, 0]) (by simp [qCv]; decide) (by simp [qCv]) _ _ _ _ _ _ g3
  refine ⟨sr1, r', hs', files_solve_parts.mpr ⟨_, _, _, tts, _, "emf", e1, g2, e3, by
    rw [hm, show lowerS "emf" = "emf" by decide], ?_⟩, hx, f2, f3⟩
  unfold solve_dispatch
  rw [if_pos rfl, hopts, bind_ok]
  dsimp only
  have f1' : solve_emf lsStay (fin qAcid) ((qCv Q).reorder [1, 0]).titrant_mass ((qCv Q).reorder [1, 0]).measurement
      ((qCv Q).reorder [1, 0]).temperature ((qCv Q).reorder [1, 0]).analyte_mass (reindexD [1, 0] totals)
      (reindexD [1, 0] ks0) (qOpts Q) true = .ok r' := f1
  show (solve_emf lsStay _ _ _ _ _ _ _ _ _ >>= _) = _
  rw [f1']
  rfl

/-- C139_emf on it -/
example (Q : ℝ) : ∃ sr sr' : SolveEmf, sr.opt_result.x = (fin qTrue, fin Q) ∧ sr'.alkalinity = sr.alkalinity ∧
    sr'.emf0 = sr.emf0 ∧ sr'.alkalinity_std = sr.alkalinity_std := by
  obtain ⟨sr, sr', h1, h2, h3, -⟩ := q_turned Q
  obtain ⟨r', e0, e1, e2, e3⟩ := C139_emf (twoFiles (qData Q) { qWorld Q with ls := lsStay })
    (PointByPoint_of keepWorld_points rfl rfl) lsStay_unordered "a.dat" "b.dat" (fin qAcid) (fin 35) (qArgs Q) [1, 0] _
    (two_reordered (qData Q) { qWorld Q with ls := lsStay } (qArgs Q) rfl rfl rfl rfl
      (.inl ⟨.num (fin 0.1), rfl, by simp [Spec.Null]⟩)) (.inr ⟨.inl rfl, ⟨_, rfl⟩, .inl ⟨_, rfl⟩⟩) sr _ _ h1 h2
  exact ⟨sr, r', h3, e1, e2, e3⟩

/-- C139_calibrate_emf: the calibration of the example of C130, with the lines exchanged -/
example : files_calibrate (twoFiles (qData 400) { ecWorld with ls := lsStay }) "b.dat" (fin (1e6 * qTrue)) (fin 35)
    (qArgs 400) = .ok ⟨fin qAcid, [fin 0]⟩ := by
  obtain ⟨sr, sr', h1, h2, h3, -⟩ := q_turned 400
  obtain ⟨sr2, e2, e3, hu⟩ := q_solve_ls 400 lsStay lsStay_sound (by
    intro f A E hf
    exact ⟨⟨(fin A, fin E), (List.replicate 2 (0 : ℝ)).map fin⟩, by simp only [lsStay, hf, bind_ok, pure_ok], rfl⟩)
  obtain ⟨sr3, he, hrep⟩ := C112_estimates { qWorld 400 with ls := lsStay } "a.dat" (fin 35) (qArgs 400) pContents
    qConstants qAcid 1 0 0.1 (qPts 400) (q_run_ls 400 lsStay lsStay_sound) _ e2
  cases he
  obtain ⟨r1, -⟩ := hrep _ _ e3 (by rw [hu]; simp)
  have hcal : files_calibrate (twoFiles (qData 400) { ecWorld with ls := lsStay }) "a.dat" (fin (1e6 * qTrue)) (fin 35)
      (qArgs 400) = .ok ⟨fin qAcid, [fin 0]⟩ := by
    obtain ⟨totals, ks, hl⟩ := q_load 400
    have hc := C32_same_solver (twoFiles (qData 400) { ecWorld with ls := lsStay }) "a.dat" "emf" (fin (1e6 * qTrue))
      (fin 35) (fin 0.1) (qArgs 400) (qCv 400) totals ks hl ec_typed rfl (by decide) rfl
    have hs : solveRes (twoFiles (qData 400) { ecWorld with ls := lsStay }) "a.dat" (fin 35) (fin (1e6 * qTrue))
        (qArgs 400) (fin qAcid) () = (.ok [fin 0], ()) := by
      have h' : files_solve (twoFiles (qData 400) { ecWorld with ls := lsStay }) "a.dat" (fin qAcid) (fin 35)
        (qArgs 400) = _ := e2
      simp only [solveRes, h', bind_ok, pure_ok, SolveRes.alkalinity, r1, sub_fin, sub_self, PyS.lift]
    rw [hc]
    show ((lsqAt qAcid).run (solveRes (twoFiles (qData 400) { ecWorld with ls := lsStay }) "a.dat" (fin 35)
      (fin (1e6 * qTrue)) (qArgs 400)) (fin 0.1) ()).1 = _
    simp [Lsq.run, Lsq.loop, lsqAt, allFinite, PyS.bind_apply, hs]
  have hm : solve_mode (qArgs 400) = .ok (lowerS "emf") := rfl
  rw [show lowerS "emf" = "emf" by decide] at hm
  exact C139_calibrate_emf (twoFiles (qData 400) { ecWorld with ls := lsStay })
    (PointByPoint_of keepWorld_points rfl rfl) lsStay_unordered "a.dat" "b.dat" _ (fin 35) (qArgs 400) [1, 0] _
    (two_reordered (qData 400) { ecWorld with ls := lsStay } (qArgs 400) rfl rfl rfl rfl
      (.inl ⟨.num (fin 0.1), rfl, by simp [Spec.Null]⟩)) hm (.inl rfl) ⟨_, rfl⟩ ⟨_, rfl⟩ ⟨fin qAcid, _, h2⟩ _ hcal

end Calk
