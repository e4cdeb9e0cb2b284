import Verif.Props.PlotExample

/-! # C107: the attributes of a Titration that its documentation lists -/

namespace Calk
open Flt Spec

theorem getattr_some {s : Series} {k : String} {v : Val} (h : s.dict.get? k = some v) :
    s.getattr k = .ok v := by
  unfold Series.getattr; rw [h]

theorem getattr_none {s : Series} {k : String} (h : s.dict.get? k = none) :
    s.getattr k = .error (.AttributeError k) := by
  unfold Series.getattr; rw [h]

/-- **C107**: every Titration has the attributes `alkalinity`, with the result of the solver, and
`file_name`, `titrant_molinity`, `salinity` and `analyte_mass`, with the settings it was made with. -/
theorem C107_present (w : World) (sys : SysIn → Py SysOut) (row : Series) (kw : Dict Val)
    (tt : Titration) (hk : kw.keys.Nodup) (hn : (nestedArgs kw).keys.Nodup)
    (h : Titration_init w sys row kw = .ok tt) :
    tt.row.getattr "alkalinity" = .ok (.num tt.sr.sr.alkalinity) ∧
    ∀ k ∈ ["file_name", "titrant_molinity", "salinity", "analyte_mass"],
      ∃ v, titrationSetting kw row.dict k = some v ∧ tt.row.getattr k = .ok v := by
  obtain ⟨h1, h2⟩ := C64_row w sys row kw tt hk hn h
  refine ⟨getattr_some h2, fun k hkk => ?_⟩
  have hs : ∃ v, titrationSetting kw row.dict k = some v := by
    obtain ⟨f, c, S, kws, -, -, e1, ⟨v, e2, -⟩, ⟨v', e3, -⟩, -⟩ := C64_call w sys row kw tt hk hn h
    simp only [List.mem_cons, List.not_mem_nil, or_false] at hkk
    rcases hkk with rfl | rfl | rfl | rfl
    · exact ⟨_, e1⟩
    · exact ⟨_, e2⟩
    · exact ⟨_, e3⟩
    · obtain ⟨row', t0, t1, g1, g2, g3, g4, g5, g6⟩ := Titration_ok h
      unfold get_alkalinity_from_acid at g5
      simp only [bind_ok_iff] at g5
      obtain ⟨A, -, M, hM, -⟩ := g5
      unfold numAttr at hM
      obtain ⟨v, hv, -⟩ := bind_ok_iff.mp hM
      unfold Series.getattr at hv
      cases hg : tt.row.dict.get? "analyte_mass" with
      | none => rw [hg] at hv; cases hv
      | some u => exact ⟨u, by rw [← h1 _ (by decide)]; exact hg⟩
  obtain ⟨v, hv⟩ := hs
  have hnot : ∀ k ∈ ["file_name", "titrant_molinity", "salinity", "analyte_mass"], k ∉ resultNames := by
    decide
  exact ⟨v, hv, getattr_some (by rw [h1 k (hnot k hkk), hv])⟩

/-- **C107**: `tt["name"]` gives the result of the solver for `alkalinity`, and for everything the solver
does not set what the Titration was made with.  If there is no such thing the exception is an
`AttributeError`, not a `KeyError`. -/
theorem C107_item (w : World) (sys : SysIn → Py SysOut) (row : Series) (kw : Dict Val)
    (tt : Titration) (hk : kw.keys.Nodup) (hn : (nestedArgs kw).keys.Nodup)
    (h : Titration_init w sys row kw = .ok tt) :
    tt.row.getitem "alkalinity" = .ok (.num tt.sr.sr.alkalinity) ∧
    ∀ k ∉ ["alkalinity_npts", "alkalinity_std", "alkalinity", "emf0", "gran_alkalinity", "gran_emf0",
        "pH_init", "temperature_init"],
      (∀ v, titrationSetting kw row.dict k = some v → tt.row.getitem k = .ok v) ∧
      (titrationSetting kw row.dict k = none → tt.row.getitem k = .error (.AttributeError k)) := by
  obtain ⟨h1, h2⟩ := C64_row w sys row kw tt hk hn h
  refine ⟨by unfold Series.getitem; rw [h2], fun k hk' => ?_⟩
  have hr : k ∉ resultNames := by
    intro hm
    refine hk' ?_
    revert hm
    simp only [resultNames, List.mem_cons, List.not_mem_nil, or_false]
    tauto
  have h3 := h1 k hr
  refine ⟨fun v hv => ?_, fun hv => ?_⟩
  · unfold Series.getitem; rw [h3, hv]
  · unfold Series.getitem; rw [h3, hv]

/-- **C107**: `opt_result`, documented as the output of the optimiser, is never an attribute, unless the
row or the keyword arguments had something of that name, which is then what is returned. -/
theorem C107_opt_result (w : World) (sys : SysIn → Py SysOut) (row : Series) (kw : Dict Val)
    (tt : Titration) (hk : kw.keys.Nodup) (hn : (nestedArgs kw).keys.Nodup)
    (h : Titration_init w sys row kw = .ok tt) :
    (titrationSetting kw row.dict "opt_result" = none →
      tt.row.getattr "opt_result" = .error (.AttributeError "opt_result")) ∧
    ∀ v, titrationSetting kw row.dict "opt_result" = some v → tt.row.getattr "opt_result" = .ok v := by
  have h1 := (C64_row w sys row kw tt hk hn h).1 "opt_result" (by decide)
  exact ⟨fun hc => getattr_none (by rw [h1, hc]), fun v hv => getattr_some (by rw [h1, hv])⟩

/-- **C107**: `emf0`, `gran_emf0` and `gran_alkalinity` are those of the solver for titrations solved from
EMF. Otherwise the solver sets none of them: a Titration made from a row that already has them, from an
earlier solution, still shows the old values. -/
theorem C107_emf0 (w : World) (sys : SysIn → Py SysOut) (row : Series) (kw : Dict Val)
    (tt : Titration) (hk : kw.keys.Nodup) (hn : (nestedArgs kw).keys.Nodup)
    (h : Titration_init w sys row kw = .ok tt) :
    (∀ s T, tt.sr.sr = .emf s T → tt.row.getattr "emf0" = .ok (.num s.emf0) ∧
      tt.row.getattr "gran_emf0" = .ok (.num s.ggr.emf0) ∧
      tt.row.getattr "gran_alkalinity" = .ok (.num (s.ggr.ga.alkalinity * fin 1e6))) ∧
    ((∀ s T, tt.sr.sr ≠ .emf s T) → ∀ k ∈ ["emf0", "gran_emf0", "gran_alkalinity"],
      (titrationSetting kw row.dict k = none → tt.row.getattr k = .error (.AttributeError k)) ∧
      ∀ v, titrationSetting kw row.dict k = some v → tt.row.getattr k = .ok v) := by
  constructor
  · intro s T hs
    obtain ⟨e1, e2, e3⟩ := (Titration_results h).2 s T hs
    exact ⟨getattr_some e1, getattr_some e3, getattr_some e2⟩
  · intro hne k hkk
    obtain ⟨row', t0, t1, g1, g2, g3, -⟩ := Titration_ok h
    have hset := C64_settings row row' kw hk hn g1 k
    have : k ∉ resultLabels tt.sr.sr := by
      have : ∀ sr : SolveRes, (∀ s T, sr ≠ .emf s T) → ∀ k ∈ ["emf0", "gran_emf0", "gran_alkalinity"],
          k ∉ resultLabels sr := by
        intro sr hsr
        cases sr with
        | emf s T => exact absurd rfl (hsr s T)
        | pH s p T => simp only [resultLabels]; decide
        | pH_gran s p T => simp only [resultLabels]; decide
      exact this _ hne k hkk
    have e := (resultRow_ok g3).1 k this
    rw [hset] at e
    exact ⟨fun hc => getattr_none (by rw [e, hc]), fun v hv => getattr_some (by rw [e, hv])⟩

/-- C107 applies to a pH titration -/
example : ∃ tt, Titration_init tW tSys (tRow (some (.num (fin 1)))) p2Arg = .ok tt ∧
    tt.row.getattr "titrant_molinity" = .ok (.num (fin 0.1)) ∧
    tt.row.getattr "opt_result" = .error (.AttributeError "opt_result") ∧
    tt.row.getattr "emf0" = .error (.AttributeError "emf0") ∧
    tt.row.getitem "opt_result" = .error (.AttributeError "opt_result") := by
  obtain ⟨tt, h, hs⟩ := p2_made
  obtain ⟨-, h1⟩ := C107_present _ _ _ _ _ p2_nodup.1 p2_nodup.2 h
  obtain ⟨v, e1, e2⟩ := h1 "titrant_molinity" (by decide)
  rw [(p2_real hs).molinity] at e1
  refine ⟨tt, h, ?_, ?_, ?_, ((C107_item _ _ _ _ _ p2_nodup.1 p2_nodup.2 h).2 "opt_result"
    (by decide)).2 (by rw [p2_set]; with_unfolding_all rfl)⟩
  · rw [e2, ← Option.some.inj e1]
  · exact (C107_opt_result _ _ _ _ _ p2_nodup.1 p2_nodup.2 h).1 (by rw [p2_set]; with_unfolding_all rfl)
  · exact ((C107_emf0 _ _ _ _ _ p2_nodup.1 p2_nodup.2 h).2 (by rw [hs]; intro s T hc; cases hc) "emf0"
      (by decide)).1 (by rw [p2_set]; with_unfolding_all rfl)

/-- C107 applies to an EMF titration -/
example : ∃ tt sr, Titration_init tW tSys (tRow (some (.num (fin 1)))) eArg = .ok tt ∧
    tt.sr.sr = .emf sr [fin 25, fin 25] ∧ tt.row.getattr "emf0" = .ok (.num sr.emf0) := by
  obtain ⟨tt, sr, h, hs, -⟩ := e_made
  exact ⟨tt, sr, h, hs, ((C107_emf0 _ _ _ _ _ e_nodup.1 e_nodup.2 h).1 _ _ hs).1⟩

end Calk
