import Verif.Props.Settings
import Verif.Props.Files
import Verif.Props.FileLevel

/-! # Properties C34, C37: modes, units and titrants that are no text -/

namespace Calk
open Flt

/-- C34: a mode that is no text at all (`None`, a number, …) is an `AttributeError` (no method `lower`), after
the file has been read. -/
theorem C34_no_text (w : World) (f : String) (x S : Flt) (kw : Dict Val) (v : Val) (hv : ∀ s, v ≠ .str s) :
    (∀ r, files_solve w f x S (kw.set "solve_mode" v) ≠ .ok r) ∧
    (∀ r, files_calibrate w f x S (kw.set "solve_mode" v) ≠ .ok r) ∧
    (∀ y, load w f S kw = .ok y →
      files_calibrate w f x S (kw.set "solve_mode" v) = .error (.AttributeError "lower") ∧
      (titrant_totals kw = .ok [] →
        files_solve w f x S (kw.set "solve_mode" v) = .error (.AttributeError "lower"))) := by
  have hm : solve_mode (kw.set "solve_mode" v) = .error (.AttributeError "lower") := by
    simp only [solve_mode, argVal, Dict.get?_set_self, Option.getD_some]
    cases v with
    | str s => exact absurd rfl (hv s)
    | _ => rfl
  have hl := load_set (w := w) (f := f) (S := S) (kw := kw) v
    (show "solve_mode" ∉ keys_read_dat by decide) (show "solve_mode" ∉ keys_cau by decide)
    (show "solve_mode" ∉ keys_totals_ks by decide) (show "solve_mode" ≠ "file_path" by decide)
  refine ⟨?_, ?_, ?_⟩
  · intro r h
    simp only [files_solve, hm, bind_ok_iff] at h
    obtain ⟨_, -, _, -, _, -, m, hm', h⟩ := h
    cases hm'
  · intro r h
    simp only [files_calibrate, hm, bind_ok_iff] at h
    obtain ⟨_, -, _, hm', h⟩ := h
    cases hm'
  · rintro ⟨cv, totals, ks⟩ hy
    constructor
    · simp only [files_calibrate, hl, hy, hm, bind_ok, bind_error]
    · intro ht
      have ht' : titrant_totals (kw.set "solve_mode" v) = .ok [] := by
        rw [titrant_totals_set _ _ (show "solve_mode" ∉ keys_titrant_totals by decide), ht]
      simp only [files_solve, hl, hy, ht', hm, bind_ok, bind_error]
      rfl

/-- C37: so is a unit that is no text … -/
theorem C37_no_text (dd : DatData) (S : Flt) (kw : Dict Val) (v : Val) (hv : ∀ s, v ≠ .str s)
    (ht : ∃ o, override_temperature dd kw = .ok o) :
    amount_units dd S (kw.set "titrant_amount_unit" v) = .error (.AttributeError "lower") := by
  obtain ⟨o, ho⟩ := ht
  have ho' : override_temperature dd (kw.set "titrant_amount_unit" v) = .ok o := by
    rw [← ho]
    simp only [override_temperature, argOpt, Dict.get?_set_ne _ _ _ _ (show "temperature_override" ≠
      "titrant_amount_unit" by decide)]
  have hm : titrant_masses dd (kw.set "titrant_amount_unit" v) = .error (.AttributeError "lower") := by
    simp only [titrant_masses, argVal, Dict.get?_set_self, Option.getD_some]
    cases v with
    | str s => exact absurd rfl (hv s)
    | _ => rfl
  simp only [amount_units, ho', hm, bind_ok, bind_error]

/-- C37: … and, for volumes without a density, a titrant that is no text; a text other than the two acids, in
whatever case, is an `AssertionError`.  For masses the titrant does not matter. -/
theorem C37_titrant (dd : DatData) (S : Flt) (kw : Dict Val) (u : String)
    (hu : kw.get? "titrant_amount_unit" = some (.str u) ∨ (kw.get? "titrant_amount_unit" = none ∧ u = "ml"))
    (ht : ∃ o, override_temperature dd kw = .ok o) :
    (lowerS u = "ml" → kw.get? "titrant_density" = none ∨ kw.get? "titrant_density" = some .none →
      (∀ v, (∀ s, v ≠ .str s) →
        amount_units dd S (kw.set "titrant" v) = .error (.AttributeError "upper")) ∧
      (∀ s, upperS s ∉ ["H2SO4", "HCL"] →
        amount_units dd S (kw.set "titrant" (.str s)) = .error .AssertionError) ∧
      (∀ s s', upperS s = upperS s' →
        amount_units dd S (kw.set "titrant" (.str s)) = amount_units dd S (kw.set "titrant" (.str s')))) ∧
    (lowerS u ∈ ["g", "kg"] → ∀ v, amount_units dd S (kw.set "titrant" v) = amount_units dd S kw) := by
  obtain ⟨o, ho⟩ := ht
  have hg : ∀ v k, k ≠ "titrant" → (kw.set "titrant" v).get? k = kw.get? k :=
    fun v k hk => Dict.get?_set_ne _ _ _ _ hk
  have ho' : ∀ v, override_temperature dd (kw.set "titrant" v) = .ok o := by
    intro v
    rw [← ho]
    simp only [override_temperature, argOpt, hg _ _ (show "temperature_override" ≠ "titrant" by decide)]
  have hunit : (argVal kw "titrant_amount_unit" (.str "ml")).lower = .ok (lowerS u) := by
    rcases hu with h | ⟨h, rfl⟩ <;> simp only [argVal, h, Option.getD_some, Option.getD_none, Val.lower]
  have hunit' : ∀ v, (argVal (kw.set "titrant" v) "titrant_amount_unit" (.str "ml")).lower = .ok (lowerS u) := by
    intro v
    rw [← hunit]
    simp only [argVal, hg _ _ (show "titrant_amount_unit" ≠ "titrant" by decide)]
  have hmass : ∀ v, get_analyte_mass o S (kw.set "titrant" v) = get_analyte_mass o S kw := by
    intro v
    simp only [get_analyte_mass, argNotNull, hg _ _ (show "analyte_mass" ≠ "titrant" by decide),
      hg _ _ (show "analyte_volume" ≠ "titrant" by decide)]
  constructor
  · intro hml hden
    have hden' : ∀ v, argOpt (kw.set "titrant" v) "titrant_density" = .ok none := by
      intro v
      simp only [argOpt, hg _ _ (show "titrant_density" ≠ "titrant" by decide)]
      rcases hden with h | h <;> rw [h] <;> rfl
    refine ⟨?_, ?_, ?_⟩
    · intro v hv
      have hup : (argVal (kw.set "titrant" v) "titrant" (.str "HCl")).upper = .error (.AttributeError "upper") := by
        simp only [argVal, Dict.get?_set_self, Option.getD_some]
        cases v with
        | str s => exact absurd rfl (hv s)
        | _ => rfl
      have hm : titrant_masses dd (kw.set "titrant" v) = .error (.AttributeError "upper") := by
        simp only [titrant_masses, hunit', hml, bind_ok, hden', hup, bind_error, pyAssert, List.mem_cons, true_or,
          decide_true, if_true]
      simp only [amount_units, ho', hm, bind_ok, bind_error]
    · intro s hs
      have hup : (argVal (kw.set "titrant" (.str s)) "titrant" (.str "HCl")).upper = .ok (upperS s) := by
        simp only [argVal, Dict.get?_set_self, Option.getD_some, Val.upper]
      have hm : titrant_masses dd (kw.set "titrant" (.str s)) = .error .AssertionError := by
        simp only [titrant_masses, hunit', hml, bind_ok, hden', hup, bind_error, pyAssert, List.mem_cons, true_or,
          decide_true, if_true]
        rw [if_neg (by simpa using hs)]
        rfl
      simp only [amount_units, ho', hm, bind_ok, bind_error]
    · intro s s' hs
      have hup : ∀ s, (argVal (kw.set "titrant" (.str s)) "titrant" (.str "HCl")).upper = .ok (upperS s) := by
        intro s
        simp only [argVal, Dict.get?_set_self, Option.getD_some, Val.upper]
      have hm : titrant_masses dd (kw.set "titrant" (.str s)) = titrant_masses dd (kw.set "titrant" (.str s')) := by
        simp only [titrant_masses, hunit', hden', hup, hs, argNum,
          hg _ _ (show "molinity_H2SO4" ≠ "titrant" by decide), hg _ _ (show "molinity_HCl" ≠ "titrant" by decide),
          hg _ _ (show "molinity_NaCl" ≠ "titrant" by decide)]
      simp only [amount_units, ho', hm, bind_ok, hmass]
  · intro hgk v
    have hm : titrant_masses dd (kw.set "titrant" v) = titrant_masses dd kw := by
      have hne : lowerS u ≠ "ml" := by
        intro h; rw [h] at hgk; simp at hgk
      simp only [titrant_masses, hunit, hunit', bind_ok, if_neg hne]
    simp only [amount_units, ho, ho', hm, bind_ok, hmass]

/-- a file of C109 with `None` for the mode; volumes of nitric acid, or of an unnamed acid -/
example (p q : ℝ) : files_calibrate (pWorld p q) "a.dat" (fin 200) (fin 35) (pArgs.set "solve_mode" .none)
      = .error (.AttributeError "lower") ∧
    amount_units ⟨[fin 1], [fin 500], [fin 25], false⟩ (fin 35) (Dict.set [] "titrant" (.str "HNO3"))
      = .error .AssertionError ∧
    amount_units ⟨[fin 1], [fin 500], [fin 25], false⟩ (fin 35) (Dict.set [] "titrant" .none)
      = .error (.AttributeError "upper") ∧
    amount_units ⟨[fin 1], [fin 500], [fin 25], false⟩ (fin 35) (Dict.set [] "titrant_amount_unit" (.num nan))
      = .error (.AttributeError "lower") := by
  obtain ⟨cv, totals, ks, hl, -⟩ := p_loads p q
  have ht := C37_titrant ⟨[fin 1], [fin 500], [fin 25], false⟩ (fin 35) [] "ml" (.inr ⟨rfl, rfl⟩) ⟨_, rfl⟩
  obtain ⟨h1, h2, -⟩ := ht.1 (by decide) (.inl rfl)
  exact ⟨((C34_no_text _ _ _ _ _ _ (by simp)).2.2 _ hl).1, h2 _ (by decide), h1 _ (by simp),
    C37_no_text _ _ _ _ (by simp) ⟨_, rfl⟩⟩

end Calk
