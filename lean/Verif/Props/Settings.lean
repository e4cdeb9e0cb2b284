import Verif.Lemmas.Files
import Verif.Props.SolvePH

/-! # Properties C37, C38, C69–C71: units, totals and constants -/

namespace Calk
open Flt

/-! ## C37 -/

/-- C37: the same titration expressed in kg, in g (x1000) and in ml (x1000/density) gives the same
titrant masses. -/
theorem C37_interchangeable (xs : List ℝ) (meas temp : List Flt) (b : Bool) (d : ℝ) (hd : d ≠ 0)
    (kw : Dict Val) :
    titrant_masses ⟨xs.map fin, meas, temp, b⟩ (kw.set "titrant_amount_unit" (.str "kg"))
      = .ok (xs.map fin) ∧
    titrant_masses ⟨xs.map fun x => fin (1000 * x), meas, temp, b⟩
        (kw.set "titrant_amount_unit" (.str "g")) = .ok (xs.map fin) ∧
    titrant_masses ⟨xs.map fun x => fin (1000 * x / d), meas, temp, b⟩
        ((kw.set "titrant_density" (.num (fin d))).set "titrant_amount_unit" (.str "ml"))
      = .ok (xs.map fin) := by
  have h1 : lowerS "kg" = "kg" := by decide
  have h2 : lowerS "g" = "g" := by decide
  have h3 : lowerS "ml" = "ml" := by decide
  refine ⟨?_, ?_, ?_⟩
  · simp [titrant_masses, argVal, Dict.get?_set_self, Val.lower, h1, bind_ok, pure_ok, pyAssert]
  · simp only [titrant_masses, argVal, Dict.get?_set_self, Val.lower, h2, bind_ok, pure_ok, pyAssert,
      Option.getD_some]
    simp only [List.mem_cons, reduceCtorEq, List.not_mem_nil, or_false]
    simp only [List.map_map, Function.comp_def, mul_fin]
    have : ∀ x : ℝ, fin (1000 * x * 1e-3) = fin x := by intro x; congr 1; ring
    simp [this, bind_ok]
  · simp only [titrant_masses, argVal, Dict.get?_set_self, Val.lower, h3, bind_ok, pure_ok, pyAssert,
      Option.getD_some, argOpt, Dict.get?_set_ne _ _ _ _ (show "titrant_density" ≠
        "titrant_amount_unit" by decide), Val.toFlt]
    simp only [List.mem_cons, true_or, decide_true, if_true, bind_ok]
    simp only [List.map_map, Function.comp_def, mul_fin]
    have : ∀ x : ℝ, fin (1000 * x / d * d * 1e-3) = fin x := by
      intro x; congr 1; field_simp; norm_num; ring
    simp [this]

/-- C37: unit names are case-insensitive ... -/
theorem C37_case (dd : DatData) (S : Flt) (kw : Dict Val) (u u' : String) (h : lowerS u = lowerS u') :
    amount_units dd S (kw.set "titrant_amount_unit" (.str u))
      = amount_units dd S (kw.set "titrant_amount_unit" (.str u')) := by
  have hg : ∀ v k, k ≠ "titrant_amount_unit" →
      (kw.set "titrant_amount_unit" v).get? k = kw.get? k := fun v k hk => Dict.get?_set_ne _ _ _ _ hk
  have hm : titrant_masses dd (kw.set "titrant_amount_unit" (.str u))
      = titrant_masses dd (kw.set "titrant_amount_unit" (.str u')) := by
    simp only [titrant_masses, argVal, argOpt, argNum, Dict.get?_set_self, Option.getD_some, Val.lower,
      h, hg _ "titrant_density" (by decide), hg _ "titrant" (by decide),
      hg _ "molinity_H2SO4" (by decide), hg _ "molinity_HCl" (by decide),
      hg _ "molinity_NaCl" (by decide)]
  simp only [amount_units, hm, override_temperature, get_analyte_mass, argOpt, argNotNull,
    hg _ "temperature_override" (by decide), hg _ "analyte_mass" (by decide), hg _ "analyte_volume" (by decide)]

/-- C37: ... and any other unit raises AssertionError. -/
theorem C37_bad_unit (dd : DatData) (S : Flt) (kw : Dict Val) (u : String)
    (h : lowerS u ∉ ["ml", "g", "kg"]) (ht : ∃ o, override_temperature dd kw = .ok o) :
    amount_units dd S (kw.set "titrant_amount_unit" (.str u)) = .error .AssertionError := by
  obtain ⟨o, ho⟩ := ht
  have ho' : override_temperature dd (kw.set "titrant_amount_unit" (.str u)) = .ok o := by
    rw [← ho]
    simp only [override_temperature, argOpt, Dict.get?_set_ne _ _ _ _ (show "temperature_override" ≠
      "titrant_amount_unit" by decide)]
  have hm : titrant_masses dd (kw.set "titrant_amount_unit" (.str u)) = .error .AssertionError := by
    simp only [titrant_masses, argVal, Dict.get?_set_self, Option.getD_some, Val.lower, bind_ok]
    rw [pyAssert, if_neg (by simpa using h)]
    rfl
  simp only [amount_units, ho', hm, bind_ok, bind_error]

example : lowerS "L" ∉ ["ml", "g", "kg"] := by decide

/-- C37: a given `titrant_density` takes precedence: titrant and molinities then have no effect. -/
theorem C37_density_wins (dd : DatData) (S : Flt) (kw : Dict Val) (d : Val) (hd : d ≠ .none)
    (k : String) (hk : k ∈ ["titrant", "molinity_H2SO4", "molinity_HCl", "molinity_NaCl"]) (v : Val) :
    amount_units dd S ((kw.set "titrant_density" d).set k v)
      = amount_units dd S (kw.set "titrant_density" d) := by
  have hk' : k ≠ "titrant_density" ∧ k ≠ "titrant_amount_unit" ∧ k ≠ "temperature_override" ∧
      k ≠ "analyte_mass" ∧ k ≠ "analyte_volume" := by
    simp only [List.mem_cons, List.not_mem_nil, or_false] at hk
    rcases hk with rfl | rfl | rfl | rfl <;> decide
  have hg : ∀ k', k' ≠ k → ((kw.set "titrant_density" d).set k v).get? k'
      = (kw.set "titrant_density" d).get? k' := fun k' h => Dict.get?_set_ne _ _ _ _ h
  have hm : titrant_masses dd ((kw.set "titrant_density" d).set k v)
      = titrant_masses dd (kw.set "titrant_density" d) := by
    have hdens : argOpt (kw.set "titrant_density" d) "titrant_density"
        = (do let x ← d.toFlt; return some x) := by
      simp only [argOpt, Dict.get?_set_self]
    have hdens' : argOpt ((kw.set "titrant_density" d).set k v) "titrant_density"
        = (do let x ← d.toFlt; return some x) := by
      rw [← hdens]; simp only [argOpt, hg _ (Ne.symm hk'.1)]
    simp only [titrant_masses, argVal, hg _ (Ne.symm hk'.2.1), hdens, hdens', bind_assoc, pure_bind]
  simp only [amount_units, hm, override_temperature, get_analyte_mass, argOpt, argNotNull,
    hg _ (Ne.symm hk'.2.2.1),
    hg _ (Ne.symm hk'.2.2.2.1), hg _ (Ne.symm hk'.2.2.2.2)]

/-- C37: without `titrant_density`, volumes are converted with the density of the titrant's acid. -/
theorem C37_computed_density (xs meas temp : List Flt) (b : Bool) (m : Flt) :
    titrant_masses ⟨xs, meas, temp, b⟩
        [("titrant", .str "h2so4"), ("molinity_H2SO4", .num m)]
      = .ok (xs.map fun x => x * H2SO4_25C_EAIM m * fin 1e-3) ∧
    titrant_masses ⟨xs, meas, temp, b⟩ []
      = .ok (xs.map fun x => x * HCl_NaCl_25C_DSC07 (fin 0.1) (fin 0.6) * fin 1e-3) := by
  have h1 : lowerS "ml" = "ml" := by decide
  have h2 : upperS "h2so4" = "H2SO4" := by decide
  have h3 : upperS "HCl" = "HCL" := by decide
  constructor
  · simp [titrant_masses, argVal, argOpt, argNum, Dict.get?, Val.lower, Val.upper, h1, h2, pyAssert,
      bind_ok, pure_ok, Val.toFlt]
  · simp [titrant_masses, argVal, argOpt, argNum, Dict.get?, Val.lower, Val.upper, h1, h3, pyAssert,
      bind_ok, pure_ok]

/-! ## C38 -/

/-- C38: a non-null analyte mass is used as it is and the volume has no effect. -/
theorem C38_mass_wins (dd : DatData) (S : Flt) (kw : Dict Val) (m : Flt) (v : Val) (hm : m ≠ nan) :
    amount_units dd S ((kw.set "analyte_mass" (.num m)).set "analyte_volume" v)
      = amount_units dd S (kw.set "analyte_mass" (.num m)) ∧
    ∀ cv, amount_units dd S (kw.set "analyte_mass" (.num m)) = .ok cv → cv.analyte_mass = m := by
  have hn : m.isNaN = false := by
    cases h : m.isNaN with
    | false => rfl
    | true => exact absurd (isNaN_iff _ |>.mp h) hm
  have hg : ∀ k', k' ≠ "analyte_volume" →
      ((kw.set "analyte_mass" (.num m)).set "analyte_volume" v).get? k'
      = (kw.set "analyte_mass" (.num m)).get? k' := fun k' h => Dict.get?_set_ne _ _ _ _ h
  have ham : argNotNull (kw.set "analyte_mass" (.num m)) "analyte_mass" = .ok (some m) := by
    simp [argNotNull, Dict.get?_set_self, Val.isNull, hn, Val.toFlt, bind_ok, pure_ok]
  have ham' : argNotNull ((kw.set "analyte_mass" (.num m)).set "analyte_volume" v) "analyte_mass"
      = .ok (some m) := by
    rw [← ham]; simp only [argNotNull, hg _ (show "analyte_mass" ≠ "analyte_volume" by decide)]
  have htm : titrant_masses dd ((kw.set "analyte_mass" (.num m)).set "analyte_volume" v)
      = titrant_masses dd (kw.set "analyte_mass" (.num m)) := by
    simp only [titrant_masses, argVal, argOpt, argNum, hg _ (show "titrant_amount_unit" ≠ _ by decide),
      hg _ (show "titrant_density" ≠ _ by decide), hg _ (show "titrant" ≠ _ by decide),
      hg _ (show "molinity_H2SO4" ≠ _ by decide), hg _ (show "molinity_HCl" ≠ _ by decide),
      hg _ (show "molinity_NaCl" ≠ _ by decide)]
  constructor
  · simp only [amount_units, override_temperature, get_analyte_mass, ham, ham', htm, bind_ok, argOpt,
      hg _ (show "temperature_override" ≠ _ by decide)]
  · intro cv h
    simp only [amount_units, get_analyte_mass, ham, bind_ok, bind_ok_iff, pure_ok,
      Except.ok.injEq] at h
    obtain ⟨_, -, _, -, _, rfl, rfl⟩ := h
    rfl

theorem c38_volume (dd : DatData) (S : Flt) (kw : Dict Val) (v : Flt) (hv : v ≠ nan)
    (hnull : ∀ x, kw.get? "analyte_mass" = some x → x.isNull = true)
    (hvol : kw.get? "analyte_volume" = some (.num v)) (cv : Converted)
    (h : amount_units dd S kw = .ok cv) :
    ∃ t ts, cv.temperature = t :: ts ∧ cv.analyte_mass = v * seawater_1atm_MP81 t S * fin 1e-3 := by
  have hn : v.isNaN = false := by
    cases h : v.isNaN with
    | false => rfl
    | true => exact absurd (isNaN_iff _ |>.mp h) hv
  have ham : argNotNull kw "analyte_mass" = .ok none := by
    unfold argNotNull
    cases hk : kw.get? "analyte_mass" with
    | none => rfl
    | some x => simp [hnull x hk]
  have hav : argNotNull kw "analyte_volume" = .ok (some v) := by
    simp [argNotNull, hvol, Val.isNull, hn, Val.toFlt, bind_ok, pure_ok]
  simp only [amount_units, get_analyte_mass, ham, hav, bind_ok, bind_ok_iff, pure_ok,
    Except.ok.injEq] at h
  obtain ⟨T, -, tm, -, am, ham, rfl⟩ := h
  cases T with
  | nil => simp at ham
  | cons t ts =>
    simp only [Except.ok.injEq] at ham
    exact ⟨t, ts, rfl, ham.symm⟩

/-- C38: if the mass is null, it is the volume times the density of seawater (PSS-78, 1 atm) at the
first temperature - the overriding one if there is one. -/
theorem C38_volume (dd : DatData) (S : Flt) (kw : Dict Val) (v : Flt) (hv : v ≠ nan)
    (hnull : ∀ x, kw.get? "analyte_mass" = some x → Spec.Null x)
    (hvol : kw.get? "analyte_volume" = some (.num v)) (cv : Converted)
    (h : amount_units dd S kw = .ok cv) :
    ∃ t ts, cv.temperature = t :: ts ∧ cv.analyte_mass = v * seawater_1atm_MP81 t S * fin 1e-3 := by
  simp only [← isNull_iff, Bool.not_eq_true] at *
  exact c38_volume dd S kw v hv hnull hvol cv h

theorem c38_neither (dd : DatData) (S : Flt) (kw : Dict Val)
    (hm : ∀ x, kw.get? "analyte_mass" = some x → x.isNull = true)
    (hv : ∀ x, kw.get? "analyte_volume" = some x → x.isNull = true) :
    (∀ cv, amount_units dd S kw ≠ .ok cv) ∧
    (∀ o tm, override_temperature dd kw = .ok o → titrant_masses dd kw = .ok tm →
      amount_units dd S kw = .error .AssertionError) := by
  have hnull : ∀ k, (∀ x, kw.get? k = some x → x.isNull = true) → argNotNull kw k = .ok none := by
    intro k hk
    unfold argNotNull
    cases h : kw.get? k with
    | none => rfl
    | some x => simp [hk x h]
  have ham := hnull _ hm
  have hav := hnull _ hv
  constructor
  · intro cv h
    simp only [amount_units, get_analyte_mass, ham, hav, bind_ok, bind_ok_iff] at h
    obtain ⟨_, -, _, -, _, h, -⟩ := h
    simp at h
  · intro o tm ho htm
    simp only [amount_units, get_analyte_mass, ham, hav, ho, htm, bind_ok, bind_error]

/-- C38: if both are null (or missing), AssertionError is raised (once the titrant amounts have been
converted). -/
theorem C38_neither (dd : DatData) (S : Flt) (kw : Dict Val)
    (hm : ∀ x, kw.get? "analyte_mass" = some x → Spec.Null x)
    (hv : ∀ x, kw.get? "analyte_volume" = some x → Spec.Null x) :
    (∀ cv, amount_units dd S kw ≠ .ok cv) ∧
    (∀ o tm, override_temperature dd kw = .ok o → titrant_masses dd kw = .ok tm →
      amount_units dd S kw = .error .AssertionError) := by
  simp only [← isNull_iff, Bool.not_eq_true] at *
  exact c38_neither dd S kw hm hv

/-- `t` without its decimals -/
def Spec.WithoutDecimals (t v : ℝ) : Prop := (∃ z : ℤ, v = z) ∧ |t - v| < 1 ∧ |v| ≤ |t| ∧ 0 ≤ v * t

theorem toInt64_spec (t : ℝ) (ht : |t| < 2 ^ 63) : ∃ v : ℝ, toInt64 (fin t) = fin v ∧ Spec.WithoutDecimals t v := by
  obtain ⟨h1, h2⟩ := abs_lt.mp ht
  by_cases h : 0 ≤ t
  · have hf : (⌊t⌋ : ℝ) ≤ t := Int.floor_le t
    have hl : t < (⌊t⌋ : ℝ) + 1 := Int.lt_floor_add_one t
    have h0 : (0 : ℝ) ≤ ⌊t⌋ := by exact_mod_cast Int.floor_nonneg.mpr h
    have hz : (-2 ^ 63 : ℤ) ≤ ⌊t⌋ ∧ ⌊t⌋ < 2 ^ 63 := by
      constructor
      · have : (0 : ℤ) ≤ ⌊t⌋ := Int.floor_nonneg.mpr h
        omega
      · exact_mod_cast lt_of_le_of_lt hf h2
    refine ⟨⌊t⌋, ?_, ⟨_, rfl⟩, ?_, ?_, mul_nonneg h0 h⟩
    · simp only [toInt64, if_pos h]
      rw [if_pos hz]
    · rw [abs_lt]; constructor <;> linarith
    · rwa [abs_of_nonneg h0, abs_of_nonneg h]
  · have h' : t < 0 := not_le.mp h
    have hf : t ≤ (⌈t⌉ : ℝ) := Int.le_ceil t
    have hl : (⌈t⌉ : ℝ) < t + 1 := Int.ceil_lt_add_one t
    have h0i : ⌈t⌉ ≤ 0 := Int.ceil_le.mpr (by exact_mod_cast h'.le)
    have h0 : (⌈t⌉ : ℝ) ≤ 0 := by exact_mod_cast h0i
    have hz : (-2 ^ 63 : ℤ) ≤ ⌈t⌉ ∧ ⌈t⌉ < 2 ^ 63 := by
      constructor
      · have : ((-2 ^ 63 : ℤ) : ℝ) < ⌈t⌉ := by
          push_cast
          linarith
        exact_mod_cast this.le
      · omega
    refine ⟨⌈t⌉, ?_, ⟨_, rfl⟩, ?_, ?_, mul_nonneg_of_nonpos_of_nonpos h0 h'.le⟩
    · simp only [toInt64, if_neg h]
      rw [if_pos hz]
    · rw [abs_lt]; constructor <;> linarith
    · rw [abs_of_nonpos h0, abs_of_neg h']; linarith

/-- C38: `temperature_override` replaces every temperature, but without its decimals if the
temperatures are kept as integers; without it they are the file's. -/
theorem C38_override (dd : DatData) (S : Flt) (kw : Dict Val) (cv : Converted)
    (h : amount_units dd S kw = .ok cv) :
    (∀ t, kw.get? "temperature_override" = some (.num t) → dd.temperature_int = false →
      cv.temperature = List.replicate dd.temperature.length t) ∧
    (∀ t, kw.get? "temperature_override" = some (.num (fin t)) → dd.temperature_int = true →
      |t| < 2 ^ 63 → ∃ v, Spec.WithoutDecimals t v ∧
        cv.temperature = List.replicate dd.temperature.length (fin v)) ∧
    ((kw.get? "temperature_override" = none ∨ kw.get? "temperature_override" = some .none) →
      cv.temperature = dd.temperature) ∧
    cv.measurement = dd.measurement ∧ cv.salinity = S ∧
    cv.titrant_mass.length = dd.titrant_amount.length := by
  simp only [amount_units, bind_ok_iff, pure_ok, Except.ok.injEq] at h
  obtain ⟨T, ho, tm, htm, am, -, rfl⟩ := h
  refine ⟨?_, ?_, ?_, rfl, rfl, ?_⟩
  · intro t ht hi
    simp only [override_temperature, argOpt, ht, Val.toFlt, bind_ok, pure_ok, Except.ok.injEq] at ho
    subst ho
    simp [List.map_const', hi]
  · intro t ht hi hb
    obtain ⟨v, hv, hs⟩ := toInt64_spec t hb
    simp only [override_temperature, argOpt, ht, Val.toFlt, bind_ok, pure_ok, Except.ok.injEq] at ho
    subst ho
    exact ⟨v, hs, by simp [List.map_const', hi, hv]⟩
  · rintro (ht | ht) <;>
      simp only [override_temperature, argOpt, ht, bind_ok, pure_ok, Except.ok.injEq] at ho <;>
      exact ho.symm
  · simp only [titrant_masses, bind_ok_iff] at htm
    obtain ⟨u, -, _, -, htm⟩ := htm
    split at htm
    · simp only [bind_ok_iff] at htm
      obtain ⟨d, -, htm⟩ := htm
      cases d with
      | some d => simp only [pure_ok, Except.ok.injEq] at htm; subst htm; simp
      | none =>
        simp only [bind_ok_iff] at htm
        obtain ⟨t, -, _, -, htm⟩ := htm
        split at htm
        · simp only [bind_ok_iff, pure_ok, Except.ok.injEq] at htm
          obtain ⟨_, -, rfl⟩ := htm; simp
        · simp only [bind_ok_iff, pure_ok, Except.ok.injEq] at htm
          obtain ⟨_, -, _, -, rfl⟩ := htm; simp
    · split at htm
      · simp only [pure_ok, Except.ok.injEq] at htm; subst htm; simp
      · simp only [pure_ok, Except.ok.injEq] at htm; subst htm; rfl

/-- a volume, with and without overriding the temperature -/
example : ∃ cv, amount_units ⟨[fin 1, fin 2], [fin 8, fin 4], [fin 20, fin 21], false⟩ (fin 35)
      [("analyte_volume", .num (fin 100)), ("titrant_amount_unit", .str "G"),
       ("temperature_override", .num (fin 25))] = .ok cv ∧
    cv.analyte_mass = fin 100 * seawater_1atm_MP81 (fin 25) (fin 35) * fin 1e-3 := by
  have h1 : lowerS "G" = "g" := by decide
  simp [amount_units, titrant_masses, override_temperature, get_analyte_mass, argVal, argOpt,
    argNotNull, Dict.get?, Val.lower, h1, pyAssert, bind_ok, pure_ok, Val.toFlt, Val.isNull]

end Calk
