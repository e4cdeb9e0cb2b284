import Verif.Props.ReadTypes
import Verif.Props.SettingScope
import Verif.Props.Settings

/-!
# Property C38, for files: where `temperature_override` loses its decimals
-/

namespace Calk
open Flt

/-- **C38**: the temperatures of a file are kept as integers only if it is a Tiamo file in whose table
that column has no decimals. -/
theorem C38_readers (fs : FS) (pd : Pandas) (f : String) (kw : Dict Val) (d : DatData)
    (h : read_dat fs pd f kw = .ok (.dat d)) (hi : d.temperature_int = true) :
    kw.get? "file_type" = some (.str "tiamo_de") ∧
      ∃ n, "Temperatur [°C]" ∈ pd.csvInts f n ∨ "temperature" ∈ pd.csvInts f n := by
  unfold read_dat at h
  simp only [bind_ok_iff] at h
  obtain ⟨⟨r, wn⟩, hr, h⟩ := h
  cases r with
  | genfromtxt =>
    simp only [callReader, read_dat_genfromtxt, bind_ok_iff, pure_ok, Except.ok.injEq,
      ReadResult.dat.injEq] at h
    obtain ⟨_, -, _, -, _, -, _, -, _, -, _, -, d', ⟨_, -, _, -, _, -, _, -, _, -, rfl⟩, rfl⟩ := h
    cases hi
  | pclims =>
    simp only [callReader, read_dat_pclims, bind_ok_iff, pure_ok, Except.ok.injEq,
      ReadResult.dat.injEq] at h
    obtain ⟨_, -, _, -, _, -, _, -, _, -, d', ⟨_, -, _, -, _, -, _, -, _, -, rfl⟩, rfl⟩ := h
    cases hi
  | orgalk_excel =>
    simp only [callReader, bind_ok_iff, pure_ok, Except.ok.injEq] at h
    obtain ⟨_, -, _, -, h⟩ := h
    cases h
  | tiamo_de =>
    refine ⟨?_, ?_⟩
    · have key : ∀ s : String, chooseReader (.str s) = .ok (Reader.tiamo_de, wn) → s = "tiamo_de" := by
        intro s hs
        unfold chooseReader at hs
        cases hg : file_types.get? s with
        | none => simp [hg] at hs
        | some r =>
          simp only [hg, Except.ok.injEq, Prod.mk.injEq] at hs
          have hm := Dict.mem_of_get? hg
          rw [hs.1] at hm
          simpa [file_types] using hm
      unfold argVal at hr
      cases hk : kw.get? "file_type" with
      | none => rw [hk] at hr; exact absurd (key _ hr) (by decide)
      | some v =>
        rw [hk, Option.getD_some] at hr
        cases v with
        | str s => rw [key s hr]
        | _ => simp [chooseReader] at hr
    · simp only [callReader, read_tiamo_de, read_tiamo_de_df, bind_ok_iff, pure_ok, Except.ok.injEq,
        ReadResult.dat.injEq] at h
      obtain ⟨_, -, d', ⟨⟨_, b⟩, ⟨_, -, g, -, _, -, _, -, _, -, _, -, _, -, e⟩, _, -, _, -, _, -, rfl⟩, rfl⟩ := h
      obtain ⟨-, rfl⟩ := Prod.mk.inj e
      have hi' : ((pd.csvInts f (g + 1)).map tiamoRename).contains "temperature" = true := hi
      rw [tiamo_temperatures, List.any_eq_true] at hi'
      obtain ⟨c, hc, hi'⟩ := hi'
      simp only [Bool.or_eq_true, beq_iff_eq] at hi'
      refine ⟨g + 1, hi'.imp ?_ ?_⟩ <;> (rintro rfl; exact hc)

theorem toInt64_again {t v : ℝ} (ht : |t| < 2 ^ 63) (hv : Spec.WithoutDecimals t v) :
    toInt64 (fin t) = fin v ∧ toInt64 (fin v) = fin v := by
  have uniq : ∀ {t v v' : ℝ}, Spec.WithoutDecimals t v → Spec.WithoutDecimals t v' → v = v' := by
    rintro t v v' ⟨⟨z, rfl⟩, h1, h2, h3⟩ ⟨⟨z', rfl⟩, h1', h2', h3'⟩
    have key : ∀ {t : ℝ} {z z' : ℤ}, |t - z| < 1 → |(z : ℝ)| ≤ |t| → 0 ≤ z * t → |t - z'| < 1 →
        |(z' : ℝ)| ≤ |t| → 0 ≤ z' * t → z ≤ z' := by
      intro t z z' h1 h2 h3 h1' h2' h3'
      by_contra hlt
      have hlt : z' + 1 ≤ z := by omega
      have hr : (z' : ℝ) + 1 ≤ z := by exact_mod_cast hlt
      obtain ⟨a1, a2⟩ := abs_lt.mp h1
      obtain ⟨b1, b2⟩ := abs_lt.mp h1'
      rcases le_or_gt 0 t with h | h
      · rw [abs_of_nonneg h] at h2
        have := le_abs_self (z : ℝ)
        linarith
      · rw [abs_of_neg h] at h2'
        have := neg_abs_le (z' : ℝ)
        linarith
    exact_mod_cast le_antisymm (key h1 h2 h3 h1' h2' h3') (key h1' h2' h3' h1 h2 h3)
  obtain ⟨u, hu, hs⟩ := toInt64_spec t ht
  obtain ⟨u', hu', hs'⟩ := toInt64_spec v (lt_of_le_of_lt hv.2.2.1 ht)
  have hself : Spec.WithoutDecimals v v := ⟨hv.1, by simp, le_refl _, mul_self_nonneg v⟩
  rw [hu, hu', uniq hs hv, uniq hs' hself]
  exact ⟨rfl, rfl⟩

/-- **C38**: for a titration whose temperatures are kept as integers, the decimals of
`temperature_override` have no effect on anything: solving and calibrating give what they give for the
whole number. -/
theorem C38_decimals (w : World) (f : String) (S : Flt) (kw : Dict Val) (t v : ℝ)
    (ht : |t| < 2 ^ 63) (hv : Spec.WithoutDecimals t v)
    (hi : ∀ g a d, full_name f kw = .ok g → w.readDat g a = .ok d → d.temperature_int = true) :
    (∀ c, files_solve w f c S (kw.set "temperature_override" (.num (fin t)))
      = files_solve w f c S (kw.set "temperature_override" (.num (fin v)))) ∧
    (∀ c, files_calibrate w f c S (kw.set "temperature_override" (.num (fin t)))
      = files_calibrate w f c S (kw.set "temperature_override" (.num (fin v)))) := by
  obtain ⟨e1, e2⟩ := toInt64_again ht hv
  have hne : ∀ (k : String) (x : Val), k ≠ "temperature_override" →
      (kw.set "temperature_override" x).get? k = kw.get? k := fun k x h => Dict.get?_set_ne _ _ _ _ h
  have hl : load w f S (kw.set "temperature_override" (.num (fin t)))
      = load w f S (kw.set "temperature_override" (.num (fin v))) := by
    have hf : ∀ x, full_name f (kw.set "temperature_override" x) = full_name f kw := fun x => by
      unfold full_name; rw [hne "file_path" x (by decide)]
    simp only [load, hf,
      kwargs_set_off (k := "temperature_override") (keys := keys_read_dat) (by decide),
      kwargs_set_off (k := "temperature_override") (keys := keys_totals_ks) (by decide),
      kwargs_set_on (k := "temperature_override") (keys := keys_cau) (by decide)]
    cases hfn : full_name f kw with
    | error e => rfl
    | ok g =>
    simp only [bind_ok]
    cases hr : w.readDat g (get_kwargs_for keys_read_dat kw none) with
    | error e => rfl
    | ok d =>
      simp only [bind_ok]
      congr 1
      have hd := hi g _ d hfn hr
      have hg : ∀ (k : String) (x : Val), k ≠ "temperature_override" →
          ((get_kwargs_for keys_cau kw none).set "temperature_override" x).get? k
            = (get_kwargs_for keys_cau kw none).get? k := fun k x h => Dict.get?_set_ne _ _ _ _ h
      simp only [amount_units, override_temperature, titrant_masses, get_analyte_mass, argOpt, argVal,
        argNum, argNotNull, Dict.get?_set_self, hg _ _ (show "titrant_amount_unit" ≠ _ by decide),
        hg _ _ (show "titrant_density" ≠ _ by decide), hg _ _ (show "titrant" ≠ _ by decide),
        hg _ _ (show "molinity_H2SO4" ≠ _ by decide), hg _ _ (show "molinity_HCl" ≠ _ by decide),
        hg _ _ (show "molinity_NaCl" ≠ _ by decide), hg _ _ (show "analyte_mass" ≠ _ by decide),
        hg _ _ (show "analyte_volume" ≠ _ by decide), Val.toFlt, bind_ok, pure_ok, hd, if_true, e1, e2]
  have hm : ∀ x, solve_mode (kw.set "temperature_override" x) = solve_mode kw := fun x =>
    solve_mode_set x (by decide)
  constructor
  · intro c
    have htt : ∀ x, titrant_totals (kw.set "temperature_override" x) = titrant_totals kw := fun x => by
      unfold titrant_totals
      rw [Dict.filter_set (fun k => keys_titrant_totals.contains k) kw x (by decide)]
    simp only [files_solve, hl, hm, htt, solve_dispatch_set _ (show "temperature_override" ∉ keys_solve_emf
      by decide) (show "temperature_override" ∉ keys_solve_pH by decide)
      (show "temperature_override" ∉ keys_solve_pH_gran by decide)]
  · intro c
    simp only [files_calibrate, hl, hm, calibrate_dispatch_set _ (show "temperature_override" ∉
      keys_calibrate_emf by decide) (show "temperature_override" ∉ keys_calibrate_pH by decide)
      (show "temperature_override" ∉ keys_calibrate_pH_gran by decide)]

/-- **C38**: a Tiamo file with whole temperatures solved at 24.7 °C is solved at 24 °C. -/
theorem C38_witness : ∃ d, readDatFrom tiamoFS tiamoTable "f" [("file_type", .str "tiamo_de")] = .ok d ∧
    ∀ (S : Flt) (kw : Dict Val) (cv : Converted),
      amount_units d S (kw.set "temperature_override" (.num (fin 24.7))) = .ok cv →
      cv.temperature = [fin 24, fin 24] := by
  refine ⟨⟨[fin 0, fin 0.25].map (· + fin 1.5), [fin 7, fin 6.5], [fin 25, fin 25], true⟩, ?_, ?_⟩
  · unfold readDatFrom read_dat
    have hc : chooseReader (argVal [("file_type", .str "tiamo_de")] "file_type" (.str "genfromtxt"))
        = .ok (.tiamo_de, none) := by with_unfolding_all rfl
    have ha : acceptOnly ["encoding"] (([("file_type", Val.str "tiamo_de")] : Dict Val).filter fun kv =>
        kv.1 ≠ "file_type") = .ok () := by with_unfolding_all rfl
    simp only [hc, bind_ok, callReader, ha, tiamo_read, pure_ok, asDatData]
  · intro S kw cv h
    obtain ⟨v, hv, hT⟩ := (C38_override _ S _ cv h).2.1 24.7 (Dict.get?_set_self _ _ _) rfl
      (by rw [abs_of_pos] <;> norm_num)
    have h24 : Spec.WithoutDecimals 24.7 24 := by
      refine ⟨⟨24, by norm_num⟩, ?_, ?_, by norm_num⟩
      · rw [abs_of_pos] <;> norm_num
      · rw [abs_of_pos, abs_of_pos] <;> norm_num
    have e : fin v = fin 24 := by
      rw [← (toInt64_again (by rw [abs_of_pos] <;> norm_num) hv).1,
        (toInt64_again (by rw [abs_of_pos] <;> norm_num) h24).1]
    rw [hT, e]
    rfl

/-- such a titration does get through the conversion -/
example : ∃ cv, amount_units ⟨[fin 1.5, fin 1.75], [fin 7, fin 6.5], [fin 25, fin 25], true⟩ (fin 35)
    [("analyte_mass", .num (fin 0.1)), ("titrant_amount_unit", .str "g"),
      ("temperature_override", .num (fin 24.7))] = .ok cv := by
  have h1 : lowerS "g" = "g" := by decide
  simp [amount_units, titrant_masses, override_temperature, get_analyte_mass, argVal, argOpt,
    argNotNull, Dict.get?, Val.lower, h1, pyAssert, bind_ok, pure_ok, Val.toFlt, Val.isNull]

/-- `C38_decimals` applies to the files of a disk with that one file -/
example (w : World) (f : String) (c S : Flt) (kw : Dict Val)
    (hw : w.readDat = fun _ _ => read_tiamo_de tiamoFS tiamoTable "f") :
    files_solve w f c S (kw.set "temperature_override" (.num (fin 24.7)))
      = files_solve w f c S (kw.set "temperature_override" (.num (fin 24))) := by
  refine (C38_decimals w f S kw 24.7 24 (by rw [abs_of_pos] <;> norm_num) ?_ ?_).1 c
  · refine ⟨⟨24, by norm_num⟩, ?_, ?_, by norm_num⟩
    · rw [abs_of_pos] <;> norm_num
    · rw [abs_of_pos, abs_of_pos] <;> norm_num
  · intro g a d _ hd
    rw [hw] at hd
    simp only [tiamo_read, Except.ok.injEq] at hd
    rw [← hd]

end Calk
