import Verif.Lemmas.Kwargs
import Verif.Props.Convert
import Verif.Props.Files

/-!
# Property C91: which part of the calculation a setting reaches

Reading a file and getting it ready to be solved gives the titration in SI units, the salt contents
along the titration and the equilibrium constants.  Every setting reaches only the parts it is about;
`dilute_totals_for_ks` reaches only the constants.
-/

namespace Calk
open Flt

/-- settings about the equilibrium constants alone -/
def constantsOnly : List String :=
  ["dilute_totals_for_ks", "k_alpha", "k_ammonia", "k_beta", "k_bisulfate", "k_borate",
    "k_carbonic_1", "k_carbonic_2", "k_fluoride", "k_phosphoric_1", "k_phosphoric_2",
    "k_phosphoric_3", "k_silicate", "k_sulfide", "k_water", "opt_k_bisulfate", "opt_k_fluoride",
    "opt_pH_scale"]

/-- settings about the composition of the sample -/
def compositionOnly : List String :=
  ["dic", "total_alpha", "total_ammonia", "total_beta", "total_borate", "total_fluoride",
    "total_phosphate", "total_silicate", "total_sulfate", "total_sulfide", "opt_total_borate",
    "opt_k_carbonic"]

/-- settings about how the alkalinity is fitted -/
def fitOnly : List String :=
  ["solve_mode", "pH_min", "pH_max", "titrant_normality", "gran_logic", "double", "alkalinity_init",
    "emf0_init", "titrant_molinity_init"]

theorem get?_ne_set {kw : Dict Val} {k k' : String} {v : Val} (h : k' ≠ k) :
    (kw.set k v).get? k' = kw.get? k' := by rw [Dict.get?_set, if_neg h]

theorem kwargs_set_off {kw : Dict Val} {k : String} {v : Val} {keys : List String}
    (h : keys.contains k = false) : get_kwargs_for keys (kw.set k v) none = get_kwargs_for keys kw none :=
  Dict.filter_set (fun k => keys.contains k) kw v h

theorem kwargs_set_on {kw : Dict Val} {k : String} {v : Val} {keys : List String}
    (h : keys.contains k = true) :
    get_kwargs_for keys (kw.set k v) none = (get_kwargs_for keys kw none).set k v :=
  Dict.filter_set_pos (fun k => keys.contains k) kw v h

/-- **C91**: a setting about the fit changes nothing before the fit: the data, the contents and the
constants it starts from are the same. -/
theorem C91_fit (w : World) (f : String) (S : Flt) (kw : Dict Val) (k : String) (v : Val)
    (hk : k ∈ fitOnly) : load w f S (kw.set k v) = load w f S kw := by
  have h : k ≠ "file_path" ∧ keys_read_dat.contains k = false ∧ keys_cau.contains k = false ∧
      keys_totals_ks.contains k = false :=
    (by decide : ∀ k ∈ fitOnly, k ≠ "file_path" ∧ keys_read_dat.contains k = false ∧
      keys_cau.contains k = false ∧ keys_totals_ks.contains k = false) k hk
  obtain ⟨h1, h2, h3, h4⟩ := h
  simp only [load, full_name, get?_ne_set (Ne.symm h1), kwargs_set_off h2, kwargs_set_off h3,
    kwargs_set_off h4]

theorem load_parts {w : World} {f : String} {S : Flt} {kw : Dict Val}
    {out : Converted × Dict NpVal × Dict NpVal} (h : load w f S kw = .ok out) :
    ∃ fname dd, full_name f kw = .ok fname ∧
      w.readDat fname (get_kwargs_for keys_read_dat kw none) = .ok dd ∧
      amount_units dd S (get_kwargs_for keys_cau kw none) = .ok out.1 ∧
      totals_ks w out.1 (get_kwargs_for keys_totals_ks kw none) = .ok out.2 := by
  unfold load at h
  simp only [bind_ok_iff] at h
  obtain ⟨fname, h1, dd, h2, cv, h3, ⟨t, ks⟩, h4, h⟩ := h
  obtain rfl := Except.ok.inj h
  exact ⟨fname, dd, h1, h2, h3, h4⟩

theorem totals_ks_parts {w : World} {cv : Converted} {kw : Dict Val} {out : Dict NpVal × Dict NpVal}
    (h : totals_ks w cv kw = .ok out) :
    ∃ t tp tp', get_totals w cv.salinity (kw.filter fun kv => keys_get_totals.contains kv.1)
        = .ok (t, tp) ∧
      dilute_totals t cv.titrant_mass cv.analyte_mass = .ok out.1 ∧
      totals_for_ks cv tp kw = .ok tp' ∧
      get_k_constants w tp' cv.temperature
        (kw.filter fun kv => keys_get_k_constants.contains kv.1) = .ok out.2 := by
  unfold totals_ks at h
  simp only [bind_ok_iff] at h
  obtain ⟨⟨t, tp⟩, h1, t', h2, tp', h3, ks, h4, h⟩ := h
  obtain rfl := Except.ok.inj h
  exact ⟨t, tp, tp', h1, h2, h3, h4⟩

/-- **C91**: a setting about the composition or the constants leaves the titration itself (masses,
EMFs, temperatures, sample mass) as it is. -/
theorem C91_data (w : World) (f : String) (S : Flt) (kw : Dict Val) (k : String) (v : Val)
    (hk : k ∈ compositionOnly ++ constantsOnly) (out out' : Converted × Dict NpVal × Dict NpVal)
    (h : load w f S kw = .ok out) (h' : load w f S (kw.set k v) = .ok out') : out'.1 = out.1 := by
  obtain ⟨h1, h2, h3⟩ :=
    (by decide : ∀ k ∈ compositionOnly ++ constantsOnly, k ≠ "file_path" ∧
      keys_read_dat.contains k = false ∧ keys_cau.contains k = false) k hk
  obtain ⟨fn, dd, a1, a2, a3, -⟩ := load_parts h
  obtain ⟨fn', dd', b1, b2, b3, -⟩ := load_parts h'
  simp only [full_name, get?_ne_set (Ne.symm h1)] at b1
  rw [show full_name f kw = Except.ok fn' from b1] at a1
  obtain rfl := Except.ok.inj a1
  rw [kwargs_set_off h2, a2] at b2
  obtain rfl := Except.ok.inj b2
  rw [kwargs_set_off h3, a3] at b3
  exact (Except.ok.inj b3).symm

/-- **C91**: a setting about the constants leaves the contents as they are. -/
theorem C91_contents (w : World) (f : String) (S : Flt) (kw : Dict Val) (k : String) (v : Val)
    (hk : k ∈ constantsOnly) (out out' : Converted × Dict NpVal × Dict NpVal)
    (h : load w f S kw = .ok out) (h' : load w f S (kw.set k v) = .ok out') :
    out'.1 = out.1 ∧ out'.2.1 = out.2.1 := by
  have hcv := C91_data w f S kw k v (List.mem_append_right _ hk) out out' h h'
  refine ⟨hcv, ?_⟩
  obtain ⟨h1, h2⟩ :=
    (by decide : ∀ k ∈ constantsOnly, keys_totals_ks.contains k = true ∧
      keys_get_totals.contains k = false) k hk
  obtain ⟨-, -, -, -, -, a⟩ := load_parts h
  obtain ⟨-, -, -, -, -, b⟩ := load_parts h'
  obtain ⟨t, tp, -, a1, a2, -⟩ := totals_ks_parts a
  obtain ⟨t', tp', -, b1, b2, -⟩ := totals_ks_parts b
  rw [kwargs_set_on h1] at b1
  rw [Dict.filter_set (fun k => keys_get_totals.contains k) _ v h2, hcv, a1] at b1
  obtain ⟨rfl, rfl⟩ := Prod.mk.inj (Except.ok.inj b1)
  rw [hcv, a2] at b2
  exact (Except.ok.inj b2).symm

/-- **C91**: with `dilute_totals_for_ks` true the constants are those of the contents diluted by the
titrant, point by point; otherwise they are those of the undiluted sample.  Either way PyCO2SYS gets
the salinity of the sample. -/
theorem C91_dilute (w : World) (cv : Converted) (kw : Dict Val) (t ks : Dict NpVal)
    (h : totals_ks w cv kw = .ok (t, ks)) :
    ∃ (t0 tp tp' : Dict NpVal),
      get_totals w cv.salinity (kw.filter fun kv => keys_get_totals.contains kv.1) = .ok (t0, tp) ∧
      get_k_constants w tp' cv.temperature
        (kw.filter fun kv => keys_get_k_constants.contains kv.1) = .ok ks ∧
      (¬ Spec.Counts (argVal kw "dilute_totals_for_ks" (.bool false)) → tp' = tp) ∧
      (Spec.Counts (argVal kw "dilute_totals_for_ks" (.bool false)) →
        ∀ (k : String) (v : NpVal), tp.get? k = some v → ∃ x, tp'.get? k = some x ∧
          (k ∈ ["TB", "TF", "TSO4", "TCa", "alpha", "beta", "TPO4", "TSi", "TNH3", "TH2S"] →
            ∀ (i : ℕ) (hi : i < cv.titrant_mass.length),
              x.at_ i = v.at_ i * (cv.analyte_mass / (cv.titrant_mass[i] + cv.analyte_mass))) ∧
          (k ∉ ["TB", "TF", "TSO4", "TCa", "alpha", "beta", "TPO4", "TSi", "TNH3", "TH2S"] →
            x = v)) := by
  obtain ⟨t0, tp, tp', h1, -, h3, h4⟩ := totals_ks_parts h
  refine ⟨t0, tp, tp', h1, h4, ?_, ?_⟩
  · intro hf
    unfold totals_for_ks at h3
    rw [truthy_false.mpr hf] at h3
    exact (Except.ok.inj h3).symm
  · intro ht
    unfold totals_for_ks at h3
    rw [truthy_iff.mpr ht, if_pos rfl] at h3
    exact (C06_pyco2_selective tp cv.titrant_mass cv.analyte_mass tp' h3).2

/-- a world where the bisulfate constant is a tenth of the total sulfate it is given -/
noncomputable def saltyWorld : World :=
  { exWorld with
    equilibriaAssemble := fun _ tp _ _ _ _ _ =>
      match tp.get? "TSO4" with
      | some v => do
        let x ← v.bin (fun x y => x * y) (.scalar (fin 0.1))
        return [("KSO4", x), ("KF", .scalar (fin 0.002))]
      | none => .error .ValueError }

/-- C91 applies, and the setting makes a difference: the constant is the same at every point without
it and follows the dilution with it -/
example : ∃ t t' ks ks',
    load saltyWorld "f.dat" (fin 35) (exKw "emf") = .ok (exCv, t, ks) ∧
    load saltyWorld "f.dat" (fin 35) ((exKw "emf").set "dilute_totals_for_ks" (.bool true))
      = .ok (exCv, t', ks') ∧
    ks.get? "k_bisulfate" = some (.scalar (fin 0.028 * fin 0.1)) ∧
    (∃ v, ks'.get? "k_bisulfate" = some v ∧
      v.at_ 1 = fin 0.028 * (fin 0.1 / (fin 0.001 + fin 0.1)) * fin 0.1) := by
  have hc : amount_units
      { titrant_amount := [fin 0, fin 0.001, fin 0.002], measurement := [fin 8, fin 3.5, fin 3.2],
        temperature := [fin 25, fin 25, fin 25] } (fin 35)
        [("titrant_amount_unit", .str "kg"), ("analyte_mass", .num (fin 0.1))] = .ok exCv := by
    have hl : lowerS "kg" = "kg" := by decide
    simp [amount_units, override_temperature, get_analyte_mass, exCv, argOpt, argNotNull, argVal,
      titrant_masses, Dict.get?, Val.lower, hl, pyAssert, Val.isNull, Val.toFlt, bind_ok, pure_ok]
  have h1 : get_kwargs_for keys_cau (exKw "emf") none
      = [("titrant_amount_unit", .str "kg"), ("analyte_mass", .num (fin 0.1))] := by
    simp [get_kwargs_for, exKw, keys_cau]
  have h2 : get_kwargs_for keys_totals_ks (exKw "emf") none = [] := by
    simp [get_kwargs_for, exKw, keys_totals_ks]
  have h3 : get_kwargs_for keys_totals_ks ((exKw "emf").set "dilute_totals_for_ks" (.bool true)) none
      = [("dilute_totals_for_ks", .bool true)] := by
    simp [get_kwargs_for, exKw, keys_totals_ks, Dict.set]
  have hf : full_name "f.dat" (exKw "emf") = .ok "f.dat" := by
    simp [full_name, exKw, Dict.get?]
  have hf' : full_name "f.dat" ((exKw "emf").set "dilute_totals_for_ks" (.bool true)) = .ok "f.dat" := by
    simp [full_name, exKw, Dict.get?, Dict.set]
  have a : ∃ t ks, totals_ks saltyWorld exCv [] = .ok (t, ks) ∧
      ks.get? "k_bisulfate" = some (.scalar (fin 0.028 * fin 0.1)) := by
    simp [saltyWorld, exWorld, exCv, totals_ks, totals_for_ks, get_totals, get_k_constants,
      ks_for_pyco2, argNum, argNotNull, argVal, copyIfPos, setIfPos, setIf, dilute_totals,
      Dict.mapValsM, NpVal.zipW, NpVal.fits, bind_ok, pure_ok, Dict.get, Dict.get?, Dict.set,
      Val.truthy, Val.eqNum, feq, calk_to_pyco2_ks, Dict.has, NpVal.bin]
  have b : ∃ t ks, totals_ks saltyWorld exCv [("dilute_totals_for_ks", .bool true)] = .ok (t, ks) ∧
      ∃ v, ks.get? "k_bisulfate" = some v ∧
        v.at_ 1 = fin 0.028 * (fin 0.1 / (fin 0.001 + fin 0.1)) * fin 0.1 := by
    simp [saltyWorld, exWorld, exCv, totals_ks, totals_for_ks, get_totals, get_k_constants,
      ks_for_pyco2, argNum, argNotNull, argVal, copyIfPos, setIfPos, setIf, dilute_totals,
      Dict.mapValsM, NpVal.zipW, NpVal.fits, bind_ok, pure_ok, Dict.get, Dict.get?, Dict.set,
      Val.truthy, Val.eqNum, feq, calk_to_pyco2_ks, Dict.has, NpVal.bin, dilute_totals_pyco2,
      pyco2_diluted_keys, keys_get_totals, keys_get_k_constants, dilution_factors,
      get_dilution_factor, NpVal.bcast]
    rfl
  have hr : ∀ kw, saltyWorld.readDat "f.dat" kw = .ok
      { titrant_amount := [fin 0, fin 0.001, fin 0.002], measurement := [fin 8, fin 3.5, fin 3.2],
        temperature := [fin 25, fin 25, fin 25] } := fun _ => rfl
  obtain ⟨t, ks, a1, a2⟩ := a
  obtain ⟨t', ks', b1, b2⟩ := b
  refine ⟨t, t', ks, ks', ?_, ?_, a2, b2⟩
  · simp only [load, hf, h1, h2, bind_ok]
    rw [hr, bind_ok, hc, bind_ok, a1]
    rfl
  · simp only [load, hf', h3, kwargs_set_off (show keys_cau.contains "dilute_totals_for_ks" = false
      by decide), h1, bind_ok]
    rw [hr, bind_ok, hc, bind_ok, b1]
    rfl

end Calk
