import Verif.Lemmas.Kwargs

/-!
# Property C89: leaving a setting out is the same as giving its default

The table of defaults is that of the documentation and `default.py`.
-/

namespace Calk
open Flt

/-- The settings of `calk.titration`, `files.solve` and `files.calibrate` with their defaults. -/
noncomputable def defaults : Dict Val :=
  [ -- core.py: solving
    ("solve_mode", .str "emf"), ("pH_min", .num (fin 3)), ("pH_max", .num (fin 4)),
    ("titrant_normality", .num (fin 1)), ("gran_logic", .str "v23.7+"), ("double", .bool true),
    ("alkalinity_init", .none), ("emf0_init", .none), ("titrant_molinity_init", .num (fin 0.1)),
    -- convert.py: units
    ("titrant_amount_unit", .str "ml"), ("titrant", .str "HCl"), ("titrant_density", .none),
    ("molinity_HCl", .num (fin 0.1)), ("molinity_NaCl", .num (fin 0.6)),
    ("molinity_H2SO4", .num (fin 0.1)), ("analyte_mass", .none), ("analyte_volume", .none),
    ("temperature_override", .none),
    -- interface.py: totals
    ("dic", .num (fin 0)), ("total_alpha", .num (fin 0)), ("total_beta", .num (fin 0)),
    ("total_ammonia", .num (fin 0)), ("total_phosphate", .num (fin 0)),
    ("total_silicate", .num (fin 0)), ("total_sulfide", .num (fin 0)), ("total_borate", .none),
    ("total_fluoride", .none), ("total_sulfate", .none), ("opt_total_borate", .num (fin 1)),
    -- interface.py: constants
    ("opt_k_carbonic", .num (fin 10)), ("opt_k_bisulfate", .num (fin 1)),
    ("opt_k_fluoride", .num (fin 1)), ("opt_pH_scale", .num (fin 3)),
    ("dilute_totals_for_ks", .bool false), ("k_alpha", .none), ("k_ammonia", .none),
    ("k_beta", .none), ("k_bisulfate", .none), ("k_borate", .none), ("k_carbonic_1", .none),
    ("k_carbonic_2", .none), ("k_fluoride", .none), ("k_phosphoric_1", .none),
    ("k_phosphoric_2", .none), ("k_phosphoric_3", .none), ("k_silicate", .none),
    ("k_sulfide", .none), ("k_water", .none) ]

/-- the value that a setting has -/
noncomputable def effective (kw : Dict Val) (k : String) : Option Val :=
  (kw.get? k).or (defaults.get? k)

def SameEff (kw kw' : Dict Val) : Prop := ∀ k, effective kw k = effective kw' k

theorem SameEff.argNum {kw kw' : Dict Val} (h : SameEff kw kw') (k : String) {d : Flt}
    (hd : defaults.get? k = some (.num d)) : argNum kw k d = argNum kw' k d := by
  have := h k
  unfold effective at this
  rw [hd] at this
  unfold Calk.argNum
  cases h1 : kw.get? k <;> cases h2 : kw'.get? k <;> rw [h1, h2] at this <;> simp at this
  all_goals subst this; first | rfl | simp [Val.toFlt]

theorem SameEff.argOpt {kw kw' : Dict Val} (h : SameEff kw kw') (k : String)
    (hd : defaults.get? k = some .none) : argOpt kw k = argOpt kw' k := by
  have := h k
  unfold effective at this
  rw [hd] at this
  unfold Calk.argOpt
  cases h1 : kw.get? k <;> cases h2 : kw'.get? k <;> rw [h1, h2] at this <;> simp at this
  all_goals subst this; first | rfl | simp 

theorem SameEff.argNotNull {kw kw' : Dict Val} (h : SameEff kw kw') (k : String)
    (hd : defaults.get? k = some .none) : argNotNull kw k = argNotNull kw' k := by
  have := h k
  unfold effective at this
  rw [hd] at this
  unfold Calk.argNotNull
  cases h1 : kw.get? k <;> cases h2 : kw'.get? k <;> rw [h1, h2] at this <;> simp at this
  all_goals subst this; first | rfl | simp [Val.isNull]

theorem SameEff.argVal {kw kw' : Dict Val} (h : SameEff kw kw') (k : String) {d : Val}
    (hd : defaults.get? k = some d) : argVal kw k d = argVal kw' k d := by
  have := h k
  unfold effective at this
  rw [hd] at this
  unfold Calk.argVal
  cases h1 : kw.get? k <;> cases h2 : kw'.get? k <;> rw [h1, h2] at this <;> simp at this <;>
    simp_all

theorem SameEff.filter {kw kw' : Dict Val} (h : SameEff kw kw') (p : String → Bool) :
    SameEff (kw.filter fun kv => p kv.1) (kw'.filter fun kv => p kv.1) := by
  intro k
  have := h k
  unfold effective at this ⊢
  rw [Dict.get?_filter p kw k, Dict.get?_filter p kw' k]
  cases p k
  · rfl
  · simpa using this

theorem SameEff.kwargs {kw kw' : Dict Val} (h : SameEff kw kw') (keys : List String) :
    SameEff (get_kwargs_for keys kw none) (get_kwargs_for keys kw' none) :=
  h.filter fun k => keys.contains k

theorem SameEff.set {kw kw' : Dict Val} (h : SameEff kw kw') (k : String) (v : Val) :
    SameEff (kw.set k v) (kw'.set k v) := by
  intro k'
  have := h k'
  unfold effective at this ⊢
  rw [Dict.get?_set, Dict.get?_set]
  split <;> simp [this]

macro "dflt" : term => `((by with_unfolding_all rfl))

theorem SameEff.amount_units {kw kw' : Dict Val} (h : SameEff kw kw') (dd : DatData) (S : Flt) :
    amount_units dd S kw = amount_units dd S kw' := by
  simp only [Calk.amount_units, override_temperature, titrant_masses, get_analyte_mass,
    h.argOpt "temperature_override" dflt, h.argVal "titrant_amount_unit" dflt,
    h.argOpt "titrant_density" dflt, h.argVal "titrant" dflt, h.argNum "molinity_H2SO4" dflt,
    h.argNum "molinity_HCl" dflt, h.argNum "molinity_NaCl" dflt, h.argNotNull "analyte_mass" dflt,
    h.argNotNull "analyte_volume" dflt]

theorem SameEff.get_totals {kw kw' : Dict Val} (h : SameEff kw kw') (w : World) (S : Flt) :
    get_totals w S kw = get_totals w S kw' := by
  simp only [Calk.get_totals, h.argNum "dic" dflt, h.argNum "total_alpha" dflt,
    h.argNum "total_beta" dflt, h.argNum "total_ammonia" dflt, h.argNum "total_phosphate" dflt,
    h.argNum "total_silicate" dflt, h.argNum "total_sulfide" dflt, h.argNotNull "total_borate" dflt,
    h.argNotNull "total_fluoride" dflt, h.argNotNull "total_sulfate" dflt,
    h.argVal "opt_k_carbonic" dflt, h.argVal "opt_total_borate" dflt]

theorem SameEff.ks_for_pyco2 {kw kw' : Dict Val} (h : SameEff kw kw') (table : List (String × String))
    (ht : ∀ e ∈ table, defaults.get? e.1 = some .none) (d : Dict NpVal) :
    ks_for_pyco2 kw table d = ks_for_pyco2 kw' table d := by
  induction table generalizing d with
  | nil => rfl
  | cons e rest ih =>
    obtain ⟨k, pk⟩ := e
    simp only [Calk.ks_for_pyco2, h.argNotNull k (ht (k, pk) (List.mem_cons_self ..)),
      ih fun e he => ht e (List.mem_cons_of_mem _ he)]

theorem ks_defaults : ∀ e ∈ calk_to_pyco2_ks, defaults.get? e.1 = some .none := by
  intro e he
  unfold calk_to_pyco2_ks at he
  simp only [List.mem_cons, List.not_mem_nil, or_false] at he
  rcases he with rfl | rfl | rfl | rfl | rfl | rfl | rfl | rfl | rfl | rfl | rfl | rfl | rfl | rfl <;>
    with_unfolding_all rfl

theorem SameEff.get_k_constants {kw kw' : Dict Val} (h : SameEff kw kw') (w : World)
    (tp : Dict NpVal) (T : List Flt) : get_k_constants w tp T kw = get_k_constants w tp T kw' := by
  simp only [Calk.get_k_constants, h.ks_for_pyco2 _ ks_defaults, h.argVal "opt_pH_scale" dflt,
    h.argVal "opt_k_carbonic" dflt, h.argVal "opt_k_bisulfate" dflt, h.argVal "opt_k_fluoride" dflt]

theorem SameEff.totals_ks {kw kw' : Dict Val} (h : SameEff kw kw') (w : World) (cv : Converted) :
    totals_ks w cv kw = totals_ks w cv kw' := by
  simp only [Calk.totals_ks, totals_for_ks, h.argVal "dilute_totals_for_ks" dflt,
    (h.filter fun k => keys_get_totals.contains k).get_totals,
    (h.filter fun k => keys_get_k_constants.contains k).get_k_constants]

theorem SameEff.emf_opts {kw kw' : Dict Val} (h : SameEff kw kw') : emf_opts kw = emf_opts kw' := by
  simp only [Calk.emf_opts, h.argOpt "alkalinity_init" dflt, h.argOpt "emf0_init" dflt,
    h.argNum "pH_min" dflt, h.argNum "pH_max" dflt, h.argNum "titrant_normality" dflt,
    h.argVal "gran_logic" dflt, h.argVal "double" dflt]

theorem SameEff.ph_opts {kw kw' : Dict Val} (h : SameEff kw kw') : ph_opts kw = ph_opts kw' := by
  simp only [Calk.ph_opts, h.argNum "pH_min" dflt, h.argNum "pH_max" dflt,
    h.argNum "titrant_normality" dflt]

/-- settings that differ only by defaults given or not -/
structure UpToDefaults (kw kw' : Dict Val) : Prop where
  eff : SameEff kw kw'
  path : kw.get? "file_path" = kw'.get? "file_path"
  read : get_kwargs_for keys_read_dat kw none = get_kwargs_for keys_read_dat kw' none
  tts : (kw.filter fun kv => keys_titrant_totals.contains kv.1)
    = kw'.filter fun kv => keys_titrant_totals.contains kv.1

theorem UpToDefaults.refl (kw : Dict Val) : UpToDefaults kw kw := ⟨fun _ => rfl, rfl, rfl, rfl⟩

theorem UpToDefaults.trans {a b c : Dict Val} (h : UpToDefaults a b) (h' : UpToDefaults b c) :
    UpToDefaults a c :=
  ⟨fun k => (h.eff k).trans (h'.eff k), h.path.trans h'.path, h.read.trans h'.read, h.tts.trans h'.tts⟩

theorem defaults_keys : ∀ k ∈ defaults.keys, k ≠ "file_path" ∧ keys_read_dat.contains k = false ∧
    keys_titrant_totals.contains k = false := by decide +kernel

theorem upToDefaults_set {kw : Dict Val} {k : String} {v : Val} (hd : defaults.get? k = some v)
    (hk : kw.get? k = none) : UpToDefaults (kw.set k v) kw := by
  have hm : k ∈ defaults.keys := by
    by_contra hc
    rw [(Dict.get?_eq_none_iff _ _).mpr hc] at hd
    cases hd
  obtain ⟨h1, h2, h3⟩ := defaults_keys k hm
  refine ⟨fun k' => ?_, ?_, Dict.filter_set _ kw v h2, Dict.filter_set _ kw v h3⟩
  · unfold effective
    rw [Dict.get?_set]
    split
    · rename_i he
      subst he
      rw [hk, hd]; rfl
    · rfl
  · rw [Dict.get?_set, if_neg (Ne.symm h1)]

theorem UpToDefaults.load {kw kw' : Dict Val} (h : UpToDefaults kw kw') (w : World) (f : String)
    (S : Flt) : load w f S kw = load w f S kw' := by
  simp only [Calk.load, full_name, h.path, h.read, (h.eff.kwargs keys_cau).amount_units,
    (h.eff.kwargs keys_totals_ks).totals_ks]

theorem UpToDefaults.files_solve {kw kw' : Dict Val} (h : UpToDefaults kw kw') (w : World)
    (f : String) (c S : Flt) : files_solve w f c S kw = files_solve w f c S kw' := by
  have ht : titrant_totals kw = titrant_totals kw' := by simp only [titrant_totals, h.tts]
  have hm : solve_mode kw = solve_mode kw' := by
    simp only [solve_mode, h.eff.argVal "solve_mode" dflt]
  have hd : ∀ mode cv totals ks, solve_dispatch w mode cv c totals ks kw
      = solve_dispatch w mode cv c totals ks kw' := by
    intro mode cv totals ks
    simp only [solve_dispatch, (h.eff.kwargs keys_solve_emf).emf_opts,
      ((h.eff.kwargs keys_solve_emf).set "emf0_init" (.num (fin 0))).emf_opts,
      (h.eff.kwargs keys_solve_pH).ph_opts, (h.eff.kwargs keys_solve_pH_gran).ph_opts]
  simp only [Calk.files_solve, h.load, ht, hm, hd]

theorem UpToDefaults.files_calibrate {kw kw' : Dict Val} (h : UpToDefaults kw kw') (w : World)
    (f : String) (cert S : Flt) : files_calibrate w f cert S kw = files_calibrate w f cert S kw' := by
  have ht : titrant_totals kw = titrant_totals kw' := by simp only [titrant_totals, h.tts]
  have hm : solve_mode kw = solve_mode kw' := by
    simp only [solve_mode, h.eff.argVal "solve_mode" dflt]
  have e := h.eff.kwargs keys_calibrate_emf
  have e0 := e.set "emf0_init" (.num (fin 0))
  have p := h.eff.kwargs keys_calibrate_pH
  have p' := h.eff.kwargs keys_calibrate_pH_gran
  have t1 : titrant_totals (get_kwargs_for keys_calibrate_emf kw none)
      = titrant_totals (get_kwargs_for keys_calibrate_emf kw' none) := by
    rw [titrant_totals_kwargs _ (by decide), titrant_totals_kwargs _ (by decide), ht]
  have t2 : titrant_totals (get_kwargs_for keys_calibrate_pH kw none)
      = titrant_totals (get_kwargs_for keys_calibrate_pH kw' none) := by
    rw [titrant_totals_kwargs _ (by decide), titrant_totals_kwargs _ (by decide), ht]
  have t2' : titrant_totals (get_kwargs_for keys_calibrate_pH_gran kw none)
      = titrant_totals (get_kwargs_for keys_calibrate_pH_gran kw' none) := by
    rw [titrant_totals_kwargs _ (by decide), titrant_totals_kwargs _ (by decide), ht]
  have t3 : titrant_totals ((get_kwargs_for keys_calibrate_emf kw none).set "emf0_init" (.num (fin 0)))
      = titrant_totals ((get_kwargs_for keys_calibrate_emf kw' none).set "emf0_init"
          (.num (fin 0))) := by
    rw [titrant_totals_set _ _ (by decide), titrant_totals_set _ _ (by decide), t1]
  have hd : ∀ mode cv ks, calibrate_dispatch w mode cv cert ks kw
      = calibrate_dispatch w mode cv cert ks kw' := by
    intro mode cv ks
    simp only [calibrate_dispatch, e.emf_opts, e0.emf_opts, e.argNum "titrant_molinity_init" dflt,
      e0.argNum "titrant_molinity_init" dflt, t1, t2, t2', t3, p.ph_opts, p'.ph_opts,
      p.argNum "titrant_molinity_init" dflt, p'.argNum "titrant_molinity_init" dflt]
  simp only [Calk.files_calibrate, h.load, hm, hd]

/-! ## The property -/

/-- **C89**: leaving a setting out of `files.solve` is the same as giving its default. -/
theorem C89_solve (w : World) (f : String) (c S : Flt) (kw : Dict Val) (k : String) (v : Val)
    (hd : defaults.get? k = some v) (hk : kw.get? k = none) :
    files_solve w f c S (kw.set k v) = files_solve w f c S kw :=
  (upToDefaults_set hd hk).files_solve w f c S

/-- **C89**: the same for `files.calibrate`. -/
theorem C89_calibrate (w : World) (f : String) (cert S : Flt) (kw : Dict Val) (k : String) (v : Val)
    (hd : defaults.get? k = some v) (hk : kw.get? k = none) :
    files_calibrate w f cert S (kw.set k v) = files_calibrate w f cert S kw :=
  (upToDefaults_set hd hk).files_calibrate w f cert S

/-- give the default of one setting if it is missing -/
noncomputable def giveDefault (kw : Dict Val) (k : String) : Dict Val :=
  match kw.get? k, defaults.get? k with
  | none, some v => kw.set k v
  | _, _ => kw

theorem upToDefaults_give (kw : Dict Val) (ks : List String) :
    UpToDefaults (ks.foldl giveDefault kw) kw := by
  induction ks generalizing kw with
  | nil => exact .refl kw
  | cons k ks ih =>
    refine (ih (giveDefault kw k)).trans ?_
    unfold giveDefault
    split
    · rename_i v h1 h2; exact upToDefaults_set h2 h1
    · exact .refl kw

/-- **C89**: giving any number of missing settings their defaults, in any order, changes nothing. -/
theorem C89_all (w : World) (f : String) (c S : Flt) (kw : Dict Val) (ks : List String) :
    files_solve w f c S (ks.foldl giveDefault kw) = files_solve w f c S kw ∧
    files_calibrate w f c S (ks.foldl giveDefault kw) = files_calibrate w f c S kw :=
  ⟨(upToDefaults_give kw ks).files_solve w f c S, (upToDefaults_give kw ks).files_calibrate w f c S⟩

/-- the settings of a titration without `pH_min`, `double` and `total_borate` -/
example : ∃ kw : Dict Val, kw.get? "pH_max" = some (.num (fin 4.5)) ∧ kw.get? "pH_min" = none ∧
    kw.get? "double" = none ∧ defaults.get? "pH_min" = some (.num (fin 3)) ∧
    defaults.get? "double" = some (.bool true) ∧ defaults.get? "total_borate" = some .none ∧
    (["pH_min", "double"].foldl giveDefault kw).get? "pH_min" = some (.num (fin 3)) :=
  ⟨[("pH_max", .num (fin 4.5))], by with_unfolding_all rfl, by with_unfolding_all rfl,
    by with_unfolding_all rfl, by with_unfolding_all rfl, by with_unfolding_all rfl,
    by with_unfolding_all rfl, by with_unfolding_all rfl⟩

end Calk
