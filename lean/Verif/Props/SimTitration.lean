import Verif.Model.SimTitration
import Verif.Props.SolveEmf
import Verif.Props.SolvePH
import Verif.Props.Simulate
import Verif.Lemmas.Kwargs

/-!
# Properties C92 and C93: simulated titrations

C92 says what PyCO2SYS is asked and what is made of its answer; C93 that a simulated titration, when
solved with the contents and constants that come with it, gives back the alkalinity it was simulated
with.
-/

namespace Calk
open Flt Spec

/-- the numbers a simulation is made with -/
structure SimNumbers (a : SimArgs) (A M c start stop step : ℝ) : Prop where
  alkalinity : a.alkalinity = fin A
  analyte_mass : a.analyte_mass = fin M
  titrant_molinity : a.titrant_molinity = fin c
  titrant_mass_start : a.titrant_mass_start = fin start
  titrant_mass_stop : a.titrant_mass_stop = fin stop
  titrant_mass_step : a.titrant_mass_step = fin step
  mass_pos : 0 < M
  start_nonneg : 0 ≤ start
  step_pos : 0 < step

theorem sim_parts {sys : Sys} {a : SimArgs} {out : SimOut} (h : simulate_titration sys a = .ok out) :
    ∃ (ks strt kt : Dict NpVal) (dic : List Flt) (r : Dict NpVal) (pH d : NpVal),
      arange a.titrant_mass_start a.titrant_mass_stop a.titrant_mass_step = .ok out.titrant_mass ∧
      out.temperature = sim_temperature a.temperature out.titrant_mass.length ∧
      out.analyte_mass = a.analyte_mass ∧
      kwargs_start a.salinity out.temperature (sim_options.foldl setMissing a.pyco2sys_kwargs)
        = .ok ks ∧
      sys ks = .ok strt ∧
      dilute_start strt (dilution_factors out.titrant_mass a.analyte_mass) sim_diluted ks = .ok kt ∧
      sim_dic sys a kt out.titrant_mass (out.titrant_mass.map fun m =>
        sim_alkalinity a.alkalinity a.analyte_mass a.titrant_molinity m)
        (dilution_factors out.titrant_mass a.analyte_mass) = .ok dic ∧
      callSys sys (.arr (out.titrant_mass.map fun m =>
        sim_alkalinity a.alkalinity a.analyte_mass a.titrant_molinity m)) (.arr dic) kt = .ok r ∧
      r.get? "pH_free" = some pH ∧
      pH.bin (fun p t => pH_to_emf p a.emf0 t) (.arr out.temperature) = .ok out.emf ∧
      r.get? "dic" = some d ∧
      out.totals = (Dict.mapKV (fun _ v => v.scale (fin 1e-6))
        (r.filter fun kv => startsWith "total_" kv.1)).set "dic" (d.scale (fin 1e-6)) ∧
      out.k_constants = r.filter fun kv => startsWith "k_" kv.1 := by
  unfold simulate_titration at h
  simp only [bind_ok_iff, Dict.get_ok_iff] at h
  obtain ⟨tm, h1, ks, h2, strt, h3, kt, h4, dic, h5, r, h6, pH, h7, emf, h8, d, h9, h⟩ := h
  obtain rfl := Except.ok.inj h
  exact ⟨ks, strt, kt, dic, r, pH, d, h1, rfl, rfl, h2, h3, h4, h5, h6, h7, h8, h9, rfl, rfl⟩

theorem dilute_start_get {strt : Dict NpVal} {df : List Flt} {names : List String}
    {kw out : Dict NpVal} (h : dilute_start strt df names kw = .ok out) (k : String) :
    (k ∉ names → out.get? k = kw.get? k) ∧
    (k ∈ names → ∃ v x, strt.get? k = some v ∧ v.zipW (fun x y => x * y) df = .ok x ∧
      out.get? k = some x) := by
  induction names generalizing kw with
  | nil =>
    obtain rfl := Except.ok.inj h
    simp
  | cons n names ih =>
    simp only [dilute_start, bind_ok_iff, Dict.get_ok_iff] at h
    obtain ⟨v, hv, x, hx, h⟩ := h
    obtain ⟨i1, i2⟩ := ih h
    constructor
    · intro hk
      simp only [List.mem_cons, not_or] at hk
      rw [i1 hk.2, Dict.get?_set, if_neg hk.1]
    · intro hk
      by_cases hm : k ∈ names
      · exact i2 hm
      · rcases List.mem_cons.mp hk with rfl | hc
        · exact ⟨v, x, hv, hx, by rw [i1 hm, Dict.get?_set_self]⟩
        · exact absurd hc hm

theorem setMissing_get (kw : Dict NpVal) (os : List (String × NpVal)) (k : String) :
    (os.foldl setMissing kw).get? k = (kw.get? k).or (Dict.get? os k) := by
  induction os generalizing kw with
  | nil => simp
  | cons o os ih =>
    obtain ⟨n, v⟩ := o
    rw [List.foldl_cons, ih, Dict.get?_cons]
    unfold setMissing Dict.has
    simp only
    by_cases hn : n = k
    · subst hn
      cases e : kw.get? n with
      | none => simp [e, Dict.get?_set_self]
      | some x => simp [e]
    · cases e : kw.get? n with
      | none => simp [e, Dict.get?_set, Ne.symm hn, hn]
      | some x => simp [e, hn]

/-! ## C92 -/

/-- **C92**: the titrant masses go from the start in equal steps up to but not including the stop. -/
theorem C92_masses (sys : Sys) (a : SimArgs) (out : SimOut) (A M c start stop step : ℝ)
    (ha : SimNumbers a A M c start stop step) (h : simulate_titration sys a = .ok out) :
    ∃ n : ℕ, out.titrant_mass = (List.range n).map (fun i : ℕ => fin (start + i * step)) ∧
      (∀ i < n, start + (i : ℝ) * step < stop) ∧ stop ≤ start + (n : ℝ) * step ∧
      out.temperature = sim_temperature a.temperature n ∧ out.analyte_mass = fin M := by
  obtain ⟨-, -, -, -, -, -, -, h1, h2, h3, -⟩ := sim_parts h
  rw [ha.titrant_mass_start, ha.titrant_mass_stop, ha.titrant_mass_step] at h1
  simp only [arange, if_neg ha.step_pos.ne'] at h1
  refine ⟨⌈(stop - start) / step⌉₊, (Except.ok.inj h1).symm, ?_, ?_, ?_, ?_⟩
  · intro i hi
    have := (Nat.lt_ceil).mp hi
    rw [lt_div_iff₀ ha.step_pos] at this
    linarith
  · have := Nat.le_ceil ((stop - start) / step)
    rw [div_le_iff₀ ha.step_pos] at this
    linarith
  · rw [h2, ← Except.ok.inj h1]; simp
  · rw [h3, ha.analyte_mass]

/-- the titrant masses of a simulation as numbers -/
noncomputable def massList (start step : ℝ) (n : ℕ) : List ℝ := (List.range n).map fun i : ℕ => start + i * step

theorem massList_nonneg {start step : ℝ} (h0 : 0 ≤ start) (h1 : 0 < step) {n : ℕ} :
    ∀ m ∈ massList start step n, 0 ≤ m := by
  intro m hm
  simp only [massList, List.mem_map] at hm
  obtain ⟨i, -, rfl⟩ := hm
  have : (0 : ℝ) ≤ i := Nat.cast_nonneg i
  positivity

theorem sim_alkalinity_fin {A M c m : ℝ} (h : M + m ≠ 0) :
    sim_alkalinity (fin A) (fin M) (fin c) (fin m) = fin ((M * A - 1e6 * (m * c)) / (M + m)) := by
  simp only [sim_alkalinity, mul_fin, sub_fin, add_fin]
  rw [div_fin _ _ h]
  congr 2
  norm_num
  ring

/-- the contents that the titrant dilutes -/
def dilutedContents : List String :=
  [ "total_alpha", "total_ammonia", "total_beta", "total_borate", "total_calcium", "total_fluoride",
    "total_phosphate", "total_silicate", "total_sulfate", "total_sulfide" ]

/-- the PyCO2SYS options that this package prefers -/
noncomputable def packageOptions : Dict NpVal :=
  [ ("opt_gas_constant", .scalar (fin 3)), ("opt_k_bisulfate", .scalar (fin 1)),
    ("opt_k_carbonic", .scalar (fin 10)), ("opt_k_fluoride", .scalar (fin 1)),
    ("opt_total_borate", .scalar (fin 1)) ]

/-- the call for the titration itself -/
structure SimCall (sys : Sys) (a : SimArgs) (out : SimOut) (strt kw r : Dict NpVal) : Prop where
  answer : sys kw = .ok r
  total : ∀ k ∈ dilutedContents, ∃ v x, strt.get? k = some v ∧ kw.get? k = some x ∧
    ∀ i (hi : i < out.titrant_mass.length),
      x.at_ i = v.at_ i * (a.analyte_mass / (out.titrant_mass[i] + a.analyte_mass))
  salinity : kw.get? "salinity" = some a.salinity
  temperature : kw.get? "temperature" = some (.arr out.temperature)
  option : ∀ k, k ∉ dilutedContents → k ∉ ["salinity", "temperature", "opt_pH_scale", "par1", "par2",
      "par1_type", "par2_type"] →
    kw.get? k = (a.pyco2sys_kwargs.get? k).or (packageOptions.get? k)
  par2 : a.k_dic_loss = none → kw.get? "par2" =
    some (.arr (out.titrant_mass.map fun m => a.dic * (a.analyte_mass / (m + a.analyte_mass))))
  par1 : kw.get? "par1" = some (.arr (out.titrant_mass.map fun m =>
    fin 1e6 * (a.analyte_mass * a.alkalinity * fin 1e-6 - m * a.titrant_molinity)
      / (a.analyte_mass + m)))
  types : kw.get? "par1_type" = some (.scalar (fin 1)) ∧ kw.get? "par2_type" = some (.scalar (fin 2)) ∧
    kw.get? "opt_pH_scale" = some (.scalar (fin 3))
  emf : ∃ pH, r.get? "pH_free" = some pH ∧
    pH.bin (fun p t => pH_to_emf p a.emf0 t) (.arr out.temperature) = .ok out.emf
  contents : ∀ k, out.totals.get? k = if k = "dic" ∨ startsWith "total_" k = true then
    (r.get? k).map (fun v => v.scale (fin 1e-6)) else none
  dic : r.get? "dic" ≠ none
  constants : ∀ k, out.k_constants.get? k = if startsWith "k_" k then r.get? k else none

/-- the call for the titration -/
noncomputable def simCall (a : SimArgs) (tm dic : List Flt) (kt : Dict NpVal) : Dict NpVal :=
  [("par1", .arr (tm.map fun m =>
        sim_alkalinity a.alkalinity a.analyte_mass a.titrant_molinity m)), ("par2", .arr dic),
        ("par1_type", .scalar (fin 1)), ("par2_type", .scalar (fin 2))] ++ kt

theorem sim_call (sys : Sys) (a : SimArgs) (out : SimOut) (h : simulate_titration sys a = .ok out) :
    ∃ (ks strt kt : Dict NpVal) (dic : List Flt) (r : Dict NpVal), sys ks = .ok strt ∧
      ks.get? "salinity" = some a.salinity ∧ ks.get? "temperature" = some (.arr out.temperature) ∧
      ks.get? "opt_pH_scale" = some (.scalar (fin 3)) ∧
      (∀ k ∉ ["salinity", "temperature", "opt_pH_scale"],
        ks.get? k = (a.pyco2sys_kwargs.get? k).or (packageOptions.get? k)) ∧
      SimCall sys a out strt (simCall a out.titrant_mass dic kt) r ∧
      sim_dic sys a kt out.titrant_mass (out.titrant_mass.map fun m =>
        sim_alkalinity a.alkalinity a.analyte_mass a.titrant_molinity m)
        (dilution_factors out.titrant_mass a.analyte_mass) = .ok dic := by
  have hopt : packageOptions = sim_options := rfl
  rw [hopt]
  obtain ⟨ks, strt, kt, dic, r, pH, d, -, -, -, h4, h5, h6, h7, h8, h9, h10, h11, h12, h13⟩ :=
    sim_parts h
  have hks : (∀ k ∉ ["salinity", "temperature", "opt_pH_scale"],
        ks.get? k = (a.pyco2sys_kwargs.get? k).or (sim_options.get? k)) ∧
      ks.get? "salinity" = some a.salinity ∧ ks.get? "temperature" = some (.arr out.temperature) ∧
      ks.get? "opt_pH_scale" = some (.scalar (fin 3)) := by
    unfold kwargs_start at h4
    split at h4
    · cases h4
    · obtain rfl := Except.ok.inj h4
      refine ⟨?_, by simp [Dict.get?_append, Dict.get?_cons],
        by simp [Dict.get?_append, Dict.get?_cons], by simp [Dict.get?_append, Dict.get?_cons]⟩
      intro k hk
      simp only [List.mem_cons, List.not_mem_nil, or_false, not_or] at hk
      rw [Dict.get?_append, ← setMissing_get a.pyco2sys_kwargs]
      simp [Dict.get?_cons, Ne.symm hk.1, Ne.symm hk.2.1, Ne.symm hk.2.2]
  refine ⟨ks, strt, kt, dic, r, h5, hks.2.1, hks.2.2.1, hks.2.2.2, hks.1, ?_, h7⟩
  unfold simCall
  have off : ∀ k, k ∉ ["par1", "par2", "par1_type", "par2_type"] → ∀ (p q x y : NpVal),
      Dict.get? ([("par1", p), ("par2", q), ("par1_type", x), ("par2_type", y)] ++ kt) k
        = kt.get? k := by
    intro k hk p q x y
    simp only [List.mem_cons, List.not_mem_nil, or_false, not_or] at hk
    rw [Dict.get?_append]
    simp [Dict.get?_cons, Ne.symm hk.1, Ne.symm hk.2.1, Ne.symm hk.2.2.1, Ne.symm hk.2.2.2]
  have filt : ∀ (p : String → Bool) k, Dict.get? (r.filter fun kv => p kv.1) k
      = if p k then r.get? k else none := fun p k => Dict.get?_filter p r k
  constructor
  · unfold callSys at h8
    split at h8
    · cases h8
    · exact h8
  · intro k hk
    obtain ⟨v, x, e1, e2, e3⟩ := (dilute_start_get h6 k).2 hk
    refine ⟨v, x, e1, ?_, ?_⟩
    · rw [off k ((by decide : ∀ k ∈ sim_diluted, k ∉ ["par1", "par2", "par1_type", "par2_type"]) k hk)]
      exact e3
    · intro i hi
      rw [zipW_at e2 (by simpa using hi)]
      simp [dilution_factors, get_dilution_factor]
  · rw [off _ (by decide), (dilute_start_get h6 _).1 (by decide), hks.2.1]
  · rw [off _ (by decide), (dilute_start_get h6 _).1 (by decide), hks.2.2.1]
  · intro k hk hk'
    simp only [List.mem_cons, List.not_mem_nil, or_false, not_or] at hk'
    rw [off k (by simp [hk']), (dilute_start_get h6 k).1 hk, hks.1 k (by simp [hk']), hopt]
  · intro hk
    rw [Dict.get?_append]
    simp only [sim_dic, hk] at h7
    obtain rfl := Except.ok.inj h7
    simp [Dict.get?_cons, dilution_factors, get_dilution_factor]
  · rw [Dict.get?_append]
    simp [Dict.get?_cons, sim_alkalinity]
  · refine ⟨by rw [Dict.get?_append]; simp [Dict.get?_cons], by rw [Dict.get?_append]; simp [Dict.get?_cons], ?_⟩
    rw [off _ (by decide), (dilute_start_get h6 _).1 (by decide), hks.2.2.2]
  · exact ⟨pH, h9, h10⟩
  · intro k
    by_cases hd : k = "dic"
    · subst hd
      rw [h12, Dict.get?_set_self, if_pos (.inl rfl), h11]; rfl
    · rw [h12, Dict.get?_set, if_neg hd, Dict.get?_mapKV, filt]
      by_cases ht : startsWith "total_" k = true <;> simp [ht, hd]
  · simp [h11]
  · intro k
    rw [h13, filt]

/-- **C92**: PyCO2SYS is first asked for the contents of the sample, then for the pH of the mixtures:
with every total diluted by the titrant, with DIC diluted likewise unless its loss is modelled, and
with the given options or the package's own defaults.  The EMFs are those of an ideal electrode in
the answer's free-scale pH; contents (in mol/kg) and constants are those of the answer. -/
theorem C92_call (sys : Sys) (a : SimArgs) (out : SimOut) (h : simulate_titration sys a = .ok out) :
    ∃ (ks strt kw r : Dict NpVal), sys ks = .ok strt ∧
      ks.get? "salinity" = some a.salinity ∧ ks.get? "temperature" = some (.arr out.temperature) ∧
      ks.get? "opt_pH_scale" = some (.scalar (fin 3)) ∧
      (∀ k ∉ ["salinity", "temperature", "opt_pH_scale"],
        ks.get? k = (a.pyco2sys_kwargs.get? k).or (packageOptions.get? k)) ∧
      SimCall sys a out strt kw r := by
  obtain ⟨ks, strt, kt, dic, r, h1, h2, h3, h4, h5, h6, -⟩ := sim_call sys a out h
  exact ⟨ks, strt, _, r, h1, h2, h3, h4, h5, h6⟩

/-- **C92**: the alkalinity asked for at each point is what is left of the sample's alkalinity after
the acid, in the mass of the mixture. -/
theorem C92_alkalinity (sys : Sys) (a : SimArgs) (out : SimOut) (A M c start stop step : ℝ)
    (ha : SimNumbers a A M c start stop step) (h : simulate_titration sys a = .ok out)
    (strt kw r : Dict NpVal) (hc : SimCall sys a out strt kw r) :
    ∃ (tm alk : List ℝ), out.titrant_mass = tm.map fin ∧ (∀ m ∈ tm, 0 ≤ m) ∧
      kw.get? "par1" = some (.arr (alk.map fin)) ∧ alk.length = tm.length ∧
      ∀ i (h1 : i < alk.length) (h2 : i < tm.length),
        (M + tm[i]) * alk[i] = M * A - 1e6 * tm[i] * c := by
  obtain ⟨n, hn, -⟩ := C92_masses sys a out A M c start stop step ha h
  have hn' : out.titrant_mass = (massList start step n).map fin := by
    rw [hn, massList, List.map_map]; rfl
  have hpos : ∀ m ∈ massList start step n, M + m ≠ 0 := by
    intro m hm
    have := massList_nonneg ha.start_nonneg ha.step_pos m hm
    have := ha.mass_pos
    positivity
  refine ⟨massList start step n, (massList start step n).map fun m => (M * A - 1e6 * (m * c)) / (M + m),
    hn', massList_nonneg ha.start_nonneg ha.step_pos, ?_, by simp, ?_⟩
  · rw [hc.par1, hn', List.map_map, List.map_map]
    refine congrArg some (congrArg NpVal.arr (List.map_congr_left fun m hm => ?_))
    simp only [Function.comp_apply, ha.alkalinity, ha.analyte_mass, ha.titrant_molinity]
    exact sim_alkalinity_fin (hpos m hm)
  · intro i h1 h2
    have := hpos _ (List.getElem_mem h2)
    rw [List.getElem_map]
    field_simp

/-! ## C93 -/

/-- PyCO2SYS solves the alkalinity equation: asked for alkalinities and DIC on the free scale, it
returns the totals and DIC it was given, and free-scale pHs at which the textbook alkalinity for
these totals and the constants it returns is the one asked for. -/
def SysExact (sys : Sys) : Prop :=
  ∀ (kw r : Dict NpVal) (alk : List ℝ), sys kw = .ok r →
    kw.get? "par1" = some (.arr (alk.map fin)) → kw.get? "par1_type" = some (.scalar (fin 1)) →
    kw.get? "par2_type" = some (.scalar (fin 2)) → kw.get? "opt_pH_scale" = some (.scalar (fin 3)) →
    ∃ pH : List ℝ, r.get? "pH_free" = some (.arr (pH.map fin)) ∧ pH.length = alk.length ∧
      ∀ i (h1 : i < pH.length) (h2 : i < alk.length),
        (Sol.of (rowAt (r.mapKV fun _ v => v.scale (fin 1e-6)) i) (rowAt r i)).alk 3
          ((10 : ℝ) ^ (-pH[i])) = alk[i] * 1e-6

/-- the contents and constants that come with a simulation make chemical sense -/
structure SimChem (out : SimOut) (n : ℕ) : Prop where
  rows : ValidRows out.totals out.k_constants n
  ks : HasKsN out.totals out.k_constants 3
  fits : dictFits n out.totals = true
  fits' : dictFits n out.k_constants = true

theorem Sol.of_congr {t t' k k' : Dict Flt}
    (ht : ∀ x, x = "dic" ∨ startsWith "total_" x = true → t.get? x = t'.get? x)
    (hk : ∀ x, startsWith "k_" x = true → k.get? x = k'.get? x) : Sol.of t k = Sol.of t' k' := by
  have ht' : ∀ x d, x = "dic" ∨ startsWith "total_" x = true → rval t d x = rval t' d x :=
    fun x d hx => by unfold rval; rw [ht x hx]
  have hk' : ∀ x d, startsWith "k_" x = true → rval k d x = rval k' d x :=
    fun x d hx => by unfold rval; rw [hk x hx]
  unfold Sol.of
  rw [ht' "dic" _ (.inl rfl), ht' "total_borate" _ (.inr (by decide)),
    ht' "total_phosphate" _ (.inr (by decide)), ht' "total_silicate" _ (.inr (by decide)),
    ht' "total_ammonia" _ (.inr (by decide)), ht' "total_sulfide" _ (.inr (by decide)),
    ht' "total_alpha" _ (.inr (by decide)), ht' "total_beta" _ (.inr (by decide)),
    ht' "total_fluoride" _ (.inr (by decide)), ht' "total_sulfate" _ (.inr (by decide)),
    hk' "k_water" _ (by decide), hk' "k_carbonic_1" _ (by decide), hk' "k_carbonic_2" _ (by decide),
    hk' "k_borate" _ (by decide), hk' "k_phosphoric_1" _ (by decide),
    hk' "k_phosphoric_2" _ (by decide), hk' "k_phosphoric_3" _ (by decide),
    hk' "k_silicate" _ (by decide), hk' "k_ammonia" _ (by decide), hk' "k_sulfide" _ (by decide),
    hk' "k_alpha" _ (by decide), hk' "k_beta" _ (by decide), hk' "k_fluoride" _ (by decide),
    hk' "k_bisulfate" _ (by decide)]

/-- what a simulation with an exact PyCO2SYS looks like -/
theorem sim_data (sys : Sys) (hs : SysExact sys) (a : SimArgs) (out : SimOut)
    (A M c E start stop step : ℝ) (ha : SimNumbers a A M c start stop step) (hE : a.emf0 = fin E)
    (h : simulate_titration sys a = .ok out) (T : List ℝ) (hT : out.temperature = T.map fin)
    (hl : T.length = out.titrant_mass.length) :
    ∃ (tm emf pH : List ℝ), out.titrant_mass = tm.map fin ∧ out.emf = .arr (emf.map fin) ∧
      out.analyte_mass = fin M ∧ (∀ m ∈ tm, 0 ≤ m) ∧
      emf.length = tm.length ∧ pH.length = tm.length ∧
      ∀ i (h1 : i < emf.length) (h2 : i < T.length) (h3 : i < tm.length) (h4 : i < pH.length),
        emf[i] = nernst E T[i] ((10 : ℝ) ^ (-pH[i])) ∧
        specAlk out.totals out.k_constants i pH[i] * (tm[i] + M)
          = A * 1e-6 * M - tm[i] * c * 1 := by
  obtain ⟨ks, strt, kw, r, -, -, -, -, -, hc⟩ := C92_call sys a out h
  obtain ⟨tm, alk, htm, hm, hp1, hlen, hbal⟩ := C92_alkalinity sys a out A M c start stop step ha h strt kw r hc
  obtain ⟨pH, hpH, hpl, hsol⟩ := hs kw r alk hc.answer hp1 hc.types.1 hc.types.2.1 hc.types.2.2
  obtain ⟨pH', e1, e2⟩ := hc.emf
  rw [hpH] at e1
  obtain rfl := Option.some.inj e1
  rw [hT, hE] at e2
  have hl' : (pH.map fin).length = (T.map fin).length := by
    simp [hl, htm, hpl, hlen]
  simp only [NpVal.bin, if_pos hl'] at e2
  refine ⟨tm, List.zipWith (fun p t => E - nslope t * (p * Real.log 10)) pH T, pH, htm, ?_, ?_, hm, ?_,
    by omega, ?_⟩
  · rw [← Except.ok.inj e2, List.zipWith_map, List.map_zipWith]
    refine congrArg NpVal.arr ?_
    congr 1
    funext p t
    exact pH_to_emf_fin
  · obtain ⟨n, -, -, -, -, e⟩ := C92_masses sys a out A M c start stop step ha h
    exact e
  · simp [hl, htm, hpl, hlen]
  · intro i h1 h2 h3 h4
    constructor
    · rw [List.getElem_zipWith]
      unfold nernst
      rw [Real.log_rpow (by norm_num)]
      unfold nslope
      simp only [ideal_gas, absolute_zero, faraday]
      ring
    · have ea : specAlk out.totals out.k_constants i pH[i] = alk[i] * 1e-6 := by
        rw [← hsol i h4 (by omega)]
        unfold specAlk
        congr 1
        apply Sol.of_congr
        · intro x hx
          rw [rowAt_get?, rowAt_get?]
          rw [hc.contents x, if_pos hx, Dict.get?_mapKV]
        · intro x hx
          rw [rowAt_get?, rowAt_get?, hc.constants x, if_pos hx]
      rw [ea]
      have := hbal i (by omega) h3
      linear_combination 1e-6 * this

/-- **C93**: at the alkalinity and the EMF0 of the simulation all residuals of the EMF fit vanish. -/
theorem C93_residuals (sys : Sys) (hs : SysExact sys) (a : SimArgs) (out : SimOut)
    (A M c E start stop step : ℝ) (ha : SimNumbers a A M c start stop step) (hE : a.emf0 = fin E)
    (h : simulate_titration sys a = .ok out) (T : List ℝ) (hT : out.temperature = T.map fin)
    (hl : T.length = out.titrant_mass.length) (hT' : ∀ t ∈ T, -273.15 < t)
    (hv : SimChem out T.length) :
    ∃ emf : List Flt, out.emf = .arr emf ∧
      lsqfun_solve_emf (fin c) out.titrant_mass emf out.temperature out.analyte_mass out.totals
        out.k_constants (fin 1) (fin (A * 1e-6), fin E) = .ok (List.replicate T.length (fin 0)) := by
  obtain ⟨tm, emf, pH, h1, h2, h3, h4, h5, h6, h7⟩ := sim_data sys hs a out A M c E start stop step ha
    hE h T hT hl
  have hlt : T.length = tm.length := by rw [hl, h1]; simp
  refine ⟨emf.map fin, h2, ?_⟩
  rw [h1, hT, h3, show T.length = emf.length by omega]
  have hn : T.length = emf.length := by omega
  exact C27_zero c 1 M (A * 1e-6) E tm emf T pH out.totals out.k_constants (by omega) (by omega)
    (by omega) (fun m hm => by have := h4 m hm; have := ha.mass_pos; linarith) hT' (hn ▸ hv.rows)
    hv.ks (hn ▸ hv.fits) (hn ▸ hv.fits') h7

/-- **C93**: solving the simulated titration as a pH titration, with the EMFs converted at the EMF0 of
the simulation, returns exactly the alkalinity that was simulated, with no spread. -/
theorem C93_pH (sys : Sys) (hs : SysExact sys) (a : SimArgs) (out : SimOut)
    (A M c E start stop step : ℝ) (ha : SimNumbers a A M c start stop step) (hE : a.emf0 = fin E)
    (h : simulate_titration sys a = .ok out) (T : List ℝ) (hT : out.temperature = T.map fin)
    (hl : T.length = out.titrant_mass.length) (hT' : ∀ t ∈ T, -273.15 < t)
    (hv : SimChem out T.length) (emf : List Flt) (he : out.emf = .arr emf) (lo hi : ℝ) (hw : lo < hi)
    (hin : ∃ p ∈ emf_to_pH_arr emf (fin E) out.temperature, (fin lo).le p = true ∧ p.le (fin hi) = true) :
    ∃ r, solve_pH (fin c) out.titrant_mass (emf_to_pH_arr emf (fin E) out.temperature)
        out.analyte_mass out.totals out.k_constants { pH_min := fin lo, pH_max := fin hi } = .ok r ∧
      r.alkalinity = fin A ∧ r.alkalinity_std = fin 0 ∧
      r.alkalinity_all = List.replicate T.length (fin A) := by
  obtain ⟨tm, emf', pH, h1, h2, h3, h4, h5, h6, h7⟩ := sim_data sys hs a out A M c E start stop step ha
    hE h T hT hl
  rw [h2] at he
  obtain rfl := NpVal.arr.inj he
  have hlt : T.length = tm.length := by rw [hl, h1]; simp
  have hph : pHRs E emf' T = pH := by
    apply List.ext_getElem
    · simp [pHRs]; omega
    · intro i i1 i2
      have := (h7 i (by omega) (by omega) (by omega) i2).1
      have hp := nslope_pos (hT' _ (List.getElem_mem (show i < T.length by omega)))
      have hl10 : (0 : ℝ) < Real.log 10 := Real.log_pos (by norm_num)
      simp only [pHRs, List.getElem_zipWith, pHR]
      rw [this]
      unfold nernst
      rw [Real.log_rpow (by norm_num)]
      have e : (8.3144621 : ℝ) * (T[i] + 273.15) / 96.4853365 = nslope T[i] := by
        unfold nslope; simp only [ideal_gas, absolute_zero, faraday]
      rw [e]
      field_simp
      ring
  rw [hT, emf_to_pH_arr_fin hT', hph] at hin ⊢
  have hn : pH.length = T.length := by omega
  have hM := ha.mass_pos
  obtain ⟨r, r1, r2, r3, r4⟩ := C13_exact (A * 1e-6) c 1 M lo hi tm pH out.totals out.k_constants
    (by omega) hw hM (fun m hm => by have := h4 m hm; linarith) (hn ▸ hv.rows) hv.ks (hn ▸ hv.fits)
    (hn ▸ hv.fits') (fun i hi' => (h7 i (by omega) (by omega) (by omega) hi').2)
    (by
      obtain ⟨p, hp, h1, h2⟩ := hin
      obtain ⟨q, hq, rfl⟩ := List.mem_map.mp hp
      exact ⟨q, hq, by simpa using h1, by simpa using h2⟩)
  have e : 1e6 * (A * 1e-6) = A := by norm_num; ring
  rw [e] at r2 r4
  rw [h1, h3]
  exact ⟨r, r1, r2, r3, hn ▸ r4⟩

/-- **C93**: an EMF solve of the simulated titration with an optimiser that finds the minimum fits
every used point exactly. -/
theorem C93_fit (sys : Sys) (hs : SysExact sys) (a : SimArgs) (out : SimOut)
    (A M c E start stop step : ℝ) (ha : SimNumbers a A M c start stop step) (hE : a.emf0 = fin E)
    (h : simulate_titration sys a = .ok out) (T : List ℝ) (hT : out.temperature = T.map fin)
    (hl : T.length = out.titrant_mass.length) (hT' : ∀ t ∈ T, -273.15 < t)
    (hv : ValidRows out.totals out.k_constants T.length) (emf : List Flt) (he : out.emf = .arr emf)
    (ls : LsFun (Flt × Flt)) (hmin : LsGlobalMin ls) (o : EmfOpts) (ho : o.titrant_normality = fin 1)
    (double : Bool) (sr : SolveEmf)
    (hr : solve_emf ls (fin c) out.titrant_mass emf out.temperature out.analyte_mass out.totals
      out.k_constants o double = .ok sr) :
    ∀ ρ ∈ sr.opt_result.fun_, ρ = fin 0 := by
  obtain ⟨tm, emf', pH, h1, h2, h3, h4, h5, h6, h7⟩ := sim_data sys hs a out A M c E start stop step ha
    hE h T hT hl
  rw [h2] at he
  obtain rfl := NpVal.arr.inj he
  have hlt : T.length = tm.length := by rw [hl, h1]; simp
  rw [h1, hT, h3] at hr
  have hn : T.length = emf'.length := by omega
  exact C27_exact_fit ls hmin c 1 M (A * 1e-6) E tm emf' T pH out.totals out.k_constants o double sr ho
    (fun m hm => by have := h4 m hm; have := ha.mass_pos; linarith) hT' (hn ▸ hv) (by omega) h7 hr

/-! ## A PyCO2SYS that meets the contract -/

/-- some contents (µmol/kg) … -/
noncomputable def someContents : Dict NpVal :=
  dilutedContents.map (fun k => (k, NpVal.scalar (fin 100))) ++ [("dic", .scalar (fin 2000))]

/-- … and constants -/
def constantNames : List String :=
  ["k_water", "k_carbonic_1", "k_carbonic_2", "k_borate", "k_phosphoric_1", "k_phosphoric_2",
    "k_phosphoric_3", "k_silicate", "k_ammonia", "k_sulfide", "k_alpha", "k_beta", "k_fluoride",
    "k_bisulfate"]

noncomputable def someConstants : Dict NpVal := constantNames.map fun k => (k, NpVal.scalar (fin 1e-6))

theorem get?_map_const {names : List String} {v : NpVal} {k : String} :
    Dict.get? (names.map fun k => (k, v)) k = if k ∈ names then some v else none := by
  induction names with
  | nil => rfl
  | cons x xs ih =>
    rw [List.map_cons, Dict.get?_cons, ih]
    by_cases hx : x = k
    · simp [hx]
    · simp [hx, Ne.symm hx]

theorem someConstants_has {k : String} (h : k ∈ constantNames) : someConstants.has k = true := by
  rw [Dict.has, someConstants, get?_map_const, if_pos h]; rfl

theorem someContents_get (k : String) (v : NpVal) (h : someContents.get? k = some v) :
    v = .scalar (fin 100) ∨ v = .scalar (fin 2000) := by
  have := Dict.mem_of_get? h
  simp only [someContents, List.mem_append, List.mem_map, List.mem_singleton, Prod.mk.injEq] at this
  rcases this with ⟨_, _, _, rfl⟩ | ⟨_, rfl⟩
  · exact .inl rfl
  · exact .inr rfl

theorem someConstants_get (k : String) (v : NpVal) (h : someConstants.get? k = some v) :
    v = .scalar (fin 1e-6) := by
  have := Dict.mem_of_get? h
  simp only [someConstants, List.mem_map, Prod.mk.injEq] at this
  obtain ⟨_, _, _, rfl⟩ := this
  rfl

theorem some_valid (n : ℕ) :
    ValidRows (someContents.mapKV fun _ v => v.scale (fin 1e-6)) someConstants n := by
  intro i _
  constructor
  · intro k v h
    rw [rowAt_get?, Dict.get?_mapKV, Option.map_eq_some_iff] at h
    obtain ⟨w, h, rfl⟩ := h
    obtain ⟨x, h', rfl⟩ := Option.map_eq_some_iff.mp h
    rcases someContents_get k x h' with rfl | rfl
    · exact ⟨100 * 1e-6, by norm_num, rfl⟩
    · exact ⟨2000 * 1e-6, by norm_num, rfl⟩
  · intro k v h
    rw [rowAt_get?, Option.map_eq_some_iff] at h
    obtain ⟨w, h, rfl⟩ := h
    obtain rfl := someConstants_get k w h
    exact ⟨1e-6, by norm_num, rfl⟩

theorem some_ks : HasKsN (someContents.mapKV fun _ v => v.scale (fin 1e-6)) someConstants 3 := by
  intro tk htk _
  have hm : tk.2 ∈ constantNames :=
    (by decide : ∀ tk ∈ requiredKs 3, tk.2 ∈ constantNames) tk htk
  exact someConstants_has hm

theorem some_pH (A : ℝ) : ∃ p : ℝ,
    (Sol.of (rowAt (someContents.mapKV fun _ v => v.scale (fin 1e-6)) 0) (rowAt someConstants 0)).alk 3
      ((10 : ℝ) ^ (-p)) = A * 1e-6 := by
  obtain ⟨h1, h2⟩ := some_valid 1 0 (by norm_num)
  have h3 : HasKs _ _ 3 := (hasKs_rowAt (i := 0) (j := 0)).mpr some_ks
  obtain ⟨p, hp, -⟩ := C10_existsUnique_pH _ _ 3 (by simp) h1 h2 h3 (by
    rw [rowAt_has]; exact someConstants_has (by decide)) (A * 1e-6)
  rw [alkalinity_eq_spec (by simp) h1 h2 h3] at hp
  exact ⟨p, Flt.fin.inj (Except.ok.inj hp)⟩

open Classical in
/-- a PyCO2SYS that finds the pH for these contents and constants, whatever contents it is given -/
noncomputable def someSys : Sys := fun kw =>
  match kw.get? "par1" with
  | some (.arr xs) =>
    if h : ∃ alk : List ℝ, xs = alk.map fin then
      .ok (someContents ++ someConstants ++
        [("pH_free", .arr ((h.choose.map fun A => (some_pH A).choose).map fin))])
    else .error .ValueError
  | _ => .ok (someContents ++ someConstants)

theorem someSys_par1 (kw : Dict NpVal) (alk : List ℝ) (h : kw.get? "par1" = some (.arr (alk.map fin))) :
    someSys kw = .ok (someContents ++ someConstants ++
        [("pH_free", .arr ((alk.map fun A => (some_pH A).choose).map fin))]) := by
  have hex : ∃ alk' : List ℝ, alk.map fin = alk'.map fin := ⟨alk, rfl⟩
  have he : hex.choose = alk := by
    have := hex.choose_spec
    exact (List.map_injective_iff.mpr (fun a b h => Flt.fin.inj h) this).symm
  unfold someSys
  simp only [h]
  rw [dif_pos hex]
  simp only [he]

theorem some_get (pH : NpVal) (k : String) :
    Dict.get? (someContents ++ someConstants ++ [("pH_free", pH)]) k =
      if k ∈ dilutedContents then some (.scalar (fin 100)) else if k = "dic" then some (.scalar (fin 2000))
      else if k ∈ constantNames then some (.scalar (fin 1e-6)) else if k = "pH_free" then some pH
      else none := by
  simp only [Dict.get?_append, someContents, someConstants, get?_map_const, Dict.get?_cons, Dict.get?_nil]
  have e : ∀ x : String, (x = k) = (k = x) := fun x => propext eq_comm
  simp only [e]
  split_ifs <;> rfl

theorem contents_names {k : String} (h : k = "dic" ∨ startsWith "total_" k = true) :
    k ∉ constantNames ∧ k ≠ "pH_free" := by
  constructor
  · intro hk
    exact (by decide : ∀ k ∈ constantNames, ¬ (k = "dic" ∨ startsWith "total_" k = true)) k hk h
  · rintro rfl
    revert h; decide

theorem constants_names {k : String} (h : startsWith "k_" k = true) :
    k ∉ dilutedContents ∧ k ≠ "dic" ∧ k ≠ "pH_free" := by
  refine ⟨?_, ?_, ?_⟩
  · intro hk
    exact (by decide : ∀ k ∈ dilutedContents, ¬ (startsWith "k_" k = true)) k hk h
  · rintro rfl
    revert h; decide
  · rintro rfl
    revert h; decide

theorem someContents_get? (k : String) : someContents.get? k =
    if k ∈ dilutedContents then some (.scalar (fin 100)) else if k = "dic" then some (.scalar (fin 2000))
      else none := by
  have e : ∀ x : String, (x = k) = (k = x) := fun x => propext eq_comm
  simp only [Dict.get?_append, someContents, get?_map_const, Dict.get?_cons, Dict.get?_nil, e]
  split_ifs <;> rfl

theorem someConstants_get? (k : String) : someConstants.get? k =
    if k ∈ constantNames then some (.scalar (fin 1e-6)) else none := get?_map_const

theorem someSys_exact : SysExact someSys := by
  intro kw r alk h h1 _ _ _
  rw [someSys_par1 kw alk h1] at h
  obtain rfl := Except.ok.inj h
  refine ⟨alk.map fun A => (some_pH A).choose, ?_, by simp, ?_⟩
  · rw [some_get]
    rw [if_neg (by decide), if_neg (by decide), if_neg (by decide), if_pos rfl]
  · intro i i1 i2
    rw [List.getElem_map]
    refine Eq.trans (congrArg (fun t : Sol => t.alk 3 _) (Sol.of_congr ?_ ?_))
      (some_pH alk[i]).choose_spec
    · intro x hx
      have := contents_names hx
      rw [rowAt_get?, rowAt_get?, Dict.get?_mapKV, Dict.get?_mapKV, some_get, someContents_get?]
      rw [if_neg this.1, if_neg this.2]
      split_ifs <;> rfl
    · intro x hx
      have := constants_names hx
      rw [rowAt_get?, rowAt_get?, some_get, someConstants_get?]
      rw [if_neg this.1, if_neg this.2.1, if_neg this.2.2]
      split_ifs <;> rfl

theorem dilute_start_ok {strt : Dict NpVal} {df : List Flt} {names : List String}
    (h : ∀ k ∈ names, ∃ x, strt.get? k = some (.scalar x)) (kw : Dict NpVal) :
    ∃ out, dilute_start strt df names kw = .ok out := by
  induction names generalizing kw with
  | nil => exact ⟨kw, rfl⟩
  | cons k ks ih =>
    obtain ⟨x, hx⟩ := h k (by simp)
    have hx' : strt.get k = .ok (.scalar x) := Dict.get_ok_iff.mpr hx
    simp only [dilute_start, hx', bind_ok, NpVal.zipW]
    exact ih (fun k hk => h k (List.mem_cons_of_mem _ hk)) _

theorem some_constants (pH : NpVal) :
    (someContents ++ someConstants ++ [("pH_free", pH)]).filter (fun kv => startsWith "k_" kv.1)
      = someConstants := by
  rw [List.filter_append, List.filter_append]
  have h1 : someContents.filter (fun kv => startsWith "k_" kv.1) = [] := by
    rw [List.filter_eq_nil_iff]
    intro kv hkv
    simp only [someContents, List.mem_append, List.mem_map, List.mem_singleton] at hkv
    rcases hkv with ⟨k, hk, rfl⟩ | rfl
    · exact (by decide : ∀ k ∈ dilutedContents, ¬ startsWith "k_" k = true) k hk
    · dsimp only; decide
  have h2 : someConstants.filter (fun kv => startsWith "k_" kv.1) = someConstants := by
    rw [List.filter_eq_self]
    intro kv hkv
    simp only [someConstants, List.mem_map] at hkv
    obtain ⟨k, hk, rfl⟩ := hkv
    exact (by decide : ∀ k ∈ constantNames, startsWith "k_" k = true) k hk
  have h3 : ([("pH_free", pH)] : Dict NpVal).filter (fun kv => startsWith "k_" kv.1) = [] := by
    rw [List.filter_cons_of_neg (by dsimp only; decide)]; rfl
  rw [h1, h2, h3]
  simp

theorem some_totals (pH : NpVal) :
    Dict.set (Dict.mapKV (fun _ v => v.scale (fin 1e-6))
      ((someContents ++ someConstants ++ [("pH_free", pH)]).filter (fun kv => startsWith "total_" kv.1)))
      "dic" ((NpVal.scalar (fin 2000)).scale (fin 1e-6))
      = Dict.mapKV (fun _ v => v.scale (fin 1e-6)) someContents := by
  rw [List.filter_append, List.filter_append]
  have h1 : someContents.filter (fun kv => startsWith "total_" kv.1)
      = dilutedContents.map (fun k => (k, NpVal.scalar (fin 100))) := by
    rw [someContents, List.filter_append, List.filter_eq_self.mpr, List.filter_cons_of_neg (by dsimp only; decide)]
    · simp
    · intro kv hkv
      rw [List.mem_map] at hkv
      obtain ⟨k, hk, rfl⟩ := hkv
      exact (by decide : ∀ k ∈ dilutedContents, startsWith "total_" k = true) k hk
  have h2 : someConstants.filter (fun kv => startsWith "total_" kv.1) = [] := by
    rw [List.filter_eq_nil_iff]
    intro kv hkv
    simp only [someConstants, List.mem_map] at hkv
    obtain ⟨k, hk, rfl⟩ := hkv
    exact (by decide : ∀ k ∈ constantNames, ¬ startsWith "total_" k = true) k hk
  have h3 : ([("pH_free", pH)] : Dict NpVal).filter (fun kv => startsWith "total_" kv.1) = [] := by
    rw [List.filter_cons_of_neg (by dsimp only; decide)]; rfl
  rw [h1, h2, h3]
  rfl

/-- the default titration of a sample with an alkalinity of 2300 µmol/kg -/
noncomputable def exSim : SimArgs := { alkalinity := fin 2300 }

theorem exSim_numbers : SimNumbers exSim 2300 0.1 0.1 0 4.2e-3 0.15e-3 :=
  ⟨rfl, rfl, rfl, rfl, rfl, rfl, by norm_num, by norm_num, by norm_num⟩

/-- All hypotheses of C92 and C93 hold for the default titration. -/
theorem exSim_ok : ∃ out emf, simulate_titration someSys exSim = .ok out ∧ out.emf = .arr emf ∧
    out.temperature = (List.replicate 28 (25 : ℝ)).map fin ∧ out.titrant_mass.length = 28 ∧
    SimChem out 28 := by
  have hm : arange (fin 0) (fin 4.2e-3) (fin 0.15e-3) = .ok ((massList 0 0.15e-3 28).map fin) := by
    have : ⌈((4.2e-3 : ℝ) - 0) / 0.15e-3⌉₊ = 28 := by
      rw [Nat.ceil_eq_iff (by norm_num)]; norm_num
    simp only [arange, this, massList, List.map_map]
    rw [if_neg (by norm_num)]
    rfl
  set tm : List ℝ := massList 0 0.15e-3 28 with htm
  have hlen : tm.length = 28 := by simp [htm, massList]
  have hT : sim_temperature exSim.temperature (tm.map fin).length
      = (List.replicate 28 (25 : ℝ)).map fin := by
    rw [List.length_map, hlen, List.map_replicate]; rfl
  set T : List Flt := (List.replicate 28 (25 : ℝ)).map fin with hTd
  have hks : kwargs_start exSim.salinity T (sim_options.foldl setMissing exSim.pyco2sys_kwargs)
      = .ok ([("salinity", exSim.salinity), ("temperature", .arr T),
        ("opt_pH_scale", .scalar (fin 3))] ++ sim_options) := by rfl
  have hst : someSys ([("salinity", exSim.salinity), ("temperature", .arr T),
        ("opt_pH_scale", .scalar (fin 3))] ++ sim_options) = .ok (someContents ++ someConstants) := by rfl
  obtain ⟨kt, hkt⟩ := dilute_start_ok (strt := someContents ++ someConstants)
    (df := dilution_factors (tm.map fin) exSim.analyte_mass) (names := sim_diluted) (by
      intro k hk
      rw [Dict.get?_append, someContents_get?, if_pos (show k ∈ dilutedContents from hk)]
      exact ⟨_, rfl⟩) ([("salinity", exSim.salinity), ("temperature", .arr T),
        ("opt_pH_scale", .scalar (fin 3))] ++ sim_options)
  have hno : ∀ k ∈ ["par1", "par2", "par1_type", "par2_type"], kt.has k = false := by
    intro k hk
    rw [Dict.has, (dilute_start_get hkt k).1
      ((by decide : ∀ k ∈ ["par1", "par2", "par1_type", "par2_type"], k ∉ sim_diluted) k hk)]
    simp only [List.mem_cons, List.not_mem_nil, or_false] at hk
    rcases hk with rfl | rfl | rfl | rfl <;> rfl
  have halk : ((tm.map fin).map fun m => sim_alkalinity exSim.alkalinity exSim.analyte_mass
      exSim.titrant_molinity m)
      = (tm.map fun m => ((0.1 : ℝ) * 2300 - 1e6 * (m * 0.1)) / (0.1 + m)).map fin := by
    rw [List.map_map, List.map_map]
    refine List.map_congr_left fun m hm => ?_
    have := massList_nonneg (le_refl 0) (by norm_num) m hm
    exact sim_alkalinity_fin (by positivity)
  set alk : List ℝ := tm.map fun m => ((0.1 : ℝ) * 2300 - 1e6 * (m * 0.1)) / (0.1 + m) with halkd
  have hcall : ∀ d : NpVal, callSys someSys (.arr (alk.map fin)) d kt = .ok (someContents ++ someConstants ++
        [("pH_free", .arr ((alk.map fun A => (some_pH A).choose).map fin))]) := by
    intro d
    unfold callSys
    rw [hno "par1" (by decide), hno "par2" (by decide), hno "par1_type" (by decide),
      hno "par2_type" (by decide)]
    exact someSys_par1 ([("par1", .arr (alk.map fin)), ("par2", d), ("par1_type", .scalar (fin 1)),
      ("par2_type", .scalar (fin 2))] ++ kt) alk (by rw [Dict.get?_append]; rfl)
  have hbin : ∀ xs : List Flt, xs.length = T.length → ∀ f, NpVal.bin f (.arr xs) (.arr T)
      = .ok (.arr (List.zipWith f xs T)) := by
    intro xs hx f
    simp only [NpVal.bin, if_pos hx]
  have hd : Dict.get (someContents ++ someConstants ++
        [("pH_free", NpVal.arr ((alk.map fun A => (some_pH A).choose).map fin))]) "dic"
      = .ok (.scalar (fin 2000)) := by
    rw [Dict.get_ok_iff, some_get]; rfl
  have hp : Dict.get (someContents ++ someConstants ++
        [("pH_free", NpVal.arr ((alk.map fun A => (some_pH A).choose).map fin))]) "pH_free"
      = .ok (.arr ((alk.map fun A => (some_pH A).choose).map fin)) := by
    rw [Dict.get_ok_iff, some_get]; rfl
  set r : Dict NpVal := someContents ++ someConstants ++
        [("pH_free", NpVal.arr ((alk.map fun A => (some_pH A).choose).map fin))] with hr
  refine ⟨{ titrant_mass := tm.map fin
            emf := .arr (List.zipWith (fun p t => pH_to_emf p exSim.emf0 t)
              ((alk.map fun A => (some_pH A).choose).map fin) T)
            temperature := T
            analyte_mass := exSim.analyte_mass
            totals := (Dict.mapKV (fun _ v => v.scale (fin 1e-6))
              (r.filter fun kv => startsWith "total_" kv.1)).set "dic" ((NpVal.scalar (fin 2000)).scale (fin 1e-6))
            k_constants := r.filter fun kv => startsWith "k_" kv.1 }, _, ?_, rfl, rfl, ?_, ?_⟩
  · unfold simulate_titration
    have e1 : arange exSim.titrant_mass_start exSim.titrant_mass_stop exSim.titrant_mass_step
      = .ok (tm.map fin) := hm
    rw [e1]
    simp only [bind_ok, hT, hks, hst, hkt, halk]
    have e2 : ∀ al df, sim_dic someSys exSim kt (tm.map fin) al df = .ok (df.map fun y => exSim.dic * y) :=
      fun _ _ => rfl
    simp only [e2, bind_ok, hcall, hp, hd]
    rw [hbin _ (by simp [halkd, hTd, hlen])]
    rfl
  · simp [hlen]
  · have ht : (Dict.mapKV (fun _ v => v.scale (fin 1e-6))
              (r.filter fun kv => startsWith "total_" kv.1)).set "dic" ((NpVal.scalar (fin 2000)).scale (fin 1e-6))
        = someContents.mapKV fun _ v => v.scale (fin 1e-6) := some_totals _
    have hk : (r.filter fun kv => startsWith "k_" kv.1) = someConstants := some_constants _
    simp only [ht, hk]
    exact ⟨some_valid 28, some_ks, rfl, rfl⟩

/-- C93 applies: the default titration gives back 2300 µmol/kg from some window of pH. -/
example : ∃ out emf lo hi r, simulate_titration someSys exSim = .ok out ∧ out.emf = .arr emf ∧
    solve_pH (fin 0.1) out.titrant_mass (emf_to_pH_arr emf (fin 600) out.temperature)
        out.analyte_mass out.totals out.k_constants { pH_min := fin lo, pH_max := fin hi } = .ok r ∧
      r.alkalinity = fin 2300 := by
  obtain ⟨out, emf, h1, h2, h3, h4, h5⟩ := exSim_ok
  obtain ⟨tm, emf', pH, e1, e2, e3, e4, e5, e6, e7⟩ := sim_data someSys someSys_exact exSim out 2300 0.1
    0.1 600 0 4.2e-3 0.15e-3 exSim_numbers rfl h1 (List.replicate 28 25) h3 (by simp [h4])
  have hT : ∀ t ∈ List.replicate 28 (25 : ℝ), -273.15 < t := by
    intro t ht; rw [List.eq_of_mem_replicate ht]; norm_num
  have he : emf = emf'.map fin := by rw [h2] at e2; exact NpVal.arr.inj e2
  have hl : emf'.length = 28 := by rw [e5]; rw [e1] at h4; simpa using h4
  have hp := emf_to_pH_arr_fin (E := 600) (emf := emf') hT
  have hne : (pHRs 600 emf' (List.replicate 28 25)).length = 28 := by simp [pHRs, hl]
  obtain ⟨p, hpm⟩ : ∃ p, p ∈ pHRs 600 emf' (List.replicate 28 25) :=
    ⟨_, List.getElem_mem (show 0 < _ by omega)⟩
  obtain ⟨r, r1, r2, -⟩ := C93_pH someSys someSys_exact exSim out 2300 0.1 0.1 600 0 4.2e-3 0.15e-3
    exSim_numbers rfl h1 _ h3 (by simp [h4]) hT (by simpa using h5) emf h2 (p - 1) (p + 1) (by linarith)
    ⟨fin p, by rw [h3, he, hp]; exact List.mem_map.mpr ⟨p, hpm, rfl⟩, by simp, by simp⟩
  exact ⟨out, emf, p - 1, p + 1, r, h1, h2, r1, r2⟩

end Calk
