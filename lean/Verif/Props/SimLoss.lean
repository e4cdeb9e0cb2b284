import Verif.Props.SimTitration

/-!
# Property C94: simulated titrations that lose CO2

With `k_dic_loss` the DIC of a simulated titration is followed from point to point.
-/

namespace Calk
open Flt Spec

theorem loss_from_spec {sys : Sys} {kw : Dict NpVal} {k air step M : Flt} {pts : List (Flt × Flt)}
    {i : ℕ} {d : Flt} {ds : List Flt} (h : loss_from sys kw k air step M i pts d = .ok ds) :
    ds.length = pts.length ∧ (∀ h0 : 0 < ds.length, ds[0] = d) ∧
    ∀ j (h1 : j + 1 < ds.length) (h2 : j < pts.length), ∃ kwi r v f,
      Dict.mapValsM (fun _ v => pointValue (i + j) v) kw = .ok kwi ∧
      callSys sys (.scalar pts[j].2) (.scalar ds[j]) kwi = .ok r ∧
      r.get? "fCO2" = some v ∧ asNumber v = .ok f ∧
      ds[j + 1] = ds[j] * ((M + pts[j].1) / (step + (M + pts[j].1))) - k * (f - air) * step := by
  induction pts generalizing i d ds with
  | nil =>
    obtain rfl := Except.ok.inj h
    exact ⟨rfl, fun h0 => absurd h0 (by simp), fun j h1 => absurd h1 (by simp)⟩
  | cons p rest ih =>
    cases rest with
    | nil =>
      obtain rfl := Except.ok.inj h
      exact ⟨rfl, fun _ => rfl, fun j h1 => absurd h1 (by simp)⟩
    | cons q rest =>
      obtain ⟨m, a⟩ := p
      simp only [loss_from, bind_ok_iff, Dict.get_ok_iff] at h
      obtain ⟨kwi, h1, r, h2, v, h3, f, h4, ds', h5, h6⟩ := h
      obtain rfl := Except.ok.inj h6
      obtain ⟨g1, g2, g3⟩ := ih h5
      refine ⟨by simp [g1], fun _ => rfl, ?_⟩
      intro j hj1 hj2
      cases j with
      | zero =>
        refine ⟨kwi, r, v, f, h1, h2, h3, h4, ?_⟩
        rw [List.getElem_cons_succ, g2 (by simpa using hj1)]
        rfl
      | succ j =>
        obtain ⟨kwi, r, v, f, e1, e2, e3, e4, e5⟩ := g3 j (by simpa using hj1) (by simpa using hj2)
        refine ⟨kwi, r, v, f, ?_, e2, e3, e4, e5⟩
        rw [show i + (j + 1) = i + 1 + j by omega]
        exact e1

theorem pointValue_ok {i : ℕ} {v w : NpVal} (h : pointValue i v = .ok w) : w = .scalar (v.at_ i) := by
  cases v with
  | scalar x => obtain rfl := Except.ok.inj h; rfl
  | arr xs =>
    simp only [pointValue] at h
    cases hx : xs[i]? with
    | none => rw [hx] at h; cases h
    | some x =>
      rw [hx] at h
      obtain rfl := Except.ok.inj h
      obtain ⟨hi, rfl⟩ := List.getElem?_eq_some_iff.mp hx
      rw [at_arr hi]

/-- **C94**: with a loss coefficient, DIC starts at the sample's value (undiluted, even if the titration
starts with titrant added).  From each point to the next it is diluted by one step of titrant and
loses the coefficient times the fCO2 excess times the step, where fCO2 is PyCO2SYS's answer for the
contents of the earlier point. -/
theorem C94_loss (sys : Sys) (a : SimArgs) (out : SimOut) (k : Flt) (hk : a.k_dic_loss = some k)
    (h : simulate_titration sys a = .ok out) :
    ∃ strt kw r d, SimCall sys a out strt kw r ∧ kw.get? "par2" = some (.arr d) ∧
      d.length = out.titrant_mass.length ∧ (∃ h0 : 0 < d.length, d[0] = a.dic) ∧
      ∀ j (h1 : j + 1 < d.length) (h2 : j < out.titrant_mass.length), ∃ kwi ri v f,
        sys kwi = .ok ri ∧ (∀ x, kwi.get? x = (kw.get? x).map fun v => .scalar (v.at_ j)) ∧
        ri.get? "fCO2" = some v ∧ (v = .scalar f ∨ v = .arr [f]) ∧
        d[j + 1] = d[j] * ((a.analyte_mass + out.titrant_mass[j])
            / (a.titrant_mass_step + (a.analyte_mass + out.titrant_mass[j])))
          - k * (f - a.fCO2_air) * a.titrant_mass_step := by
  obtain ⟨ks, strt, kt, dic, r, -, -, -, -, -, h6, h7⟩ := sim_call sys a out h
  simp only [sim_dic, hk] at h7
  split at h7
  · cases h7
  next hne =>
  obtain ⟨g1, g2, g3⟩ := loss_from_spec h7
  have hl : dic.length = out.titrant_mass.length := by simpa using g1
  have hpos : 0 < dic.length := by
    rw [hl]; exact List.length_pos_of_ne_nil (by simpa using hne)
  refine ⟨strt, _, r, dic, h6, by rw [simCall, Dict.get?_append]; rfl, hl, ⟨hpos, g2 hpos⟩, ?_⟩
  intro j h1 h2
  obtain ⟨kwi, ri, v, f, e1, e2, e3, e4, e5⟩ := g3 j h1 (by simpa using h2)
  rw [Nat.zero_add] at e1
  simp only [callSys] at e2
  split at e2
  · cases e2
  refine ⟨_, ri, v, f, e2, ?_, e3, ?_, ?_⟩
  · intro x
    rw [simCall, Dict.get?_append, Dict.get?_append]
    have hx : kwi.get? x = (kt.get? x).map fun v => .scalar (v.at_ j) := by
      rcases mapValsM_get? _ kt kwi e1 x with ⟨n1, n2⟩ | ⟨v, w, n1, n2, n3⟩
      · rw [n1, n2]; rfl
      · rw [n1, n3, pointValue_ok n2]; rfl
    have e : ∀ o o' : Option NpVal, (o.or o').map (fun v => NpVal.scalar (v.at_ j))
        = (o.map fun v => NpVal.scalar (v.at_ j)).or (o'.map fun v => NpVal.scalar (v.at_ j)) := by
      intro o o'; cases o <;> rfl
    rw [hx, e]
    congr 1
    simp only [Dict.get?_cons, Dict.get?_nil, List.getElem_zip, List.getElem_map]
    split_ifs
    · simp only [Option.map_some]
      rw [at_arr (by simpa using h2)]; simp
    · simp only [Option.map_some]
      rw [at_arr (by omega)]
    · rfl
    · rfl
    · rfl
  · match v, e4 with
    | .scalar y, e4 => exact .inl (by rw [Except.ok.inj e4])
    | .arr [y], e4 => exact .inr (by rw [Except.ok.inj e4])
  · simpa using e5

/-- every fCO2 that PyCO2SYS reports is a number -/
def GasFinite (sys : Sys) : Prop :=
  ∀ kw r v f, sys kw = .ok r → r.get? "fCO2" = some v → (v = .scalar f ∨ v = .arr [f]) → ∃ y, f = fin y

/-- **C94** over the reals: between two points the mixture loses the amount of DIC that left for the
air, and no other. -/
theorem C94_balance (sys : Sys) (hg : GasFinite sys) (a : SimArgs) (out : SimOut)
    (A M c start stop step k air D : ℝ) (ha : SimNumbers a A M c start stop step)
    (hk : a.k_dic_loss = some (fin k)) (hair : a.fCO2_air = fin air) (hD : a.dic = fin D)
    (h : simulate_titration sys a = .ok out) :
    ∃ strt kw r, SimCall sys a out strt kw r ∧ ∃ (tm d f : List ℝ), out.titrant_mass = tm.map fin ∧
      kw.get? "par2" = some (.arr (d.map fin)) ∧ d.length = tm.length ∧ f.length + 1 = tm.length ∧
      (∃ h0 : 0 < d.length, d[0] = D) ∧
      ∀ j (h1 : j + 1 < d.length) (h2 : j + 1 < tm.length) (h3 : j < f.length),
        (∃ kwi ri v, sys kwi = .ok ri ∧ (∀ x, kwi.get? x = (kw.get? x).map fun v => .scalar (v.at_ j)) ∧
          ri.get? "fCO2" = some v ∧ (v = .scalar (fin f[j]) ∨ v = .arr [fin f[j]])) ∧
        (M + tm[j + 1]) * d[j + 1]
          = (M + tm[j]) * d[j] - (M + tm[j + 1]) * (k * (f[j] - air) * step) := by
  obtain ⟨strt, kw, r, d, hc, hp2, hdl, ⟨hd0, hd1⟩, hstep⟩ := C94_loss sys a out (fin k) hk h
  obtain ⟨n, hn, -⟩ := C92_masses sys a out A M c start stop step ha h
  have hn' : out.titrant_mass = (massList start step n).map fin := by
    rw [hn, massList, List.map_map]; rfl
  have hnl : (massList start step n).length = n := by simp [massList]
  have hdn : d.length = n := by rw [hdl, hn']; simp [hnl]
  have hmass : ∀ j (hj : j < (massList start step n).length),
      (massList start step n)[j] = start + j * step := by
    intro j hj; simp [massList]
  have hM := ha.mass_pos
  have h0 := ha.start_nonneg
  have h1 := ha.step_pos
  have hpos : ∀ j : ℕ, 0 < M + (start + j * step) := by
    intro j
    have : (0 : ℝ) ≤ j := Nat.cast_nonneg j
    have := mul_nonneg this h1.le
    linarith
  -- one step, for a finite DIC
  have one : ∀ j (hj : j + 1 < d.length) (x : ℝ), d[j] = fin x → ∃ y f : ℝ, d[j + 1] = fin y ∧
      (∃ kwi ri v, sys kwi = .ok ri ∧ (∀ x, kwi.get? x = (kw.get? x).map fun v => .scalar (v.at_ j)) ∧
          ri.get? "fCO2" = some v ∧ (v = .scalar (fin f) ∨ v = .arr [fin f])) ∧
      (M + (start + (j + 1 : ℕ) * step)) * y
          = (M + (start + j * step)) * x - (M + (start + (j + 1 : ℕ) * step)) * (k * (f - air) * step) := by
    intro j hj x hx
    have hj' : j < out.titrant_mass.length := by omega
    obtain ⟨kwi, ri, v, f, e1, e2, e3, e4, e5⟩ := hstep j hj hj'
    obtain ⟨f, rfl⟩ := hg kwi ri v f e1 e3 e4
    have hm : out.titrant_mass[j] = fin (start + j * step) := by
      simp only [hn', List.getElem_map, hmass]
    have hp := hpos j
    rw [hm, hx, ha.analyte_mass, ha.titrant_mass_step, hair] at e5
    have hne : step + (M + (start + j * step)) ≠ 0 := by positivity
    simp only [add_fin, sub_fin, mul_fin] at e5
    rw [div_fin _ _ hne] at e5
    simp only [mul_fin, sub_fin] at e5
    refine ⟨_, f, e5, ⟨kwi, ri, v, e1, e2, e3, e4⟩, ?_⟩
    have e : M + (start + ((j + 1 : ℕ) : ℝ) * step) = step + (M + (start + j * step)) := by
      push_cast; ring
    rw [e]
    field_simp
  have fin_all : ∀ j (hj : j < d.length), ∃ x, d[j] = fin x := by
    intro j
    induction j with
    | zero => intro _; exact ⟨D, by rw [hd1, hD]⟩
    | succ j ih =>
      intro hj
      obtain ⟨x, hx⟩ := ih (by omega)
      obtain ⟨y, f, hy, -⟩ := one j hj x hx
      exact ⟨y, hy⟩
  choose dv hdv using fin_all
  have st : ∀ j (hj : j + 1 < d.length), ∃ f : ℝ,
      (∃ kwi ri v, sys kwi = .ok ri ∧ (∀ x, kwi.get? x = (kw.get? x).map fun v => .scalar (v.at_ j)) ∧
          ri.get? "fCO2" = some v ∧ (v = .scalar (fin f) ∨ v = .arr [fin f])) ∧
      (M + (start + (j + 1 : ℕ) * step)) * dv (j + 1) hj
          = (M + (start + j * step)) * dv j (by omega)
            - (M + (start + (j + 1 : ℕ) * step)) * (k * (f - air) * step) := by
    intro j hj
    obtain ⟨y, f, hy, hf, hb⟩ := one j hj _ (hdv j (by omega))
    refine ⟨f, hf, ?_⟩
    rw [hdv (j + 1) hj] at hy
    rw [Flt.fin.inj hy]
    exact hb
  choose fv hf hb using st
  refine ⟨strt, kw, r, hc, massList start step n, List.ofFn fun j : Fin d.length => dv j j.2,
    List.ofFn fun j : Fin (d.length - 1) => fv j (by omega), hn', ?_, by simp [hnl, hdn], ?_, ?_, ?_⟩
  · rw [hp2]
    refine congrArg some (congrArg NpVal.arr (List.ext_getElem (by simp) ?_))
    intro j j1 j2
    rw [List.getElem_map, List.getElem_ofFn]
    exact hdv j j1
  · simp [hnl]; omega
  · refine ⟨by simpa using hd0, ?_⟩
    rw [List.getElem_ofFn]
    have := hdv 0 hd0
    rw [hd1, hD] at this
    exact (Flt.fin.inj this).symm
  · intro j j1 j2 j3
    have hj : j + 1 < d.length := by simpa using j1
    rw [hmass, hmass, List.getElem_ofFn, List.getElem_ofFn, List.getElem_ofFn]
    exact ⟨hf j hj, hb j hj⟩

/-- **C94**: a loss coefficient of zero from the start of the titration is no loss: DIC is only
diluted. -/
theorem C94_zero (sys : Sys) (hg : GasFinite sys) (a : SimArgs) (out : SimOut)
    (A M c stop step air D : ℝ) (ha : SimNumbers a A M c 0 stop step)
    (hk : a.k_dic_loss = some (fin 0)) (hair : a.fCO2_air = fin air) (hD : a.dic = fin D)
    (h : simulate_titration sys a = .ok out) :
    ∃ strt kw r, SimCall sys a out strt kw r ∧ kw.get? "par2" =
      some (.arr (out.titrant_mass.map fun m => a.dic * (a.analyte_mass / (m + a.analyte_mass)))) := by
  obtain ⟨strt, kw, r, hc, tm, d, f, h1, h2, h3, h4, ⟨h50, h5⟩, h6⟩ :=
    C94_balance sys hg a out A M c 0 stop step 0 air D ha hk hair hD h
  refine ⟨strt, kw, r, hc, ?_⟩
  obtain ⟨n, hn, -⟩ := C92_masses sys a out A M c 0 stop step ha h
  have htm : tm = massList 0 step n := by
    rw [h1] at hn
    have : (List.range n).map (fun i : ℕ => fin (0 + i * step)) = (massList 0 step n).map fin := by
      rw [massList, List.map_map]; rfl
    rw [this] at hn
    exact List.map_injective_iff.mpr (fun a b h => Flt.fin.inj h) hn
  have hpos : ∀ m ∈ tm, 0 < m + M := by
    intro m hm
    have := massList_nonneg (le_refl 0) ha.step_pos m (htm ▸ hm)
    have := ha.mass_pos
    linarith
  have key : ∀ j (h1 : j < d.length) (h2 : j < tm.length), (M + tm[j]) * d[j] = M * D := by
    intro j
    induction j with
    | zero =>
      intro j1 j2
      rw [h5]
      have : tm[0] = 0 := by simp [htm, massList]
      rw [this]; ring
    | succ j ih =>
      intro j1 j2
      have := (h6 j j1 j2 (by omega)).2
      rw [this, ← ih (by omega) (by omega)]
      ring
  rw [h2]
  refine congrArg some (congrArg NpVal.arr (List.ext_getElem (by simp [h1, h3]) ?_))
  intro j j1 j2
  have hj : j < d.length := by simpa using j1
  have hp := hpos _ (List.getElem_mem (show j < tm.length by omega))
  simp only [List.getElem_map, h1, hD, ha.analyte_mass, add_fin]
  rw [div_fin _ _ hp.ne', mul_fin]
  congr 1
  have := key j hj (by omega)
  field_simp
  linarith

/-- **C94**: without titrant masses there is no first point to start from. -/
theorem C94_empty (sys : Sys) (a : SimArgs) (k : Flt) (hk : a.k_dic_loss = some k)
    (hm : arange a.titrant_mass_start a.titrant_mass_stop a.titrant_mass_step = .ok []) (out : SimOut) :
    simulate_titration sys a ≠ .ok out := by
  intro h
  obtain ⟨-, -, -, d, -, h2, h3, ⟨h4, -⟩, -⟩ := C94_loss sys a out k hk h
  obtain ⟨-, -, -, -, -, -, -, h1, -⟩ := sim_parts h
  rw [hm] at h1
  rw [← Except.ok.inj h1] at h3
  simp [List.length_eq_zero_iff.mp h3] at h4

/-! ## Satisfiability -/

/-- a PyCO2SYS that always reports 800 µatm and pH 8 -/
noncomputable def gasSys : Sys := fun _ =>
  .ok (someContents ++ [("pH_free", .scalar (fin 8)), ("fCO2", .scalar (fin 800))])

theorem gasSys_finite : GasFinite gasSys := by
  intro kw r v f h1 h2 h3
  obtain rfl := Except.ok.inj h1
  rw [Dict.get?_append, someContents_get?, if_neg (by decide), if_neg (by decide)] at h2
  simp [Dict.get?_cons] at h2
  subst h2
  rcases h3 with h3 | h3
  · exact ⟨800, (NpVal.scalar.inj h3).symm⟩
  · cases h3

/-- two points, the second with 0.1 kg of titrant -/
noncomputable def exLoss (k : ℝ) : SimArgs :=
  { alkalinity := fin 2300, dic := fin 2000, k_dic_loss := some (fin k), titrant_mass_step := fin 0.1,
    titrant_mass_stop := fin 0.2 }

theorem mem_set_vals {d : Dict NpVal} {k : String} {v : NpVal} {kv : String × NpVal}
    (h : kv ∈ d.set k v) : kv ∈ d ∨ kv.2 = v := by
  induction d with
  | nil => right; simp [Dict.set] at h; rw [h]
  | cons p d ih =>
    obtain ⟨k', v'⟩ := p
    simp only [Dict.set] at h
    split at h
    · rcases List.mem_cons.mp h with rfl | h
      · exact .inr rfl
      · exact .inl (List.mem_cons_of_mem _ h)
    · rcases List.mem_cons.mp h with rfl | h
      · exact .inl (by simp)
      · exact (ih h).imp (List.mem_cons_of_mem _) id

theorem dilute_start_vals {strt : Dict NpVal} {df : List Flt} {names : List String}
    {kw out : Dict NpVal} (h : dilute_start strt df names kw = .ok out) (P : NpVal → Prop)
    (h1 : ∀ kv ∈ kw, P kv.2) (h2 : ∀ xs : List Flt, xs.length = df.length → P (.arr xs)) :
    ∀ kv ∈ out, P kv.2 := by
  induction names generalizing kw with
  | nil => obtain rfl := Except.ok.inj h; exact h1
  | cons k ks ih =>
    simp only [dilute_start, bind_ok_iff, Dict.get_ok_iff] at h
    obtain ⟨v, hv, x, hx, h⟩ := h
    refine ih h ?_
    intro kv hkv
    rcases mem_set_vals hkv with hkv | hkv
    · exact h1 kv hkv
    · rw [hkv]
      unfold NpVal.zipW at hx
      split at hx
      · obtain rfl := Except.ok.inj hx
        exact h2 _ (by simp [NpVal.bcast])
      · cases hx

/-- All hypotheses of C94 hold for this titration. -/
example (k : ℝ) : ∃ out, simulate_titration gasSys (exLoss k) = .ok out ∧ GasFinite gasSys ∧
    SimNumbers (exLoss k) 2300 0.1 0.1 0 0.2 0.1 := by
  have hm : arange (exLoss k).titrant_mass_start (exLoss k).titrant_mass_stop
      (exLoss k).titrant_mass_step = .ok [fin (0 + (0 : ℕ) * 0.1), fin (0 + (1 : ℕ) * 0.1)] := by
    have : ⌈((0.2 : ℝ) - 0) / 0.1⌉₊ = 2 := by
      rw [Nat.ceil_eq_iff (by norm_num)]; norm_num
    simp only [exLoss, arange, this]
    rw [if_neg (by norm_num)]
    rfl
  suffices h : ∃ out, simulate_titration gasSys (exLoss k) = .ok out from
    h.imp fun out h => ⟨h, gasSys_finite, rfl, rfl, rfl, rfl, rfl, rfl, by norm_num, by norm_num, by norm_num⟩
  unfold simulate_titration
  rw [hm]
  simp only [bind_ok]
  have hT : sim_temperature (exLoss k).temperature [fin (0 + (0 : ℕ) * 0.1), fin (0 + (1 : ℕ) * 0.1)].length
    = [fin 25, fin 25] := rfl
  have hks : kwargs_start (exLoss k).salinity [fin 25, fin 25]
      (sim_options.foldl setMissing (exLoss k).pyco2sys_kwargs)
      = .ok ([("salinity", .scalar (fin 35)), ("temperature", .arr [fin 25, fin 25]),
        ("opt_pH_scale", .scalar (fin 3))] ++ sim_options) := by rfl
  rw [hT, hks]
  have hg : ∀ kw, gasSys kw
      = .ok (someContents ++ [("pH_free", .scalar (fin 8)), ("fCO2", .scalar (fin 800))]) := fun _ => rfl
  simp only [bind_ok, hg]
  obtain ⟨kt, hkt⟩ := dilute_start_ok
    (strt := someContents ++ [("pH_free", .scalar (fin 8)), ("fCO2", .scalar (fin 800))])
    (df := dilution_factors [fin (0 + (0 : ℕ) * 0.1), fin (0 + (1 : ℕ) * 0.1)] (exLoss k).analyte_mass)
    (names := sim_diluted) (by
      intro k hk
      rw [Dict.get?_append, someContents_get?, if_pos (show k ∈ dilutedContents from hk)]
      exact ⟨_, rfl⟩) ([("salinity", .scalar (fin 35)), ("temperature", .arr [fin 25, fin 25]),
        ("opt_pH_scale", .scalar (fin 3))] ++ sim_options)
  rw [hkt]
  simp only [bind_ok]
  have hno : ∀ k ∈ ["par1", "par2", "par1_type", "par2_type"], kt.get? k = none := by
    intro k hk
    rw [(dilute_start_get hkt k).1
      ((by decide : ∀ k ∈ ["par1", "par2", "par1_type", "par2_type"], k ∉ sim_diluted) k hk)]
    simp only [List.mem_cons, List.not_mem_nil, or_false] at hk
    rcases hk with rfl | rfl | rfl | rfl <;> rfl
  obtain ⟨kti, hkti⟩ := mapValsM_isOk (fun _ v => pointValue 0 v) kt (by
    refine dilute_start_vals hkt (fun v => ∃ w, pointValue 0 v = .ok w) ?_ ?_
    · intro kv hkv
      simp only [sim_options, List.cons_append, List.nil_append, List.mem_cons, List.not_mem_nil,
        or_false] at hkv
      rcases hkv with rfl | rfl | rfl | rfl | rfl | rfl | rfl | rfl <;> exact ⟨_, rfl⟩
    · intro xs hx
      match xs, hx with
      | x :: xs, _ => exact ⟨.scalar x, rfl⟩)
  have hno' : ∀ k ∈ ["par1", "par2", "par1_type", "par2_type"], kti.get? k = none := by
    intro k hk
    rcases mapValsM_get? _ kt kti hkti k with ⟨-, n2⟩ | ⟨v, w, n1, -⟩
    · exact n2
    · rw [hno k hk] at n1; cases n1
  have call : ∀ (d : Dict NpVal), (∀ k ∈ ["par1", "par2", "par1_type", "par2_type"], d.get? k = none) →
      ∀ p q, callSys gasSys p q d = .ok (someContents ++ [("pH_free", .scalar (fin 8)), ("fCO2", .scalar (fin 800))]) := by
    intro d hd p q
    simp [callSys, gasSys, Dict.has, hd "par1" (by decide), hd "par2" (by decide), hd "par1_type" (by decide),
      hd "par2_type" (by decide)]
  have hget : ∀ x, Dict.get? (someContents ++ [("pH_free", .scalar (fin 8)), ("fCO2", .scalar (fin 800))]) x
      = (someContents.get? x).or (Dict.get? [("pH_free", .scalar (fin 8)), ("fCO2", .scalar (fin 800))] x) :=
    fun x => Dict.get?_append ..
  have g1 : Dict.get (someContents ++ [("pH_free", .scalar (fin 8)), ("fCO2", .scalar (fin 800))]) "fCO2"
      = .ok (.scalar (fin 800)) := by
    rw [Dict.get_ok_iff, hget, someContents_get?]; rfl
  have g2 : Dict.get (someContents ++ [("pH_free", .scalar (fin 8)), ("fCO2", .scalar (fin 800))]) "pH_free"
      = .ok (.scalar (fin 8)) := by
    rw [Dict.get_ok_iff, hget, someContents_get?]; rfl
  have g3 : Dict.get (someContents ++ [("pH_free", .scalar (fin 8)), ("fCO2", .scalar (fin 800))]) "dic"
      = .ok (.scalar (fin 2000)) := by
    rw [Dict.get_ok_iff, hget, someContents_get?]; rfl
  simp only [sim_dic, exLoss, List.map_cons, List.map_nil, List.zip_cons_cons, List.zip_nil_right,
    loss_from, List.isEmpty_cons, Bool.false_eq_true, if_false, hkti, call kti hno', g1, bind_ok, asNumber, pure_ok, call kt hno, g2, g3]
  exact ⟨_, rfl⟩

end Calk
