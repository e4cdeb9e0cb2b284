import Verif.Lemmas.Kwargs
import Verif.Lemmas.Totals

/-! Helper lemmas: `files.solve` depends on its keyword arguments only by name, so neither on their
order nor on null values of those arguments that are tested with `pd.isnull`. -/

namespace Calk
open Flt

/-! ## Order of the titrant totals -/

theorem Dict.set_comm {α : Type} (d : Dict α) {k k' : String} (v v' : α) (hk : k ∈ d.keys)
    (hk' : k' ∈ d.keys) (hne : k ≠ k') : (d.set k v).set k' v' = (d.set k' v').set k v := by
  induction d with
  | nil => simp [Dict.keys] at hk
  | cons kv d ih =>
    obtain ⟨a, b⟩ := kv
    have hk2 : k = a ∨ k ∈ Dict.keys d := by simpa [Dict.keys] using hk
    have hk2' : k' = a ∨ k' ∈ Dict.keys d := by simpa [Dict.keys] using hk'
    by_cases h1 : a = k
    · subst h1
      have h2 : ¬ a = k' := hne
      simp [Dict.set, h2]
    · by_cases h2 : a = k'
      · subst h2
        simp [Dict.set, h1]
      · simp only [Dict.set, h1, h2, if_false]
        rw [ih (hk2.resolve_left (Ne.symm h1)) (hk2'.resolve_left (Ne.symm h2))]

/-- one titrant total -/
noncomputable def stepTot (tm : List Flt) (M c p : Flt) (s : Dict NpVal) (e : String × Flt) :
    Py (Dict NpVal) := do
  pyAssert (titrantPrefix.toList.isPrefixOf e.1.toList)
  let old ← s.get (dropTitrant e.1)
  let new ← old.iadd (titrant_contribution tm M c p e.2)
  return s.set (dropTitrant e.1) new

theorem add_ok_iff (tm : List Flt) (M c p : Flt) (l : List (String × Flt)) (s s' : Dict NpVal) :
    add_titrant_totals tm M c p l s = (.ok (), s') ↔ l.foldlM (stepTot tm M c p) s = .ok s' := by
  induction l generalizing s with
  | nil =>
    show ((Except.ok (), s) : Py Unit × Dict NpVal) = _ ↔ (Except.ok s : Py _) = .ok s'
    simp
  | cons e rest ih =>
    obtain ⟨t, f⟩ := e
    rw [List.foldlM_cons, bind_ok_iff]
    unfold add_titrant_totals
    simp only [PyS.bind_apply, PyS.lift_apply, PyS.get_apply, PyS.set_apply]
    cases h1 : pyAssert (titrantPrefix.toList.isPrefixOf t.toList) with
    | error e => simp [stepTot, h1, bind_error]
    | ok u =>
      cases h2 : s.get (dropTitrant t) with
      | error e => simp [stepTot, h1, h2, bind_ok, bind_error]
      | ok old =>
        cases h3 : old.iadd (titrant_contribution tm M c p f) with
        | error e => simp [stepTot, h1, h2, h3, bind_ok, bind_error]
        | ok new =>
          simp only [stepTot, h1, h2, h3, bind_ok, pure_ok]
          constructor
          · intro h; exact ⟨_, rfl, (ih _).mp h⟩
          · rintro ⟨a, ha, h⟩
            have := Except.ok.inj ha
            subst this
            exact (ih _).mpr h

theorem stepTot_ok {tm : List Flt} {M c p : Flt} {s s' : Dict NpVal} {e : String × Flt}
    (h : stepTot tm M c p s e = .ok s') :
    pyAssert (titrantPrefix.toList.isPrefixOf e.1.toList) = .ok () ∧ ∃ old new,
      s.get? (dropTitrant e.1) = some old ∧ old.iadd (titrant_contribution tm M c p e.2) = .ok new ∧
      s' = s.set (dropTitrant e.1) new := by
  unfold stepTot at h
  obtain ⟨u, h1, h⟩ := bind_ok_iff.mp h
  obtain ⟨old, h2, h⟩ := bind_ok_iff.mp h
  obtain ⟨new, h3, h⟩ := bind_ok_iff.mp h
  exact ⟨h1, old, new, Dict.get_ok_iff.mp h2, h3, (Except.ok.inj h).symm⟩

theorem stepTot_of {tm : List Flt} {M c p : Flt} {s : Dict NpVal} {e : String × Flt} {old new : NpVal}
    (h1 : pyAssert (titrantPrefix.toList.isPrefixOf e.1.toList) = .ok ())
    (h2 : s.get? (dropTitrant e.1) = some old)
    (h3 : old.iadd (titrant_contribution tm M c p e.2) = .ok new) :
    stepTot tm M c p s e = .ok (s.set (dropTitrant e.1) new) := by
  unfold stepTot
  rw [h1, bind_ok, Dict.get_ok_iff.mpr h2, bind_ok, h3, bind_ok]
  rfl

theorem stepTot_swap {tm : List Flt} {M c p : Flt} {s s1 s2 : Dict NpVal} {a b : String × Flt}
    (hne : dropTitrant a.1 ≠ dropTitrant b.1) (ha : stepTot tm M c p s a = .ok s1)
    (hb : stepTot tm M c p s1 b = .ok s2) :
    ∃ t, stepTot tm M c p s b = .ok t ∧ stepTot tm M c p t a = .ok s2 := by
  obtain ⟨a1, ao, an, a2, a3, rfl⟩ := stepTot_ok ha
  obtain ⟨b1, bo, bn, b2, b3, rfl⟩ := stepTot_ok hb
  rw [Dict.get?_set, if_neg (Ne.symm hne)] at b2
  refine ⟨_, stepTot_of b1 b2 b3, ?_⟩
  rw [Dict.set_comm s an bn (Dict.has_of_get? a2) (Dict.has_of_get? b2) hne]
  exact stepTot_of a1 (by rw [Dict.get?_set, if_neg hne]; exact a2) a3

theorem foldTot_perm {tm : List Flt} {M c p : Flt} {l l' : List (String × Flt)} (hp : l.Perm l')
    (hn : (l.map fun e => dropTitrant e.1).Nodup) (s s' : Dict NpVal)
    (h : l.foldlM (stepTot tm M c p) s = .ok s') : l'.foldlM (stepTot tm M c p) s = .ok s' := by
  induction hp generalizing s with
  | nil => exact h
  | cons e _ ih =>
    rw [List.foldlM_cons, bind_ok_iff] at h ⊢
    obtain ⟨a, h1, h2⟩ := h
    rw [List.map_cons, List.nodup_cons] at hn
    exact ⟨a, h1, ih hn.2 _ h2⟩
  | swap a b l =>
    rw [List.foldlM_cons, bind_ok_iff] at h
    obtain ⟨s1, h1, h⟩ := h
    rw [List.foldlM_cons, bind_ok_iff] at h
    obtain ⟨s2, h2, h⟩ := h
    have hne : dropTitrant b.1 ≠ dropTitrant a.1 := by
      simp only [List.map_cons, List.nodup_cons, List.mem_cons, not_or] at hn
      exact hn.1.1
    obtain ⟨t, t1, t2⟩ := stepTot_swap hne h1 h2
    rw [List.foldlM_cons, bind_ok_iff]
    refine ⟨t, t1, ?_⟩
    rw [List.foldlM_cons, bind_ok_iff]
    exact ⟨s2, t2, h⟩
  | trans p1 p2 ih1 ih2 =>
    exact ih2 ((p1.map _).nodup_iff.mp hn) s (ih1 hn s h)

/-! ## Lookup by name -/

/-- arguments tested with `pd.isnull` (convert.py:234-243, interface.py:70-75, 131-160) -/
def nullArgs : List String :=
  ["analyte_mass", "analyte_volume", "total_borate", "total_fluoride", "total_sulfate"] ++
    calk_to_pyco2_ks.map Prod.fst

/-- the same values, where a null value of one of `nullArgs` is as good as none -/
structure Alike (p : String → Bool) (kw kw' : Dict Val) : Prop where
  get : ∀ k, p k = true → k ∉ nullArgs → kw.get? k = kw'.get? k
  nul : ∀ k, p k = true → k ∈ nullArgs → argNotNull kw k = argNotNull kw' k

theorem Alike.symm {p : String → Bool} {kw kw' : Dict Val} (h : Alike p kw kw') : Alike p kw' kw :=
  ⟨fun k a b => (h.get k a b).symm, fun k a b => (h.nul k a b).symm⟩

theorem argNotNull_of_get {kw kw' : Dict Val} {k : String} (h : kw.get? k = kw'.get? k) :
    argNotNull kw k = argNotNull kw' k := by simp only [argNotNull, h]

theorem Alike.filter {p : String → Bool} {kw kw' : Dict Val} (h : Alike p kw kw')
    (q : String → Bool) (hq : ∀ k, q k = true → p k = true) :
    Alike (fun _ => true) (kw.filter fun kv => q kv.1) (kw'.filter fun kv => q kv.1) := by
  refine ⟨fun k _ hk => ?_, fun k _ hk => ?_⟩
  · rw [Dict.get?_filter q kw k, Dict.get?_filter q kw' k]
    by_cases hqk : q k = true
    · rw [if_pos hqk, if_pos hqk]; exact h.get k (hq k hqk) hk
    · rw [if_neg hqk, if_neg hqk]
  · by_cases hqk : q k = true
    · have e : argNotNull (kw.filter fun kv => q kv.1) k = argNotNull kw k :=
        argNotNull_of_get (by rw [Dict.get?_filter q kw k, if_pos hqk])
      have e' : argNotNull (kw'.filter fun kv => q kv.1) k = argNotNull kw' k :=
        argNotNull_of_get (by rw [Dict.get?_filter q kw' k, if_pos hqk])
      rw [e, e']
      exact h.nul k (hq k hqk) hk
    · apply argNotNull_of_get
      rw [Dict.get?_filter q kw k, Dict.get?_filter q kw' k, if_neg hqk, if_neg hqk]

section
variable {kw kw' : Dict Val} (h : Alike (fun _ => true) kw kw')
include h

theorem Alike.argNum {k : String} (hk : k ∉ nullArgs) : argNum kw k = argNum kw' k := by
  funext d; simp only [Calk.argNum, h.get k rfl hk]
theorem Alike.argOpt {k : String} (hk : k ∉ nullArgs) : argOpt kw k = argOpt kw' k := by
  simp only [Calk.argOpt, h.get k rfl hk]
theorem Alike.argVal {k : String} (hk : k ∉ nullArgs) : argVal kw k = argVal kw' k := by
  funext d; simp only [Calk.argVal, h.get k rfl hk]
theorem Alike.argNotNull (k : String) : argNotNull kw k = argNotNull kw' k := by
  by_cases hk : k ∈ nullArgs
  · exact h.nul k rfl hk
  · exact argNotNull_of_get (h.get k rfl hk)

theorem Alike.amount_units (dd : DatData) (S : Flt) : amount_units dd S kw = amount_units dd S kw' := by
  simp only [Calk.amount_units, override_temperature, titrant_masses, get_analyte_mass,
    h.argNotNull, h.argNum (k := "molinity_H2SO4") (by decide),
    h.argNum (k := "molinity_HCl") (by decide), h.argNum (k := "molinity_NaCl") (by decide),
    h.argOpt (k := "temperature_override") (by decide), h.argOpt (k := "titrant_density") (by decide),
    h.argVal (k := "titrant_amount_unit") (by decide), h.argVal (k := "titrant") (by decide)]

theorem Alike.get_totals (w : World) (S : Flt) : get_totals w S kw = get_totals w S kw' := by
  simp only [Calk.get_totals, h.argNotNull, h.argNum (k := "dic") (by decide),
    h.argNum (k := "total_alpha") (by decide), h.argNum (k := "total_beta") (by decide),
    h.argNum (k := "total_ammonia") (by decide), h.argNum (k := "total_phosphate") (by decide),
    h.argNum (k := "total_silicate") (by decide), h.argNum (k := "total_sulfide") (by decide),
    h.argVal (k := "opt_k_carbonic") (by decide), h.argVal (k := "opt_total_borate") (by decide)]

theorem Alike.ks_for_pyco2 (table : List (String × String)) (d : Dict NpVal) :
    ks_for_pyco2 kw table d = ks_for_pyco2 kw' table d := by
  induction table generalizing d with
  | nil => rfl
  | cons e rest ih => simp only [Calk.ks_for_pyco2, h.argNotNull, ih]

theorem Alike.get_k_constants (w : World) (tp : Dict NpVal) (T : List Flt) :
    get_k_constants w tp T kw = get_k_constants w tp T kw' := by
  simp only [Calk.get_k_constants, h.ks_for_pyco2, h.argVal (k := "opt_pH_scale") (by decide),
    h.argVal (k := "opt_k_carbonic") (by decide), h.argVal (k := "opt_k_bisulfate") (by decide),
    h.argVal (k := "opt_k_fluoride") (by decide)]

theorem Alike.totals_ks (w : World) (cv : Converted) : totals_ks w cv kw = totals_ks w cv kw' := by
  simp only [Calk.totals_ks, totals_for_ks, h.argVal (k := "dilute_totals_for_ks") (by decide),
    (h.filter (fun k => keys_get_totals.contains k) fun _ _ => rfl).get_totals,
    (h.filter (fun k => keys_get_k_constants.contains k) fun _ _ => rfl).get_k_constants]

theorem Alike.emf_opts : emf_opts kw = emf_opts kw' := by
  simp only [Calk.emf_opts, h.argOpt (k := "alkalinity_init") (by decide),
    h.argOpt (k := "emf0_init") (by decide), h.argNum (k := "pH_min") (by decide),
    h.argNum (k := "pH_max") (by decide), h.argNum (k := "titrant_normality") (by decide),
    h.argVal (k := "gran_logic") (by decide), h.argVal (k := "double") (by decide)]

theorem Alike.ph_opts : ph_opts kw = ph_opts kw' := by
  simp only [Calk.ph_opts, h.argNum (k := "pH_min") (by decide), h.argNum (k := "pH_max") (by decide),
    h.argNum (k := "titrant_normality") (by decide)]

theorem Alike.set (k : String) (v : Val) : Alike (fun _ => true) (kw.set k v) (kw'.set k v) := by
  refine ⟨fun k' _ hk => ?_, fun k' _ hk => ?_⟩
  · rw [Dict.get?_set, Dict.get?_set, h.get k' rfl hk]
  · by_cases e : k' = k
    · apply argNotNull_of_get; rw [Dict.get?_set, Dict.get?_set, if_pos e, if_pos e]
    · have e1 : Calk.argNotNull (kw.set k v) k' = Calk.argNotNull kw k' :=
        argNotNull_of_get (by rw [Dict.get?_set, if_neg e])
      have e2 : Calk.argNotNull (kw'.set k v) k' = Calk.argNotNull kw' k' :=
        argNotNull_of_get (by rw [Dict.get?_set, if_neg e])
      rw [e1, e2]; exact h.nul k' rfl hk

end

/-- `read_dat` gets its settings by name: their order does not matter -/
def ByName (w : World) : Prop :=
  ∀ f a b, SameGet a b → w.readDat f a = w.readDat f b

theorem Dict.mem_iff_get? {α : Type} {d : Dict α} (hd : d.keys.Nodup) (kv : String × α) :
    kv ∈ d ↔ d.get? kv.1 = some kv.2 :=
  ⟨fun h => Dict.mem_get? hd h, fun h => Dict.mem_of_get? h⟩

theorem Dict.nodup_of_keys {α : Type} {d : Dict α} (hd : d.keys.Nodup) : List.Nodup d :=
  List.Nodup.of_map Prod.fst hd

theorem Dict.filter_keys_nodup {α : Type} {d : Dict α} (hd : d.keys.Nodup) (q : String → Bool) :
    (Dict.keys (d.filter fun kv => q kv.1)).Nodup :=
  hd.sublist ((List.filter_sublist).map Prod.fst)

theorem filter_perm {kw kw' : Dict Val} (hn : kw.keys.Nodup) (hn' : kw'.keys.Nodup)
    (q : String → Bool) (h : ∀ k, q k = true → kw.get? k = kw'.get? k) :
    (kw.filter fun kv => q kv.1).Perm (kw'.filter fun kv => q kv.1) := by
  rw [List.perm_ext_iff_of_nodup (Dict.nodup_of_keys (Dict.filter_keys_nodup hn q))
    (Dict.nodup_of_keys (Dict.filter_keys_nodup hn' q))]
  intro kv
  rw [List.mem_filter, List.mem_filter, Dict.mem_iff_get? hn, Dict.mem_iff_get? hn']
  constructor
  · rintro ⟨a, b⟩; exact ⟨by rw [← h _ b]; exact a, b⟩
  · rintro ⟨a, b⟩; exact ⟨by rw [h _ b]; exact a, b⟩

theorem mapValsM_perm {α β : Type} {g : String → α → Py β} {l l' : Dict α} (hp : List.Perm l l')
    {m : Dict β} (h : Dict.mapValsM g l = .ok m) :
    ∃ m', Dict.mapValsM g l' = .ok m' ∧ List.Perm m m' := by
  induction hp generalizing m with
  | nil => exact ⟨m, h, List.Perm.refl m⟩
  | cons e _ ih =>
    obtain ⟨k, v⟩ := e
    obtain ⟨a, h1, h⟩ := bind_ok_iff.mp h
    obtain ⟨b, h2, h⟩ := bind_ok_iff.mp h
    obtain ⟨b', h3, h4⟩ := ih h2
    have := Except.ok.inj h
    subst this
    exact ⟨(k, a) :: b', by simp only [Dict.mapValsM, h1, h3, bind_ok, pure_ok], h4.cons _⟩
  | swap x y l =>
    obtain ⟨k, v⟩ := x
    obtain ⟨k', v'⟩ := y
    obtain ⟨a, h1, h⟩ := bind_ok_iff.mp h
    obtain ⟨b, h2, h⟩ := bind_ok_iff.mp h
    obtain ⟨a', h3, h2⟩ := bind_ok_iff.mp h2
    obtain ⟨b', h4, h2⟩ := bind_ok_iff.mp h2
    have e1 := Except.ok.inj h
    have e2 := Except.ok.inj h2
    subst e2
    subst e1
    exact ⟨(k, a') :: (k', a) :: b', by simp only [Dict.mapValsM, h1, h3, h4, bind_ok, pure_ok],
      List.Perm.swap _ _ _⟩
  | trans _ _ ih1 ih2 =>
    obtain ⟨m1, h1, p1⟩ := ih1 h
    obtain ⟨m2, h2, p2⟩ := ih2 h1
    exact ⟨m2, h2, p1.trans p2⟩

theorem titrant_totals_names {kw : Dict Val} {m : List (String × Flt)}
    (h : titrant_totals kw = .ok m) : m.map Prod.fst
      = Dict.keys (kw.filter fun kv => keys_titrant_totals.contains kv.1) := by
  unfold titrant_totals at h
  generalize (kw.filter fun kv => keys_titrant_totals.contains kv.1) = d at h
  induction d generalizing m with
  | nil => have := Except.ok.inj h; subst this; rfl
  | cons e d ih =>
    obtain ⟨k, v⟩ := e
    obtain ⟨a, h1, h⟩ := bind_ok_iff.mp h
    obtain ⟨b, h2, h⟩ := bind_ok_iff.mp h
    have e1 := Except.ok.inj h
    subst e1
    have := ih h2
    simp only [List.map_cons, this, Dict.keys]

theorem dropTitrant_inj : ∀ a ∈ keys_titrant_totals, ∀ b ∈ keys_titrant_totals,
    dropTitrant a = dropTitrant b → a = b := by decide +kernel

theorem titrant_totals_nodup {kw : Dict Val} (hn : kw.keys.Nodup) {m : List (String × Flt)}
    (h : titrant_totals kw = .ok m) : (m.map fun e => dropTitrant e.1).Nodup := by
  have e := titrant_totals_names h
  have h1 : (m.map Prod.fst).Nodup := by rw [e]; exact Dict.filter_keys_nodup hn _
  have h2 : ∀ k ∈ m.map Prod.fst, k ∈ keys_titrant_totals := by
    rw [e]
    intro k hk
    obtain ⟨kv, hkv, rfl⟩ := List.mem_map.mp hk
    simpa using (List.mem_filter.mp hkv).2
  have : (m.map fun e => dropTitrant e.1) = (m.map Prod.fst).map dropTitrant := by
    rw [List.map_map]; rfl
  rw [this]
  exact List.Nodup.map_on (fun a ha b hb hab => dropTitrant_inj a (h2 a ha) b (h2 b hb) hab) h1

theorem solve_keys_sub : (∀ k ∈ keys_read_dat, k ∈ keys_solve ∧ k ∉ nullArgs) ∧
    (∀ k ∈ keys_cau, k ∈ keys_solve) ∧ (∀ k ∈ keys_totals_ks, k ∈ keys_solve) ∧
    (∀ k ∈ keys_solve_emf, k ∈ keys_solve) ∧ (∀ k ∈ keys_solve_pH, k ∈ keys_solve) ∧
    (∀ k ∈ keys_titrant_totals, k ∈ keys_solve ∧ k ∉ nullArgs) := by
  refine ⟨?_, ?_, ?_, ?_, ?_, ?_⟩ <;> decide +kernel

/-- `files.solve` finds its settings by name. -/
theorem files_solve_alike {w : World} (hw : ByName w) {kw kw' : Dict Val} (hn : kw.keys.Nodup)
    (hn' : kw'.keys.Nodup) (h : Alike (fun k => keys_solve.contains k) kw kw') {f : String}
    {c S : Flt} {sr : SolveRes} (hs : files_solve w f c S kw = .ok sr) :
    files_solve w f c S kw' = .ok sr := by
  obtain ⟨k1, k2, k3, k4, k5, k6⟩ := solve_keys_sub
  have sub : ∀ keys : List String, (∀ k ∈ keys, k ∈ keys_solve) →
      Alike (fun _ => true) (get_kwargs_for keys kw none) (get_kwargs_for keys kw' none) := fun keys hk =>
    h.filter (fun k => keys.contains k) fun k hk' => by
      simpa using hk k (by simpa using hk')
  have hload : load w f S kw' = load w f S kw := by
    have e1 : kw'.get? "file_path" = kw.get? "file_path" :=
      (h.get "file_path" (by decide) (by decide)).symm
    have e2 : ∀ fn, w.readDat fn (get_kwargs_for keys_read_dat kw' none)
        = w.readDat fn (get_kwargs_for keys_read_dat kw none) := fun fn =>
      hw fn _ _ (SameGet.kwargs fun k hk => (h.get k (by simpa using (k1 k hk).1) (k1 k hk).2).symm)
    simp only [load, full_name, e1, e2, (sub _ k2).amount_units, (sub _ k3).totals_ks]
  unfold files_solve at hs ⊢
  rw [hload]
  obtain ⟨⟨cv, totals, ks⟩, h1, hs⟩ := bind_ok_iff.mp hs
  rw [h1, bind_ok]
  obtain ⟨tts, h2, hs⟩ := bind_ok_iff.mp hs
  have hp := filter_perm hn hn' (fun k => keys_titrant_totals.contains k) fun k hk =>
    h.get k (by simpa using (k6 k (by simpa using hk)).1) (k6 k (by simpa using hk)).2
  obtain ⟨tts', h3, h4⟩ := mapValsM_perm hp h2
  have h3' : titrant_totals kw' = .ok tts' := h3
  simp only [h3', bind_ok]
  cases h5 : add_titrant_totals cv.titrant_mass cv.analyte_mass c (fin 0) tts totals with
  | mk r totals' =>
  simp only [h5] at hs
  obtain ⟨u, h6, hs'⟩ := bind_ok_iff.mp hs
  subst h6
  clear hs
  have h7 := (add_ok_iff _ _ _ _ _ _ _).mpr (foldTot_perm h4 (titrant_totals_nodup hn h2) _ _
    ((add_ok_iff _ _ _ _ _ _ _).mp h5))
  simp only [h7, bind_ok]
  obtain ⟨mode, h8, hs⟩ := bind_ok_iff.mp hs'
  have e3 : solve_mode kw' = solve_mode kw := by
    simp only [solve_mode, argVal, h.get "solve_mode" (by decide) (by decide)]
  rw [e3, h8, bind_ok]
  rw [← hs]
  simp only [solve_dispatch, (sub _ k4).emf_opts, ((sub _ k4).set _ _).emf_opts, (sub _ k5).ph_opts,
    (sub keys_solve_pH_gran k5).ph_opts]

theorem setFromRow_nodup {row : Dict Val} {d : Dict Val} (h : d.keys.Nodup) (k : String) :
    (setFromRow row d k).keys.Nodup := by
  unfold setFromRow
  cases row.get? k with
  | none => exact h
  | some v =>
    cases hv : v.isNull with
    | true => simpa [hv] using h
    | false => simpa [hv] using Dict.set_keys_nodup h _ _

theorem get_kwargs_nodup {keys : List String} {kw : Dict Val} (h : kw.keys.Nodup) (row : Dict Val) :
    (get_kwargs_for keys kw (some row)).keys.Nodup := by
  have h0 := Dict.filter_keys_nodup h (fun k => keys.contains k)
  simp only [get_kwargs_for]
  generalize (kw.filter fun kv => keys.contains kv.1) = d at h0 ⊢
  have : ∀ (l : List String) (d : Dict Val), (Dict.keys d).Nodup →
      (Dict.keys (l.foldl (setFromRow row) d)).Nodup := by
    intro l
    induction l with
    | nil => exact fun d h => h
    | cons k l ih => exact fun d h => ih _ (setFromRow_nodup h k)
  exact this keys d h0

end Calk
