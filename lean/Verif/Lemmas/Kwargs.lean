import Verif.Lemmas.Files
import Verif.Model.Dataset

/-! # The file-level functions do not depend on the order of keyword arguments -/

namespace Calk
open Flt

/-- dicts with the same lookups -/
def SameGet (kw kw' : Dict Val) : Prop := ∀ k, kw.get? k = kw'.get? k

theorem SameGet.argNum {kw kw' : Dict Val} (h : SameGet kw kw') : argNum kw = argNum kw' := by
  funext k d; simp only [Calk.argNum, h k]
theorem SameGet.argOpt {kw kw' : Dict Val} (h : SameGet kw kw') : argOpt kw = argOpt kw' := by
  funext k; simp only [Calk.argOpt, h k]
theorem SameGet.argNotNull {kw kw' : Dict Val} (h : SameGet kw kw') :
    argNotNull kw = argNotNull kw' := by
  funext k; simp only [Calk.argNotNull, h k]
theorem SameGet.argVal {kw kw' : Dict Val} (h : SameGet kw kw') : argVal kw = argVal kw' := by
  funext k d; simp only [Calk.argVal, h k]

theorem SameGet.filter {kw kw' : Dict Val} (p : String → Bool)
    (h : ∀ k, p k = true → kw.get? k = kw'.get? k) :
    SameGet (kw.filter fun kv => p kv.1) (kw'.filter fun kv => p kv.1) := by
  intro k
  rw [Dict.get?_filter p kw k, Dict.get?_filter p kw' k]
  by_cases hp : p k = true
  · simp only [hp, if_true, h k hp]
  · simp [hp]

theorem SameGet.set {kw kw' : Dict Val} (h : SameGet kw kw') (k : String) (v : Val) :
    SameGet (kw.set k v) (kw'.set k v) := by
  intro k'; simp only [Dict.get?_set, h k']

theorem SameGet.kwargs {kw kw' : Dict Val} {keys : List String}
    (h : ∀ k ∈ keys, kw.get? k = kw'.get? k) :
    SameGet (get_kwargs_for keys kw none) (get_kwargs_for keys kw' none) :=
  SameGet.filter (fun k => keys.contains k) (fun k hk => h k (by simpa using hk))

theorem amount_units_congr {kw kw' : Dict Val} (h : SameGet kw kw') (dd : DatData) (S : Flt) :
    amount_units dd S kw = amount_units dd S kw' := by
  simp only [amount_units, override_temperature, titrant_masses, get_analyte_mass, h.argNum,
    h.argOpt, h.argNotNull, h.argVal]

theorem get_totals_congr {kw kw' : Dict Val} (h : SameGet kw kw') (w : World) (S : Flt) :
    get_totals w S kw = get_totals w S kw' := by
  simp only [get_totals, h.argNum, h.argNotNull, h.argVal]

theorem ks_for_pyco2_congr {kw kw' : Dict Val} (h : SameGet kw kw') (table : List (String × String))
    (d : Dict NpVal) : ks_for_pyco2 kw table d = ks_for_pyco2 kw' table d := by
  induction table generalizing d with
  | nil => rfl
  | cons e rest ih => simp only [ks_for_pyco2, h.argNotNull, ih]

theorem get_k_constants_congr {kw kw' : Dict Val} (h : SameGet kw kw') (w : World)
    (tp : Dict NpVal) (T : List Flt) : get_k_constants w tp T kw = get_k_constants w tp T kw' := by
  simp only [get_k_constants, ks_for_pyco2_congr h, h.argVal]

theorem totals_ks_congr {kw kw' : Dict Val} (h : SameGet kw kw') (w : World) (cv : Converted) :
    totals_ks w cv kw = totals_ks w cv kw' := by
  simp only [totals_ks, totals_for_ks, h.argVal,
    get_totals_congr (SameGet.filter (fun k => keys_get_totals.contains k) fun k _ => h k),
    get_k_constants_congr (SameGet.filter (fun k => keys_get_k_constants.contains k) fun k _ => h k)]

theorem emf_opts_congr {kw kw' : Dict Val} (h : SameGet kw kw') : emf_opts kw = emf_opts kw' := by
  simp only [emf_opts, h.argNum, h.argOpt, h.argVal]

theorem ph_opts_congr {kw kw' : Dict Val} (h : SameGet kw kw') : ph_opts kw = ph_opts kw' := by
  simp only [ph_opts, h.argNum]

/-- two keyword dicts that the functions reading only `keys` cannot tell apart -/
structure SameKw (keys : List String) (kw kw' : Dict Val) : Prop where
  get : ∀ k ∈ keys, kw.get? k = kw'.get? k
  read : get_kwargs_for keys_read_dat kw none = get_kwargs_for keys_read_dat kw' none
  tts : (kw.filter fun kv => keys_titrant_totals.contains kv.1)
    = kw'.filter fun kv => keys_titrant_totals.contains kv.1

theorem SameKw.sub {keys sub : List String} {kw kw' : Dict Val} (h : SameKw keys kw kw')
    (hs : ∀ k ∈ sub, k ∈ keys) :
    SameGet (get_kwargs_for sub kw none) (get_kwargs_for sub kw' none) :=
  SameGet.kwargs fun k hk => h.get k (hs k hk)

theorem SameKw.titrant_totals {keys : List String} {kw kw' : Dict Val} (h : SameKw keys kw kw') :
    titrant_totals kw = titrant_totals kw' := by
  simp only [Calk.titrant_totals, h.tts]

theorem SameKw.solve_mode {keys : List String} {kw kw' : Dict Val} (h : SameKw keys kw kw')
    (hk : "solve_mode" ∈ keys) : solve_mode kw = solve_mode kw' := by
  simp only [Calk.solve_mode, argVal, h.get _ hk]

theorem load_congr {keys : List String} {kw kw' : Dict Val} (h : SameKw keys kw kw')
    (h1 : ∀ k ∈ keys_cau, k ∈ keys) (h2 : ∀ k ∈ keys_totals_ks, k ∈ keys) (h3 : "file_path" ∈ keys)
    (w : World) (f : String) (S : Flt) : load w f S kw = load w f S kw' := by
  simp only [load, full_name, h.get _ h3, h.read, amount_units_congr (h.sub h1),
    totals_ks_congr (h.sub h2)]

theorem solve_dispatch_congr {keys : List String} {kw kw' : Dict Val} (h : SameKw keys kw kw')
    (h1 : ∀ k ∈ keys_solve_emf, k ∈ keys) (w : World) (mode : String) (cv : Converted) (c : Flt)
    (totals ks : Dict NpVal) :
    solve_dispatch w mode cv c totals ks kw = solve_dispatch w mode cv c totals ks kw' := by
  have h2 : ∀ k ∈ keys_solve_pH, k ∈ keys := fun k hk => h1 k
    ((by decide : ∀ k ∈ keys_solve_pH, k ∈ keys_solve_emf) k hk)
  simp only [solve_dispatch, emf_opts_congr (h.sub h1), emf_opts_congr ((h.sub h1).set _ _),
    show keys_solve_pH_gran = keys_solve_pH from rfl, ph_opts_congr (h.sub h2)]

theorem files_solve_congr {kw kw' : Dict Val} (h : SameKw keys_solve kw kw') (w : World)
    (f : String) (c S : Flt) : files_solve w f c S kw = files_solve w f c S kw' := by
  simp only [files_solve, load_congr h (by decide) (by decide) (by decide), h.titrant_totals,
    h.solve_mode (by decide), solve_dispatch_congr h (by decide)]

theorem calibrate_dispatch_congr {kw kw' : Dict Val} (h : SameKw keys_calibrate kw kw') (w : World)
    (mode : String) (cv : Converted) (cert : Flt) (ks : Dict NpVal) :
    calibrate_dispatch w mode cv cert ks kw = calibrate_dispatch w mode cv cert ks kw' := by
  have e := h.sub (sub := keys_calibrate_emf) (by decide)
  have p := h.sub (sub := keys_calibrate_pH) (by decide)
  have t1 : titrant_totals (get_kwargs_for keys_calibrate_emf kw none)
      = titrant_totals (get_kwargs_for keys_calibrate_emf kw' none) := by
    rw [titrant_totals_kwargs _ (by decide), titrant_totals_kwargs _ (by decide), h.titrant_totals]
  have t2 : titrant_totals (get_kwargs_for keys_calibrate_pH kw none)
      = titrant_totals (get_kwargs_for keys_calibrate_pH kw' none) := by
    rw [titrant_totals_kwargs _ (by decide), titrant_totals_kwargs _ (by decide), h.titrant_totals]
  have t3 : titrant_totals ((get_kwargs_for keys_calibrate_emf kw none).set "emf0_init" (.num (fin 0)))
      = titrant_totals ((get_kwargs_for keys_calibrate_emf kw' none).set "emf0_init"
          (.num (fin 0))) := by
    rw [titrant_totals_set _ _ (by decide), titrant_totals_set _ _ (by decide), t1]
  simp only [calibrate_dispatch, emf_opts_congr e, emf_opts_congr (e.set _ _), e.argNum,
    (e.set "emf0_init" (.num (fin 0))).argNum, t1, t2, t3,
    show keys_calibrate_pH_gran = keys_calibrate_pH from rfl, ph_opts_congr p, p.argNum]

theorem files_calibrate_congr {kw kw' : Dict Val} (h : SameKw keys_calibrate kw kw') (w : World)
    (f : String) (cert S : Flt) : files_calibrate w f cert S kw = files_calibrate w f cert S kw' := by
  simp only [files_calibrate, load_congr h (by decide) (by decide) (by decide),
    h.solve_mode (by decide), calibrate_dispatch_congr h]

/-! ## Filters -/

theorem Dict.filter_set_pos {α : Type} (p : String → Bool) (d : Dict α) {k : String} (v : α)
    (h : p k = true) :
    ((d.set k v).filter fun kv => p kv.1) = Dict.set (d.filter fun kv => p kv.1) k v := by
  induction d with
  | nil => simp [Dict.set, h]
  | cons kv d ih =>
    obtain ⟨k', v'⟩ := kv
    by_cases hk : k' = k
    · subst hk; simp [Dict.set, h]
    · by_cases hp : p k' = true
      · simp only [Dict.set, if_neg hk, List.filter_cons, hp, if_true, ih]
      · simp only [Dict.set, if_neg hk, List.filter_cons, hp, ih, Bool.false_eq_true, if_false]

/-- two dicts that agree (also in order) on the keys satisfying `p` -/
def EqOn (p : String → Bool) (d d' : Dict Val) : Prop :=
  (d.filter fun kv => p kv.1) = d'.filter fun kv => p kv.1

theorem EqOn.refl (p : String → Bool) (d : Dict Val) : EqOn p d d := rfl
theorem EqOn.symm {p : String → Bool} {d d' : Dict Val} (h : EqOn p d d') : EqOn p d' d := Eq.symm h
theorem EqOn.trans {p : String → Bool} {d d' d'' : Dict Val} (h : EqOn p d d') (h' : EqOn p d' d'') :
    EqOn p d d'' := Eq.trans h h'

theorem EqOn.set {p : String → Bool} {d d' : Dict Val} (h : EqOn p d d') (k : String) (v : Val) :
    EqOn p (d.set k v) (d'.set k v) := by
  unfold EqOn at *
  by_cases hk : p k = true
  · rw [Dict.filter_set_pos p d v hk, Dict.filter_set_pos p d' v hk, h]
  · rw [Dict.filter_set p d v (by simpa using hk), Dict.filter_set p d' v (by simpa using hk), h]

theorem EqOn.set_left (p : String → Bool) (d : Dict Val) {k : String} (v : Val) (h : p k = false) :
    EqOn p (d.set k v) d := Dict.filter_set p d v h

theorem EqOn.get {p : String → Bool} {d d' : Dict Val} (h : EqOn p d d') {k : String}
    (hk : p k = true) : d.get? k = d'.get? k := by
  have h1 := Dict.get?_filter p d k
  have h2 := Dict.get?_filter p d' k
  unfold EqOn at h
  rw [h, h2] at h1
  simpa [hk] using h1.symm

theorem EqOn.mono {p q : String → Bool} {d d' : Dict Val} (h : EqOn p d d')
    (hq : ∀ k, q k = true → p k = true) : EqOn q d d' := by
  unfold EqOn at *
  have : ∀ d : Dict Val, (d.filter fun kv => q kv.1)
      = (d.filter fun kv => p kv.1).filter fun kv => q kv.1 := by
    intro d
    rw [List.filter_filter]
    apply List.filter_congr
    intro kv _
    by_cases hk : q kv.1 = true
    · simp [hk, hq _ hk]
    · simp [hk]
  rw [this d, this d', h]

theorem EqOn.foldl_set {p : String → Bool} {d d' : Dict Val} (h : EqOn p d d') (e : Dict Val) :
    EqOn p (e.foldl (fun kw kv => kw.set kv.1 kv.2) d) (e.foldl (fun kw kv => kw.set kv.1 kv.2) d') := by
  induction e generalizing d d' with
  | nil => exact h
  | cons kv e ih => exact ih (h.set _ _)

theorem EqOn.setFromRow {p : String → Bool} {d d' : Dict Val} (h : EqOn p d d') (row : Dict Val)
    (k : String) : EqOn p (setFromRow row d k) (setFromRow row d' k) := by
  unfold Calk.setFromRow
  cases row.get? k with
  | none => exact h
  | some v => cases hv : v.isNull <;> simp only [hv, if_true, if_false, Bool.false_eq_true]
              · exact h.set _ _
              · exact h

theorem EqOn.foldl_row {p : String → Bool} {d d' : Dict Val} (h : EqOn p d d') (row : Dict Val)
    (keys : List String) :
    EqOn p (keys.foldl (Calk.setFromRow row) d) (keys.foldl (Calk.setFromRow row) d') := by
  induction keys generalizing d d' with
  | nil => exact h
  | cons k keys ih => exact ih (h.setFromRow row k)

theorem EqOn.get_kwargs {p : String → Bool} {d d' : Dict Val} (h : EqOn p d d') (keys : List String)
    (row : Dict Val) :
    EqOn p (get_kwargs_for keys d (some row)) (get_kwargs_for keys d' (some row)) := by
  refine EqOn.foldl_row ?_ row keys
  unfold EqOn at *
  simp only [List.filter_filter]
  have : ∀ d : Dict Val, (d.filter fun a => p a.1 && keys.contains a.1)
      = (d.filter fun kv => p kv.1).filter fun kv => keys.contains kv.1 := by
    intro d; rw [List.filter_filter]
    apply List.filter_congr
    intro kv _
    exact Bool.and_comm _ _
  rw [this d, this d', h]

/-- a setting taken from the row: only the keys that `p` allows matter -/
theorem foldl_row_filter (p : String → Bool) (row : Dict Val) (keys : List String) (d : Dict Val) :
    ((keys.foldl (Calk.setFromRow row) d).filter fun kv => p kv.1)
      = (keys.filter p).foldl (Calk.setFromRow row) (d.filter fun kv => p kv.1) := by
  induction keys generalizing d with
  | nil => rfl
  | cons k keys ih =>
    rw [List.foldl_cons, ih]
    by_cases hk : p k = true
    · rw [List.filter_cons_of_pos (by simpa using hk), List.foldl_cons]
      congr 1
      unfold Calk.setFromRow
      cases row.get? k with
      | none => rfl
      | some v => cases hv : v.isNull <;> simp only [hv, if_true, if_false, Bool.false_eq_true]
                  rw [Dict.filter_set_pos p d v hk]
    · rw [List.filter_cons_of_neg (by simpa using hk)]
      congr 1
      unfold Calk.setFromRow
      cases row.get? k with
      | none => rfl
      | some v => cases hv : v.isNull <;> simp only [hv, if_true, if_false, Bool.false_eq_true]
                  rw [Dict.filter_set p d v (by simpa using hk)]

theorem get_kwargs_filter (keys sub : List String) (kw row : Dict Val)
    (hs : ∀ k ∈ sub, k ∈ keys) :
    ((get_kwargs_for keys kw (some row)).filter fun kv => sub.contains kv.1)
      = (keys.filter fun k => sub.contains k).foldl (Calk.setFromRow row)
          (kw.filter fun kv => sub.contains kv.1) := by
  have := foldl_row_filter (fun k => sub.contains k) row keys (kw.filter fun kv => keys.contains kv.1)
  refine Eq.trans this ?_
  congr 1
  rw [List.filter_filter]
  apply List.filter_congr
  intro kv _
  by_cases hk : sub.contains kv.1 = true
  · have := hs kv.1 (by simpa using hk)
    simp [this]
  · simp at hk; simp [hk]

/-- the same titration settings reach calibration and solving -/
theorem get_kwargs_calibrate_solve (kw row : Dict Val) :
    SameKw (keys_solve.filter fun k => k ≠ "gran_logic")
      (get_kwargs_for keys_calibrate kw (some row)) (get_kwargs_for keys_solve kw (some row)) where
  get := by
    intro k hk
    have h1 : k ∈ keys_solve := (List.mem_filter.mp hk).1
    have h2 : k ∈ keys_calibrate :=
      (by decide : ∀ k ∈ keys_solve.filter fun k => k ≠ "gran_logic", k ∈ keys_calibrate) k hk
    have e : ∀ keys : List String, k ∈ keys →
        (get_kwargs_for keys kw (some row)).get? k
          = (get_kwargs_for [k] kw (some row)).get? k := by
      intro keys hk
      have h := get_kwargs_filter keys [k] kw row (by simpa using hk)
      have h' := get_kwargs_filter [k] [k] kw row (by simp)
      have hnd : ∀ (ks : List String) (d : Dict Val), k ∈ ks → (∀ x ∈ ks, x = k) →
          ks.foldl (Calk.setFromRow row) d = Calk.setFromRow row d k := by
        intro ks
        induction ks with
        | nil => simp
        | cons a ks ih =>
          intro d _ hx
          have := hx a (by simp)
          subst this
          rw [List.foldl_cons]
          by_cases hm : a ∈ ks
          · rw [ih _ hm (fun x h => hx x (by simp [h]))]
            have hset : ∀ (d : Dict Val) v, (d.set a v).set a v = d.set a v := by
              intro d v
              induction d with
              | nil => simp [Dict.set]
              | cons kv d ih =>
                obtain ⟨k', v'⟩ := kv
                by_cases hk' : k' = a
                · simp [Dict.set, hk']
                · simp [Dict.set, hk', ih]
            unfold Calk.setFromRow
            cases row.get? a with
            | none => rfl
            | some v => cases hv : v.isNull <;>
                simp only [hv, if_true, if_false, Bool.false_eq_true, hset]
          · have : ks = [] := by
              cases ks with
              | nil => rfl
              | cons b ks => exact absurd (by simp [hx b (by simp)]) hm
            subst this; rfl
      have g1 := Dict.get?_filter (fun x => [k].contains x) (get_kwargs_for keys kw (some row)) k
      have g2 := Dict.get?_filter (fun x => [k].contains x) (get_kwargs_for [k] kw (some row)) k
      simp only [List.contains_cons, List.contains_nil, Bool.or_false, beq_self_eq_true,
        if_true] at g1 g2 h h'
      rw [← g1, ← g2, h, h']
      rw [hnd _ _ (List.mem_filter.mpr ⟨hk, by simp⟩) (by
        intro x hx; simpa using (List.mem_filter.mp hx).2)]
      rw [hnd _ _ (List.mem_filter.mpr ⟨by simp, by simp⟩) (by
        intro x hx; simpa using (List.mem_filter.mp hx).2)]
    rw [e _ h2, e _ h1]
  read := by
    rw [get_kwargs_none, get_kwargs_none, get_kwargs_filter _ _ _ _ (by decide),
      get_kwargs_filter _ _ _ _ (by decide)]
    congr 1
  tts := by
    rw [get_kwargs_filter _ _ _ _ (by decide), get_kwargs_filter _ _ _ _ (by decide)]
    congr 1

end Calk
