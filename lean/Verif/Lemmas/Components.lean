import Verif.Lemmas.Simulate

/-! Helper lemmas: which keys each block of `alkalinity_components` defines and when it
raises. -/

namespace Calk
open Flt Spec

theorem components_blocks {p : Flt} {totals ks : Dict Flt} {scale : ℕ} {c : Dict Flt}
    (h : alkalinity_components p totals ks scale = .ok c) :
    ∃ c1 c2 c3 c4 c5 c6 c7 c8 c9 c10 c11,
      scale ∈ [1, 2, 3] ∧
      blk_water (pow10 (-p)) ks = .ok c1 ∧
      blk_carbonate (pow10 (-p)) totals ks = .ok c2 ∧
      blk_mono (pow10 (-p)) totals ks "total_borate" "k_borate" "BOH4" = .ok c3 ∧
      blk_phosphate (pow10 (-p)) totals ks = .ok c4 ∧
      blk_mono (pow10 (-p)) totals ks "total_silicate" "k_silicate" "H3SiO4" = .ok c5 ∧
      blk_mono (pow10 (-p)) totals ks "total_ammonia" "k_ammonia" "NH3" = .ok c6 ∧
      blk_mono (pow10 (-p)) totals ks "total_sulfide" "k_sulfide" "HS" = .ok c7 ∧
      blk_extra (pow10 (-p)) totals ks "total_alpha" "k_alpha" "alk_alpha" = .ok c8 ∧
      blk_extra (pow10 (-p)) totals ks "total_beta" "k_beta" "alk_beta" = .ok c9 ∧
      blk_proton (scale ∈ [1, 3]) (pow10 (-p)) totals ks "total_fluoride" "k_fluoride" "HF"
        = .ok c10 ∧
      blk_proton (scale = 3) (pow10 (-p)) totals ks "total_sulfate" "k_bisulfate" "HSO4"
        = .ok c11 ∧
      c = [("H", pow10 (-p))] ++ c1 ++ c2 ++ c3 ++ c4 ++ c5 ++ c6 ++ c7 ++ c8 ++ c9 ++ c10
        ++ c11 := by
  simp only [alkalinity_components, bind_ok_iff, pure_ok, Except.ok.injEq] at h
  obtain ⟨u, hu, c1, h1, c2, h2, c3, h3, c4, h4, c5, h5, c6, h6, c7, h7, c8, h8, c9, h9, c10, h10,
    c11, h11, rfl⟩ := h
  refine ⟨c1, c2, c3, c4, c5, c6, c7, c8, c9, c10, c11, ?_, h1, h2, h3, h4, h5, h6, h7, h8, h9,
    h10, h11, rfl⟩
  unfold pyAssert at hu
  split at hu
  · rename_i hd; simpa using hd
  · simp at hu

section
variable {h : Flt} {totals ks c : Dict Flt}

theorem blk_water_none (hb : blk_water h ks = .ok c) {k : String} (hk : k ≠ "OH") :
    c.get? k = none := by
  unfold blk_water at hb
  split at hb <;> · simp only [Except.ok.injEq] at hb; subst hb; simp [Dict.get?_cons, hk.symm]

theorem blk_carbonate_none (hb : blk_carbonate h totals ks = .ok c) {k : String}
    (hk : k ≠ "CO2") (hk2 : k ≠ "HCO3") (hk3 : k ≠ "CO3") : c.get? k = none := by
  unfold blk_carbonate at hb
  split at hb
  · simp only [Except.ok.injEq] at hb; subst hb; simp
  · simp only [bind_ok_iff, pure_ok, Except.ok.injEq] at hb
    obtain ⟨_, _, _, _, rfl⟩ := hb
    simp [Dict.get?_cons, hk.symm, hk2.symm, hk3.symm]

theorem blk_phosphate_none (hb : blk_phosphate h totals ks = .ok c) {k : String}
    (hk : k ≠ "H3PO4") (hk2 : k ≠ "HPO4") (hk3 : k ≠ "PO4") : c.get? k = none := by
  unfold blk_phosphate at hb
  split at hb
  · simp only [Except.ok.injEq] at hb; subst hb; simp
  · simp only [bind_ok_iff, pure_ok, Except.ok.injEq] at hb
    obtain ⟨_, _, _, _, _, _, rfl⟩ := hb
    simp [Dict.get?_cons, hk.symm, hk2.symm, hk3.symm]

theorem blk_mono_none {total kk name : String} (hb : blk_mono h totals ks total kk name = .ok c)
    {k : String} (hk : k ≠ name) : c.get? k = none := by
  unfold blk_mono at hb
  split at hb
  · simp only [Except.ok.injEq] at hb; subst hb; simp
  · simp only [bind_ok_iff, pure_ok, Except.ok.injEq] at hb
    obtain ⟨_, _, rfl⟩ := hb
    simp [Dict.get?_cons, hk.symm]

theorem blk_extra_none {total kk name : String} (hb : blk_extra h totals ks total kk name = .ok c)
    {k : String} (hk : k ≠ name) : c.get? k = none := by
  unfold blk_extra at hb
  split at hb
  · simp only [Except.ok.injEq] at hb; subst hb; simp
  · simp only [bind_ok_iff, pure_ok, Except.ok.injEq] at hb
    obtain ⟨_, _, rfl⟩ := hb
    simp [Dict.get?_cons, hk.symm]

theorem blk_proton_none {on : Bool} {total kk name : String}
    (hb : blk_proton on h totals ks total kk name = .ok c) {k : String} (hk : k ≠ name) :
    c.get? k = none := by
  unfold blk_proton at hb
  split at hb
  · split at hb
    · simp only [Except.ok.injEq] at hb; subst hb; simp
    · simp only [bind_ok_iff, pure_ok, Except.ok.injEq] at hb
      obtain ⟨_, _, rfl⟩ := hb
      simp [Dict.get?_cons, hk.symm]
  · simp only [Except.ok.injEq] at hb; subst hb; simp

/-! lookups of the block results -/

theorem blk_mono_get {total kk name : String} (hb : blk_mono h totals ks total kk name = .ok c) :
    (totals.get? total = none ∧ c.get? name = none) ∨
    ∃ T K, totals.get? total = some T ∧ ks.get? kk = some K ∧
      c.get? name = some (T * K / (K + h)) := by
  unfold blk_mono at hb
  split at hb
  · rename_i hT
    simp only [Except.ok.injEq] at hb; subst hb; left; simp [hT]
  · rename_i T hT
    simp only [bind_ok_iff, pure_ok, Except.ok.injEq] at hb
    obtain ⟨K, hK, rfl⟩ := hb
    right; exact ⟨T, K, hT, Dict.get_ok_iff.mp hK, by simp [Dict.get?_cons]⟩

theorem blk_proton_get {on : Bool} {total kk name : String}
    (hb : blk_proton on h totals ks total kk name = .ok c) :
    ((on = false ∨ totals.get? total = none) ∧ c.get? name = none) ∨
    ∃ T K, on = true ∧ totals.get? total = some T ∧ ks.get? kk = some K ∧
      c.get? name = some (T * h / (K + h)) := by
  unfold blk_proton at hb
  split at hb
  · rename_i hon
    split at hb
    · rename_i hT
      simp only [Except.ok.injEq] at hb; subst hb; left; simp [hT]
    · rename_i T hT
      simp only [bind_ok_iff, pure_ok, Except.ok.injEq] at hb
      obtain ⟨K, hK, rfl⟩ := hb
      right; exact ⟨T, K, hon, hT, Dict.get_ok_iff.mp hK, by simp [Dict.get?_cons]⟩
  · rename_i hon
    simp only [Except.ok.injEq] at hb; subst hb; left
    exact ⟨Or.inl (by simpa using hon), by simp⟩

theorem blk_extra_get {total kk name : String} (hb : blk_extra h totals ks total kk name = .ok c) :
    (totals.get? total = none ∧ c.get? name = none) ∨
    ∃ T K, totals.get? total = some T ∧ ks.get? kk = some K ∧
      c.get? name = some (if (-(Flt.log10 K)).le (fin zlp) then -(T - T * K / (K + h))
        else T * K / (K + h)) := by
  unfold blk_extra at hb
  split at hb
  · rename_i hT
    simp only [Except.ok.injEq] at hb; subst hb; left; simp [hT]
  · rename_i T hT
    simp only [bind_ok_iff, pure_ok, Except.ok.injEq] at hb
    obtain ⟨K, hK, rfl⟩ := hb
    right; exact ⟨T, K, hT, Dict.get_ok_iff.mp hK, by simp [Dict.get?_cons]⟩

theorem blk_carbonate_get (hb : blk_carbonate h totals ks = .ok c) :
    (totals.get? "dic" = none ∧ c = []) ∨
    ∃ T K1 K2, totals.get? "dic" = some T ∧ ks.get? "k_carbonic_1" = some K1 ∧
      ks.get? "k_carbonic_2" = some K2 ∧
      c = [("CO2", T / (fin 1 + K1 / h + K1 * K2 / fpow h 2)),
        ("HCO3", K1 * (T / (fin 1 + K1 / h + K1 * K2 / fpow h 2)) / h),
        ("CO3", K2 * (K1 * (T / (fin 1 + K1 / h + K1 * K2 / fpow h 2)) / h) / h)] := by
  unfold blk_carbonate at hb
  split at hb
  · rename_i hT
    simp only [Except.ok.injEq] at hb; subst hb; left; simp [hT]
  · rename_i T hT
    simp only [bind_ok_iff, pure_ok, Except.ok.injEq] at hb
    obtain ⟨K1, hK1, K2, hK2, rfl⟩ := hb
    right
    exact ⟨T, K1, K2, hT, Dict.get_ok_iff.mp hK1, Dict.get_ok_iff.mp hK2, rfl⟩

theorem blk_phosphate_get (hb : blk_phosphate h totals ks = .ok c) :
    (totals.get? "total_phosphate" = none ∧ c = []) ∨
    ∃ T K1 K2 K3, totals.get? "total_phosphate" = some T ∧ ks.get? "k_phosphoric_1" = some K1 ∧
      ks.get? "k_phosphoric_2" = some K2 ∧ ks.get? "k_phosphoric_3" = some K3 ∧
      c = [("H3PO4", T * fpow h 3 / (fpow h 3 + K1 * fpow h 2 + K1 * K2 * h + K1 * K2 * K3)),
            ("HPO4", T * K1 * K2 * h / (fpow h 3 + K1 * fpow h 2 + K1 * K2 * h + K1 * K2 * K3)),
            ("PO4", T * K1 * K2 * K3 / (fpow h 3 + K1 * fpow h 2 + K1 * K2 * h + K1 * K2 * K3))]
      := by
  unfold blk_phosphate at hb
  split at hb
  · rename_i hT
    simp only [Except.ok.injEq] at hb; subst hb; left; simp [hT]
  · rename_i T hT
    simp only [bind_ok_iff, pure_ok, Except.ok.injEq] at hb
    obtain ⟨K1, hK1, K2, hK2, K3, hK3, rfl⟩ := hb
    right
    exact ⟨T, K1, K2, K3, hT, Dict.get_ok_iff.mp hK1, Dict.get_ok_iff.mp hK2,
      Dict.get_ok_iff.mp hK3, rfl⟩

/-- All lookups in the component dict, block by block. -/
theorem components_lookup {p : Flt} {scale : ℕ}
    (hc : alkalinity_components p totals ks scale = .ok c) :
    ∃ c1 c2 c3 c4 c5 c6 c7 c8 c9 c10 c11,
      scale ∈ [1, 2, 3] ∧
      blk_water (pow10 (-p)) ks = .ok c1 ∧
      blk_carbonate (pow10 (-p)) totals ks = .ok c2 ∧
      blk_mono (pow10 (-p)) totals ks "total_borate" "k_borate" "BOH4" = .ok c3 ∧
      blk_phosphate (pow10 (-p)) totals ks = .ok c4 ∧
      blk_mono (pow10 (-p)) totals ks "total_silicate" "k_silicate" "H3SiO4" = .ok c5 ∧
      blk_mono (pow10 (-p)) totals ks "total_ammonia" "k_ammonia" "NH3" = .ok c6 ∧
      blk_mono (pow10 (-p)) totals ks "total_sulfide" "k_sulfide" "HS" = .ok c7 ∧
      blk_extra (pow10 (-p)) totals ks "total_alpha" "k_alpha" "alk_alpha" = .ok c8 ∧
      blk_extra (pow10 (-p)) totals ks "total_beta" "k_beta" "alk_beta" = .ok c9 ∧
      blk_proton (scale ∈ [1, 3]) (pow10 (-p)) totals ks "total_fluoride" "k_fluoride" "HF"
        = .ok c10 ∧
      blk_proton (scale = 3) (pow10 (-p)) totals ks "total_sulfate" "k_bisulfate" "HSO4"
        = .ok c11 ∧
      c.get? "H" = some (pow10 (-p)) ∧
      c.get? "OH" = c1.get? "OH" ∧
      c.get? "CO2" = c2.get? "CO2" ∧ c.get? "HCO3" = c2.get? "HCO3" ∧
      c.get? "CO3" = c2.get? "CO3" ∧ c.get? "BOH4" = c3.get? "BOH4" ∧
      c.get? "H3PO4" = c4.get? "H3PO4" ∧ c.get? "HPO4" = c4.get? "HPO4" ∧
      c.get? "PO4" = c4.get? "PO4" ∧ c.get? "H3SiO4" = c5.get? "H3SiO4" ∧
      c.get? "NH3" = c6.get? "NH3" ∧ c.get? "HS" = c7.get? "HS" ∧
      c.get? "alk_alpha" = c8.get? "alk_alpha" ∧ c.get? "alk_beta" = c9.get? "alk_beta" ∧
      c.get? "HF" = c10.get? "HF" ∧ c.get? "HSO4" = c11.get? "HSO4" := by
  obtain ⟨c1, c2, c3, c4, c5, c6, c7, c8, c9, c10, c11, hs, h1, h2, h3, h4, h5, h6, h7, h8, h9,
    h10, h11, rfl⟩ := components_blocks hc
  refine ⟨c1, c2, c3, c4, c5, c6, c7, c8, c9, c10, c11, hs, h1, h2, h3, h4, h5, h6, h7, h8, h9,
    h10, h11, ?_⟩
  have n1 := fun k hk => blk_water_none h1 (k := k) hk
  have n2 := fun k a b c => blk_carbonate_none h2 (k := k) a b c
  have n3 := fun k hk => blk_mono_none h3 (k := k) hk
  have n4 := fun k a b c => blk_phosphate_none h4 (k := k) a b c
  have n5 := fun k hk => blk_mono_none h5 (k := k) hk
  have n6 := fun k hk => blk_mono_none h6 (k := k) hk
  have n7 := fun k hk => blk_mono_none h7 (k := k) hk
  have n8 := fun k hk => blk_extra_none h8 (k := k) hk
  have n9 := fun k hk => blk_extra_none h9 (k := k) hk
  have n10 := fun k hk => blk_proton_none h10 (k := k) hk
  have n11 := fun k hk => blk_proton_none h11 (k := k) hk
  refine ⟨?_, ?_, ?_, ?_, ?_, ?_, ?_, ?_, ?_, ?_, ?_, ?_, ?_, ?_, ?_, ?_⟩ <;>
  · simp only [Dict.get?_append, Dict.get?_cons, Dict.get?_nil]
    simp [n1, n2, n3, n4, n5, n6, n7, n8, n9, n10, n11]

end

/-! when a block raises -/

theorem Dict.has_iff {α : Type} {d : Dict α} {k : String} : d.has k = true ↔ ∃ v, d.get? k = some v := by
  simp [Dict.has, Option.isSome_iff_exists]

theorem get_cases {α : Type} (d : Dict α) (k : String) :
    (∃ v, d.get k = .ok v ∧ d.has k = true) ∨ (d.get k = .error (.KeyError k) ∧ d.has k = false) := by
  unfold Dict.get Dict.has
  cases d.get? k <;> simp

/-- A block either succeeds with all its requirements met, or raises `KeyError` for one of
its constants that is missing. -/
def BlkErr (b : Py (Dict Flt)) (totals ks : Dict Flt) (req : List (String × String)) : Prop :=
  ((∃ c, b = .ok c) ∧ ∀ r ∈ req, totals.has r.1 = true → ks.has r.2 = true) ∨
  ∃ r ∈ req, totals.has r.1 = true ∧ ks.has r.2 = false ∧ b = .error (.KeyError r.2)

theorem has_false_of_none {d : Dict Flt} {k : String} (h : d.get? k = none) : d.has k = false := by
  simp [Dict.has, h]
theorem has_true_of_some {d : Dict Flt} {k : String} {v : Flt} (h : d.get? k = some v) :
    d.has k = true := by simp [Dict.has, h]

theorem blk_mono_err (h : Flt) (totals ks : Dict Flt) (total kk name : String) :
    BlkErr (blk_mono h totals ks total kk name) totals ks [(total, kk)] := by
  unfold BlkErr blk_mono
  cases hT : totals.get? total with
  | none => left; simp [has_false_of_none hT]
  | some T =>
    rcases get_cases ks kk with ⟨v, hv, hv2⟩ | ⟨hv, hv2⟩
    · left; simp [hv, bind_ok, pure_ok, hv2]
    · right; exact ⟨(total, kk), by simp, has_true_of_some hT, hv2, by simp [hv]⟩

theorem blk_extra_err (h : Flt) (totals ks : Dict Flt) (total kk name : String) :
    BlkErr (blk_extra h totals ks total kk name) totals ks [(total, kk)] := by
  unfold BlkErr blk_extra
  cases hT : totals.get? total with
  | none => left; simp [has_false_of_none hT]
  | some T =>
    rcases get_cases ks kk with ⟨v, hv, hv2⟩ | ⟨hv, hv2⟩
    · left; simp [hv, bind_ok, pure_ok, hv2]
    · right; exact ⟨(total, kk), by simp, has_true_of_some hT, hv2, by simp [hv]⟩

theorem blk_proton_err (on : Bool) (h : Flt) (totals ks : Dict Flt) (total kk name : String) :
    BlkErr (blk_proton on h totals ks total kk name) totals ks
      (if on = true then [(total, kk)] else []) := by
  unfold BlkErr blk_proton
  cases on with
  | false => left; simp
  | true =>
    simp only [if_true]
    cases hT : totals.get? total with
    | none => left; simp [has_false_of_none hT]
    | some T =>
      rcases get_cases ks kk with ⟨v, hv, hv2⟩ | ⟨hv, hv2⟩
      · left; simp [hv, bind_ok, pure_ok, hv2]
      · right; exact ⟨(total, kk), by simp, has_true_of_some hT, hv2, by simp [hv]⟩

theorem blk_carbonate_err (h : Flt) (totals ks : Dict Flt) :
    BlkErr (blk_carbonate h totals ks) totals ks
      [("dic", "k_carbonic_1"), ("dic", "k_carbonic_2")] := by
  unfold BlkErr blk_carbonate
  cases hT : totals.get? "dic" with
  | none => left; simp [has_false_of_none hT]
  | some T =>
    rcases get_cases ks "k_carbonic_1" with ⟨v, hv, hv2⟩ | ⟨hv, hv2⟩
    · rcases get_cases ks "k_carbonic_2" with ⟨w, hw, hw2⟩ | ⟨hw, hw2⟩
      · left; simp [hv, hw, bind_ok, pure_ok, hv2, hw2]
      · right
        exact ⟨("dic", "k_carbonic_2"), by simp, has_true_of_some hT, hw2,
          by simp [hv, hw, bind_ok]⟩
    · right
      exact ⟨("dic", "k_carbonic_1"), by simp, has_true_of_some hT, hv2, by simp [hv, bind_error]⟩

theorem blk_phosphate_err (h : Flt) (totals ks : Dict Flt) :
    BlkErr (blk_phosphate h totals ks) totals ks
      [("total_phosphate", "k_phosphoric_1"), ("total_phosphate", "k_phosphoric_2"),
       ("total_phosphate", "k_phosphoric_3")] := by
  unfold BlkErr blk_phosphate
  cases hT : totals.get? "total_phosphate" with
  | none => left; simp [has_false_of_none hT]
  | some T =>
    rcases get_cases ks "k_phosphoric_1" with ⟨v, hv, hv2⟩ | ⟨hv, hv2⟩
    · rcases get_cases ks "k_phosphoric_2" with ⟨w, hw, hw2⟩ | ⟨hw, hw2⟩
      · rcases get_cases ks "k_phosphoric_3" with ⟨x, hx, hx2⟩ | ⟨hx, hx2⟩
        · left; simp [hv, hw, hx, bind_ok, pure_ok, hv2, hw2, hx2]
        · right
          exact ⟨("total_phosphate", "k_phosphoric_3"), by simp, has_true_of_some hT, hx2,
            by simp [hv, hw, hx, bind_ok]⟩
      · right
        exact ⟨("total_phosphate", "k_phosphoric_2"), by simp, has_true_of_some hT, hw2,
          by simp [hv, hw, bind_ok, bind_error]⟩
    · right
      exact ⟨("total_phosphate", "k_phosphoric_1"), by simp, has_true_of_some hT, hv2,
        by simp [hv, bind_error]⟩

/-- Sequencing: if the first block is fine go on, otherwise its error is the result. -/
theorem BlkErr.bind {b : Py (Dict Flt)} {totals ks : Dict Flt} {req : List (String × String)}
    (hb : BlkErr b totals ks req) {α : Type} (f : Dict Flt → Py α) :
    ((∃ c, b = .ok c ∧ (b >>= f) = f c) ∧ ∀ r ∈ req, totals.has r.1 = true → ks.has r.2 = true) ∨
    ∃ r ∈ req, totals.has r.1 = true ∧ ks.has r.2 = false ∧ (b >>= f) = .error (.KeyError r.2) := by
  rcases hb with ⟨⟨c, rfl⟩, h⟩ | ⟨r, hr, h1, h2, rfl⟩
  · left; exact ⟨⟨c, rfl, rfl⟩, h⟩
  · right; exact ⟨r, hr, h1, h2, rfl⟩

/-- Every component has a multiplier, so the sum never raises. -/
theorem alk_terms_ok_of_keys (c : Dict Flt)
    (h : ∀ k ∈ c.keys, ∃ m, component_multipliers.get? k = some m) : ∃ ts, alk_terms c = .ok ts := by
  induction c with
  | nil => exact ⟨[], rfl⟩
  | cons kv c ih =>
    obtain ⟨k, v⟩ := kv
    obtain ⟨m, hm⟩ := h k (by simp [Dict.keys])
    obtain ⟨ts, hts⟩ := ih (fun k' hk' => h k' (by
      simp only [Dict.keys, List.map_cons, List.mem_cons] at hk' ⊢; right; exact hk'))
    exact ⟨v * fin m :: ts, by simp [alk_terms, Dict.get_ok_iff.mpr hm, hts, bind_ok, pure_ok]⟩

end Calk

namespace Calk
open Flt Spec

/-- The names that can occur in the component dict. -/
theorem components_keys {p : Flt} {totals ks c : Dict Flt} {scale : ℕ}
    (hc : alkalinity_components p totals ks scale = .ok c) (k : String) (hk : k ∈ c.keys) :
    k ∈ ["H", "OH", "CO2", "HCO3", "CO3", "BOH4", "H3PO4", "HPO4", "PO4", "H3SiO4", "NH3", "HS",
      "alk_alpha", "alk_beta", "HF", "HSO4"] := by
  by_contra hcon
  simp only [List.mem_cons, List.not_mem_nil, or_false, not_or] at hcon
  obtain ⟨a1, a2, a3, a4, a5, a6, a7, a8, a9, a10, a11, a12, a13, a14, a15, a16⟩ := hcon
  obtain ⟨c1, c2, c3, c4, c5, c6, c7, c8, c9, c10, c11, hs, h1, h2, h3, h4, h5, h6, h7, h8, h9,
    h10, h11, rfl⟩ := components_blocks hc
  have := (Dict.get?_eq_none_iff _ k).not_left.mpr hk
  apply this
  simp only [Dict.get?_append, Dict.get?_cons, Dict.get?_nil]
  simp [blk_water_none h1 a2, blk_carbonate_none h2 a3 a4 a5, blk_mono_none h3 a6,
    blk_phosphate_none h4 a7 a8 a9, blk_mono_none h5 a10, blk_mono_none h6 a11,
    blk_mono_none h7 a12, blk_extra_none h8 a13, blk_extra_none h9 a14, blk_proton_none h10 a15,
    blk_proton_none h11 a16, Ne.symm a1]

theorem alk_terms_components {p : Flt} {totals ks c : Dict Flt} {scale : ℕ}
    (hc : alkalinity_components p totals ks scale = .ok c) : ∃ ts, alk_terms c = .ok ts := by
  apply alk_terms_ok_of_keys
  intro k hk
  have := components_keys hc k hk
  simp only [List.mem_cons, List.not_mem_nil, or_false] at this
  rcases this with rfl | rfl | rfl | rfl | rfl | rfl | rfl | rfl | rfl | rfl | rfl | rfl | rfl |
    rfl | rfl | rfl <;> simp [component_multipliers, Dict.get?]

/-- Exactly when `alkalinity_components` succeeds, and with which error it fails. -/
theorem components_err (p : Flt) (totals ks : Dict Flt) (scale : ℕ) :
    (scale ∉ [1, 2, 3] ∧ alkalinity_components p totals ks scale = .error .AssertionError) ∨
    (scale ∈ [1, 2, 3] ∧ HasKs totals ks scale ∧
      ∃ c, alkalinity_components p totals ks scale = .ok c) ∨
    (scale ∈ [1, 2, 3] ∧ ∃ r ∈ requiredKs scale, totals.has r.1 = true ∧ ks.has r.2 = false ∧
      alkalinity_components p totals ks scale = .error (.KeyError r.2)) := by
  by_cases hs : scale ∈ [1, 2, 3]
  swap
  · left; exact ⟨hs, by simp [alkalinity_components, pyAssert, hs, bind_error]⟩
  right
  have hassert : pyAssert (decide (scale ∈ [1, 2, 3])) = .ok () := by simp [pyAssert, hs]
  unfold alkalinity_components
  simp only [hassert, bind_ok]
  obtain ⟨c1, hc1⟩ : ∃ c, blk_water (pow10 (-p)) ks = .ok c := by
    unfold blk_water; split <;> exact ⟨_, rfl⟩
  simp only [hc1, bind_ok]
  have finish : ∀ r : String × String, r ∈ requiredKs scale → totals.has r.1 = true →
      ks.has r.2 = false → ∀ {b : Py (Dict Flt)}, b = .error (.KeyError r.2) →
      (scale ∈ [1, 2, 3] ∧ HasKs totals ks scale ∧ ∃ c, b = .ok c) ∨
      (scale ∈ [1, 2, 3] ∧ ∃ r ∈ requiredKs scale, totals.has r.1 = true ∧ ks.has r.2 = false ∧
        b = .error (.KeyError r.2)) :=
    fun r h1 h2 h3 b hb => Or.inr ⟨hs, r, h1, h2, h3, hb⟩
  rcases (blk_carbonate_err (pow10 (-p)) totals ks).bind _ with
    ⟨⟨c2, -, e2⟩, q2⟩ | ⟨r, hr, x, y, e⟩
  swap
  · refine finish r ?_ x y e
    simp only [List.mem_cons, List.not_mem_nil, or_false] at hr
    rcases hr with rfl | rfl <;> simp [requiredKs]
  rw [e2]
  rcases (blk_mono_err (pow10 (-p)) totals ks "total_borate" "k_borate" "BOH4").bind _ with
    ⟨⟨c3, -, e3⟩, q3⟩ | ⟨r, hr, x, y, e⟩
  swap
  · refine finish r ?_ x y e
    simp only [List.mem_cons, List.not_mem_nil, or_false] at hr
    subst hr; simp [requiredKs]
  rw [e3]
  rcases (blk_phosphate_err (pow10 (-p)) totals ks).bind _ with
    ⟨⟨c4, -, e4⟩, q4⟩ | ⟨r, hr, x, y, e⟩
  swap
  · refine finish r ?_ x y e
    simp only [List.mem_cons, List.not_mem_nil, or_false] at hr
    rcases hr with rfl | rfl | rfl <;> simp [requiredKs]
  rw [e4]
  rcases (blk_mono_err (pow10 (-p)) totals ks "total_silicate" "k_silicate" "H3SiO4").bind _ with
    ⟨⟨c5, -, e5⟩, q5⟩ | ⟨r, hr, x, y, e⟩
  swap
  · refine finish r ?_ x y e
    simp only [List.mem_cons, List.not_mem_nil, or_false] at hr
    subst hr; simp [requiredKs]
  rw [e5]
  rcases (blk_mono_err (pow10 (-p)) totals ks "total_ammonia" "k_ammonia" "NH3").bind _ with
    ⟨⟨c6, -, e6⟩, q6⟩ | ⟨r, hr, x, y, e⟩
  swap
  · refine finish r ?_ x y e
    simp only [List.mem_cons, List.not_mem_nil, or_false] at hr
    subst hr; simp [requiredKs]
  rw [e6]
  rcases (blk_mono_err (pow10 (-p)) totals ks "total_sulfide" "k_sulfide" "HS").bind _ with
    ⟨⟨c7, -, e7⟩, q7⟩ | ⟨r, hr, x, y, e⟩
  swap
  · refine finish r ?_ x y e
    simp only [List.mem_cons, List.not_mem_nil, or_false] at hr
    subst hr; simp [requiredKs]
  rw [e7]
  rcases (blk_extra_err (pow10 (-p)) totals ks "total_alpha" "k_alpha" "alk_alpha").bind _ with
    ⟨⟨c8, -, e8⟩, q8⟩ | ⟨r, hr, x, y, e⟩
  swap
  · refine finish r ?_ x y e
    simp only [List.mem_cons, List.not_mem_nil, or_false] at hr
    subst hr; simp [requiredKs]
  rw [e8]
  rcases (blk_extra_err (pow10 (-p)) totals ks "total_beta" "k_beta" "alk_beta").bind _ with
    ⟨⟨c9, -, e9⟩, q9⟩ | ⟨r, hr, x, y, e⟩
  swap
  · refine finish r ?_ x y e
    simp only [List.mem_cons, List.not_mem_nil, or_false] at hr
    subst hr; simp [requiredKs]
  rw [e9]
  rcases (blk_proton_err (decide (scale ∈ [1, 3])) (pow10 (-p)) totals ks "total_fluoride"
    "k_fluoride" "HF").bind _ with ⟨⟨c10, -, e10⟩, q10⟩ | ⟨r, hr, x, y, e⟩
  swap
  · refine finish r ?_ x y e
    by_cases hh : scale = 1 ∨ scale = 3
    · simp only [List.mem_cons, List.not_mem_nil, or_false, hh, decide_true, if_true] at hr
      subst hr; simp [requiredKs, hh]
    · simp [hh] at hr
  rw [e10]
  rcases (blk_proton_err (decide (scale = 3)) (pow10 (-p)) totals ks "total_sulfate"
    "k_bisulfate" "HSO4").bind _ with ⟨⟨c11, -, e11⟩, q11⟩ | ⟨r, hr, x, y, e⟩
  swap
  · refine finish r ?_ x y e
    by_cases hh : scale = 3
    · simp only [List.mem_cons, List.not_mem_nil, or_false, hh, decide_true, if_true] at hr
      subst hr; simp [requiredKs, hh]
    · simp [hh] at hr
  rw [e11]
  left
  refine ⟨hs, ?_, _, rfl⟩
  intro r hr
  simp only [requiredKs, List.mem_append, List.mem_cons, List.not_mem_nil, or_false] at hr
  rcases hr with (hr | hr) | hr
  · rcases hr with rfl | rfl | rfl | rfl | rfl | rfl | rfl | rfl | rfl | rfl | rfl
    · exact q2 _ (by simp)
    · exact q2 _ (by simp)
    · exact q3 _ (by simp)
    · exact q4 _ (by simp)
    · exact q4 _ (by simp)
    · exact q4 _ (by simp)
    · exact q5 _ (by simp)
    · exact q6 _ (by simp)
    · exact q7 _ (by simp)
    · exact q8 _ (by simp)
    · exact q9 _ (by simp)
  · by_cases hh : scale = 1 ∨ scale = 3
    · rw [if_pos hh] at hr
      simp only [List.mem_cons, List.not_mem_nil, or_false] at hr
      subst hr
      exact q10 _ (by simp [hh])
    · rw [if_neg hh] at hr; simp at hr
  · by_cases hh : scale = 3
    · rw [if_pos hh] at hr
      simp only [List.mem_cons, List.not_mem_nil, or_false] at hr
      subst hr
      exact q11 _ (by simp [hh])
    · rw [if_neg hh] at hr; simp at hr

end Calk
