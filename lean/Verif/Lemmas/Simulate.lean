import Verif.Model.Simulate
import Verif.Lemmas.Convert
import Verif.Lemmas.SpecAlk

/-! Helper lemmas: the model of `simulate.py` on finite, physically valid data. -/

namespace Calk
open Flt Spec

/-- Every value is finite and non-negative. -/
def NonnegDict (d : Dict Flt) : Prop := ∀ k v, d.get? k = some v → ∃ r : ℝ, 0 ≤ r ∧ v = fin r
/-- Every value is finite and positive. -/
def PosDict (d : Dict Flt) : Prop := ∀ k v, d.get? k = some v → ∃ r : ℝ, 0 < r ∧ v = fin r
/-- Every total that is present has its constants. -/
def HasKs (totals ks : Dict Flt) (scale : ℕ) : Prop :=
  ∀ tk ∈ requiredKs scale, totals.has tk.1 = true → ks.has tk.2 = true

/-- real value of an entry, with a default for absent entries -/
noncomputable def rval (d : Dict Flt) (dflt : ℝ) (k : String) : ℝ :=
  match d.get? k with
  | some (.fin r) => r
  | _ => dflt

/-- The solution described by the two dicts: absent totals are 0; constants that are absent
(hence not needed) are irrelevant and set to 1; no `k_water` means no water term. -/
noncomputable def Sol.of (totals ks : Dict Flt) : Sol where
  kw := rval ks 0 "k_water"
  dic := rval totals 0 "dic"
  k1 := rval ks 1 "k_carbonic_1"
  k2 := rval ks 1 "k_carbonic_2"
  tb := rval totals 0 "total_borate"
  kb := rval ks 1 "k_borate"
  tp := rval totals 0 "total_phosphate"
  kp1 := rval ks 1 "k_phosphoric_1"
  kp2 := rval ks 1 "k_phosphoric_2"
  kp3 := rval ks 1 "k_phosphoric_3"
  tsi := rval totals 0 "total_silicate"
  ksi := rval ks 1 "k_silicate"
  tnh3 := rval totals 0 "total_ammonia"
  knh3 := rval ks 1 "k_ammonia"
  th2s := rval totals 0 "total_sulfide"
  kh2s := rval ks 1 "k_sulfide"
  ta := rval totals 0 "total_alpha"
  ka := rval ks 1 "k_alpha"
  tbeta := rval totals 0 "total_beta"
  kbeta := rval ks 1 "k_beta"
  tf := rval totals 0 "total_fluoride"
  kf := rval ks 1 "k_fluoride"
  ts := rval totals 0 "total_sulfate"
  ks := rval ks 1 "k_bisulfate"

theorem rval_nonneg {d : Dict Flt} (h : NonnegDict d) (k : String) : 0 ≤ rval d 0 k := by
  unfold rval
  split
  · rename_i r hr
    obtain ⟨r', h1, h2⟩ := h _ _ hr
    simp at h2; subst h2; exact h1
  · exact le_rfl

theorem rval_pos {d : Dict Flt} (h : PosDict d) (k : String) : 0 < rval d 1 k := by
  unfold rval
  split
  · rename_i r hr
    obtain ⟨r', h1, h2⟩ := h _ _ hr
    simp at h2; subst h2; exact h1
  · exact one_pos

theorem PosDict.nonneg {d : Dict Flt} (h : PosDict d) : NonnegDict d := fun k v hv =>
  let ⟨r, h1, h2⟩ := h k v hv; ⟨r, h1.le, h2⟩

theorem Sol.of_valid {totals ks : Dict Flt} (ht : NonnegDict totals) (hk : PosDict ks) :
    (Sol.of totals ks).Valid where
  kw := rval_nonneg hk.nonneg _
  dic := rval_nonneg ht _
  k1 := rval_pos hk _
  k2 := rval_pos hk _
  tb := rval_nonneg ht _
  kb := rval_pos hk _
  tp := rval_nonneg ht _
  kp1 := rval_pos hk _
  kp2 := rval_pos hk _
  kp3 := rval_pos hk _
  tsi := rval_nonneg ht _
  ksi := rval_pos hk _
  tnh3 := rval_nonneg ht _
  knh3 := rval_pos hk _
  th2s := rval_nonneg ht _
  kh2s := rval_pos hk _
  ta := rval_nonneg ht _
  ka := rval_pos hk _
  tbeta := rval_nonneg ht _
  kbeta := rval_pos hk _
  tf := rval_nonneg ht _
  kf := rval_pos hk _
  ts := rval_nonneg ht _
  ks := rval_pos hk _

/-- `c` contributes `a` to the alkalinity. -/
def Contrib (c : Dict Flt) (a : ℝ) : Prop := ∃ ts, alk_terms c = .ok ts ∧ npSum ts = fin a

theorem alk_terms_append (c d : Dict Flt) :
    alk_terms (c ++ d) = (do let a ← alk_terms c; let b ← alk_terms d; return a ++ b) := by
  induction c with
  | nil =>
    simp only [List.nil_append, alk_terms, bind_ok]
    cases alk_terms d <;> rfl
  | cons kv c ih =>
    obtain ⟨k, v⟩ := kv
    simp only [List.cons_append, alk_terms, ih]
    cases component_multipliers.get k with
    | error e => rfl
    | ok m =>
      simp only [bind_ok]
      cases alk_terms c with
      | error e => rfl
      | ok a =>
        simp only [bind_ok]
        cases alk_terms d <;> rfl

theorem Contrib.nil : Contrib [] 0 := ⟨[], rfl, rfl⟩

theorem Contrib.append {c d : Dict Flt} {a b : ℝ} (hc : Contrib c a) (hd : Contrib d b) :
    Contrib (c ++ d) (a + b) := by
  obtain ⟨ts, h1, h2⟩ := hc
  obtain ⟨us, h3, h4⟩ := hd
  exact ⟨ts ++ us, by rw [alk_terms_append, h1, h3]; rfl, by rw [npSum_append, h2, h4]; rfl⟩

theorem Contrib.one {k : String} {x m : ℝ} (h : component_multipliers.get? k = some m) :
    Contrib [(k, fin x)] (x * m) := by
  have h' := Dict.get_ok_iff.mpr h
  refine ⟨[fin x * fin m], ?_, ?_⟩
  · simp only [alk_terms, h', bind_ok]; rfl
  · simp [npSum]

theorem mult_H : component_multipliers.get? "H" = some (-1) := by
  simp [component_multipliers, Dict.get?]
theorem mult_OH : component_multipliers.get? "OH" = some 1 := by
  simp [component_multipliers, Dict.get?]
theorem mult_CO2 : component_multipliers.get? "CO2" = some 0 := by
  simp [component_multipliers, Dict.get?]
theorem mult_HCO3 : component_multipliers.get? "HCO3" = some 1 := by
  simp [component_multipliers, Dict.get?]
theorem mult_CO3 : component_multipliers.get? "CO3" = some 2 := by
  simp [component_multipliers, Dict.get?]
theorem mult_BOH4 : component_multipliers.get? "BOH4" = some 1 := by
  simp [component_multipliers, Dict.get?]
theorem mult_HSO4 : component_multipliers.get? "HSO4" = some (-1) := by
  simp [component_multipliers, Dict.get?]
theorem mult_HF : component_multipliers.get? "HF" = some (-1) := by
  simp [component_multipliers, Dict.get?]
theorem mult_H3PO4 : component_multipliers.get? "H3PO4" = some (-1) := by
  simp [component_multipliers, Dict.get?]
theorem mult_HPO4 : component_multipliers.get? "HPO4" = some 1 := by
  simp [component_multipliers, Dict.get?]
theorem mult_PO4 : component_multipliers.get? "PO4" = some 2 := by
  simp [component_multipliers, Dict.get?]
theorem mult_H3SiO4 : component_multipliers.get? "H3SiO4" = some 1 := by
  simp [component_multipliers, Dict.get?]
theorem mult_NH3 : component_multipliers.get? "NH3" = some 1 := by
  simp [component_multipliers, Dict.get?]
theorem mult_HS : component_multipliers.get? "HS" = some 1 := by
  simp [component_multipliers, Dict.get?]
theorem mult_alpha : component_multipliers.get? "alk_alpha" = some 1 := by
  simp [component_multipliers, Dict.get?]
theorem mult_beta : component_multipliers.get? "alk_beta" = some 1 := by
  simp [component_multipliers, Dict.get?]

@[simp] theorem fpow_fin (x : ℝ) (n : ℕ) : fpow (fin x) n = fin (x ^ n) := by
  induction n with
  | zero => simp [fpow]
  | succ n ih => simp [fpow, ih, pow_succ]

theorem get_of_has {d : Dict Flt} (hd : PosDict d) {k : String} (h : d.has k = true) :
    ∃ r : ℝ, 0 < r ∧ d.get k = .ok (fin r) ∧ rval d 1 k = r := by
  unfold Dict.has at h
  obtain ⟨v, hv⟩ := Option.isSome_iff_exists.mp h
  obtain ⟨r, hr, rfl⟩ := hd _ _ hv
  exact ⟨r, hr, Dict.get_ok_iff.mpr hv, by simp [rval, hv]⟩

theorem rval_none {d : Dict Flt} {k : String} {x : ℝ} (h : d.get? k = none) : rval d x k = x := by
  simp [rval, h]

theorem rval_some {d : Dict Flt} {k : String} {x r : ℝ} (h : d.get? k = some (fin r)) :
    rval d x k = r := by
  simp [rval, h]

section blocks

variable {h : ℝ} {totals ks : Dict Flt} (hh : 0 < h) (ht : NonnegDict totals) (hk : PosDict ks)
include hh hk

theorem blk_water_spec : ∃ c, blk_water (fin h) ks = .ok c ∧ Contrib c (rval ks 0 "k_water" / h) := by
  unfold blk_water
  cases hkw : ks.get? "k_water" with
  | none =>
    refine ⟨[], rfl, ?_⟩
    rw [rval_none hkw, zero_div]; exact Contrib.nil
  | some v =>
    obtain ⟨r, hr, rfl⟩ := hk _ _ hkw
    refine ⟨_, rfl, ?_⟩
    rw [div_fin _ _ hh.ne', rval_some hkw]
    simpa using Contrib.one (x := r / h) mult_OH

include ht

theorem blk_mono_spec {total k name : String} (hmul : component_multipliers.get? name = some 1)
    (hreq : totals.has total = true → ks.has k = true) :
    ∃ c, blk_mono (fin h) totals ks total k name = .ok c ∧
      Contrib c (base (rval totals 0 total) (rval ks 1 k) h) := by
  unfold blk_mono
  cases hT : totals.get? total with
  | none =>
    refine ⟨[], rfl, ?_⟩
    rw [rval_none hT]
    simpa [base] using Contrib.nil
  | some v =>
    obtain ⟨T, hT0, rfl⟩ := ht _ _ hT
    obtain ⟨K, hK0, hK, hKr⟩ := get_of_has hk (hreq (by simp [Dict.has, hT]))
    refine ⟨[(name, fin (T * K / (K + h)))], ?_, ?_⟩
    · simp only [hK, bind_ok, mul_fin, add_fin]
      rw [div_fin _ _ (by positivity)]; rfl
    · rw [rval_some hT, hKr]
      simpa [base] using Contrib.one (x := T * K / (K + h)) hmul

theorem blk_proton_spec {on : Bool} {total k name : String}
    (hmul : component_multipliers.get? name = some (-1))
    (hreq : on = true → totals.has total = true → ks.has k = true) :
    ∃ c, blk_proton on (fin h) totals ks total k name = .ok c ∧
      Contrib c (-(if on = true then acid (rval totals 0 total) (rval ks 1 k) h else 0)) := by
  unfold blk_proton
  cases on with
  | false => exact ⟨[], by simp, by simpa using Contrib.nil⟩
  | true =>
    simp only [if_true]
    cases hT : totals.get? total with
    | none =>
      refine ⟨[], rfl, ?_⟩
      rw [rval_none hT]
      simpa [acid] using Contrib.nil
    | some v =>
      obtain ⟨T, hT0, rfl⟩ := ht _ _ hT
      obtain ⟨K, hK0, hK, hKr⟩ := get_of_has hk (hreq rfl (by simp [Dict.has, hT]))
      refine ⟨[(name, fin (T * h / (K + h)))], ?_, ?_⟩
      · simp only [hK, bind_ok, mul_fin, add_fin]
        rw [div_fin _ _ (by positivity)]; rfl
      · rw [rval_some hT, hKr]
        simpa [acid] using Contrib.one (x := T * h / (K + h)) hmul

theorem blk_extra_spec {total k name : String} (hmul : component_multipliers.get? name = some 1)
    (hreq : totals.has total = true → ks.has k = true) :
    ∃ c, blk_extra (fin h) totals ks total k name = .ok c ∧
      Contrib c (extraAlk (rval totals 0 total) (rval ks 1 k) h) := by
  unfold blk_extra
  cases hT : totals.get? total with
  | none =>
    refine ⟨[], rfl, ?_⟩
    rw [rval_none hT]
    have : extraAlk 0 (rval ks 1 k) h = 0 := by simp [extraAlk, base, acid]
    rw [this]; exact Contrib.nil
  | some v =>
    obtain ⟨T, hT0, rfl⟩ := ht _ _ hT
    obtain ⟨K, hK0, hK, hKr⟩ := get_of_has hk (hreq (by simp [Dict.has, hT]))
    refine ⟨[(name, fin (extraAlk T K h))], ?_, ?_⟩
    · simp only [hK, bind_ok, mul_fin, add_fin]
      rw [div_fin _ _ (by positivity), log10_fin _ hK0]
      have e1 : -(T - T * K / (K + h)) = -(acid T K h) := by
        rw [acid_eq hK0 hh]; rfl
      simp only [sub_fin, neg_fin, le_fin, e1, decide_eq_true_eq]
      rw [show (zlp : ℝ) = 4.5 from rfl]
      unfold extraAlk base
      split <;> rfl
    · rw [rval_some hT, hKr]
      simpa using Contrib.one (x := extraAlk T K h) hmul

theorem blk_carbonate_spec
    (h1 : totals.has "dic" = true → ks.has "k_carbonic_1" = true)
    (h2 : totals.has "dic" = true → ks.has "k_carbonic_2" = true) :
    ∃ c, blk_carbonate (fin h) totals ks = .ok c ∧
      Contrib c (carbAlk (rval totals 0 "dic") (rval ks 1 "k_carbonic_1")
        (rval ks 1 "k_carbonic_2") h) := by
  unfold blk_carbonate
  cases hT : totals.get? "dic" with
  | none =>
    refine ⟨[], rfl, ?_⟩
    rw [rval_none hT]
    simpa [carbAlk] using Contrib.nil
  | some v =>
    obtain ⟨T, hT0, rfl⟩ := ht _ _ hT
    obtain ⟨K1, hK1, hK1', hK1r⟩ := get_of_has hk (h1 (by simp [Dict.has, hT]))
    obtain ⟨K2, hK2, hK2', hK2r⟩ := get_of_has hk (h2 (by simp [Dict.has, hT]))
    have hd : 1 + K1 / h + K1 * K2 / h ^ 2 ≠ 0 := by positivity
    refine ⟨[("CO2", fin (T / (1 + K1 / h + K1 * K2 / h ^ 2))),
        ("HCO3", fin (K1 * (T / (1 + K1 / h + K1 * K2 / h ^ 2)) / h)),
        ("CO3", fin (K2 * (K1 * (T / (1 + K1 / h + K1 * K2 / h ^ 2)) / h) / h))], ?_, ?_⟩
    · simp only [hK1', hK2', bind_ok, fpow_fin, mul_fin]
      rw [div_fin _ _ hh.ne', div_fin _ _ (by positivity)]
      simp only [add_fin]
      rw [div_fin _ _ hd]
      simp only [mul_fin]
      rw [div_fin _ _ hh.ne']
      simp only [mul_fin]
      rw [div_fin _ _ hh.ne']
      rfl
    · have := ((Contrib.one (x := T / (1 + K1 / h + K1 * K2 / h ^ 2)) mult_CO2).append
        (Contrib.one (x := K1 * (T / (1 + K1 / h + K1 * K2 / h ^ 2)) / h) mult_HCO3)).append
        (Contrib.one (x := K2 * (K1 * (T / (1 + K1 / h + K1 * K2 / h ^ 2)) / h) / h) mult_CO3)
      simp only [List.cons_append, List.nil_append] at this
      convert this using 1
      rw [rval_some hT, hK1r, hK2r]
      unfold carbAlk
      have hd' : h ^ 2 + K1 * h + K1 * K2 ≠ 0 := by positivity
      field_simp
      ring

theorem blk_phosphate_spec
    (h1 : totals.has "total_phosphate" = true → ks.has "k_phosphoric_1" = true)
    (h2 : totals.has "total_phosphate" = true → ks.has "k_phosphoric_2" = true)
    (h3 : totals.has "total_phosphate" = true → ks.has "k_phosphoric_3" = true) :
    ∃ c, blk_phosphate (fin h) totals ks = .ok c ∧
      Contrib c (phosAlk (rval totals 0 "total_phosphate") (rval ks 1 "k_phosphoric_1")
        (rval ks 1 "k_phosphoric_2") (rval ks 1 "k_phosphoric_3") h) := by
  unfold blk_phosphate
  cases hT : totals.get? "total_phosphate" with
  | none =>
    refine ⟨[], rfl, ?_⟩
    rw [rval_none hT]
    simpa [phosAlk] using Contrib.nil
  | some v =>
    obtain ⟨T, hT0, rfl⟩ := ht _ _ hT
    obtain ⟨K1, hK1, hK1', hK1r⟩ := get_of_has hk (h1 (by simp [Dict.has, hT]))
    obtain ⟨K2, hK2, hK2', hK2r⟩ := get_of_has hk (h2 (by simp [Dict.has, hT]))
    obtain ⟨K3, hK3, hK3', hK3r⟩ := get_of_has hk (h3 (by simp [Dict.has, hT]))
    have hd : h ^ 3 + K1 * h ^ 2 + K1 * K2 * h + K1 * K2 * K3 ≠ 0 := by positivity
    refine ⟨[("H3PO4", fin (T * h ^ 3 / (h ^ 3 + K1 * h ^ 2 + K1 * K2 * h + K1 * K2 * K3))),
        ("HPO4", fin (T * K1 * K2 * h / (h ^ 3 + K1 * h ^ 2 + K1 * K2 * h + K1 * K2 * K3))),
        ("PO4", fin (T * K1 * K2 * K3 / (h ^ 3 + K1 * h ^ 2 + K1 * K2 * h + K1 * K2 * K3)))],
        ?_, ?_⟩
    · simp only [hK1', hK2', hK3', bind_ok, fpow_fin, mul_fin, add_fin, pure_ok, Except.ok.injEq]
      rw [div_fin _ _ hd, div_fin _ _ hd, div_fin _ _ hd]
    · have := ((Contrib.one (x := T * h ^ 3 / (h ^ 3 + K1 * h ^ 2 + K1 * K2 * h + K1 * K2 * K3))
          mult_H3PO4).append
        (Contrib.one (x := T * K1 * K2 * h / (h ^ 3 + K1 * h ^ 2 + K1 * K2 * h + K1 * K2 * K3))
          mult_HPO4)).append
        (Contrib.one (x := T * K1 * K2 * K3 / (h ^ 3 + K1 * h ^ 2 + K1 * K2 * h + K1 * K2 * K3))
          mult_PO4)
      simp only [List.cons_append, List.nil_append] at this
      convert this using 1
      rw [rval_some hT, hK1r, hK2r, hK3r]
      unfold phosAlk
      field_simp
      ring

end blocks

/-- The model computes the textbook alkalinity. -/
theorem alkalinity_eq_spec {totals ks : Dict Flt} {scale : ℕ} (hs : scale ∈ [1, 2, 3])
    (ht : NonnegDict totals) (hk : PosDict ks) (hreq : HasKs totals ks scale) (p : ℝ) :
    alkalinity (fin p) totals ks scale
      = .ok (fin ((Sol.of totals ks).alk scale ((10:ℝ) ^ (-p)))) := by
  have hh : (0 : ℝ) < (10:ℝ) ^ (-p) := by positivity
  have R : ∀ t k, (t, k) ∈ requiredKs scale → totals.has t = true → ks.has k = true :=
    fun t k hm => hreq (t, k) hm
  obtain ⟨c1, e1, q1⟩ := blk_water_spec hh hk
  obtain ⟨c2, e2, q2⟩ := blk_carbonate_spec hh ht hk
    (R _ _ (by simp [requiredKs])) (R _ _ (by simp [requiredKs]))
  obtain ⟨c3, e3, q3⟩ := blk_mono_spec hh ht hk mult_BOH4
    (R "total_borate" "k_borate" (by simp [requiredKs]))
  obtain ⟨c4, e4, q4⟩ := blk_phosphate_spec hh ht hk
    (R _ _ (by simp [requiredKs])) (R _ _ (by simp [requiredKs])) (R _ _ (by simp [requiredKs]))
  obtain ⟨c5, e5, q5⟩ := blk_mono_spec hh ht hk mult_H3SiO4
    (R "total_silicate" "k_silicate" (by simp [requiredKs]))
  obtain ⟨c6, e6, q6⟩ := blk_mono_spec hh ht hk mult_NH3
    (R "total_ammonia" "k_ammonia" (by simp [requiredKs]))
  obtain ⟨c7, e7, q7⟩ := blk_mono_spec hh ht hk mult_HS
    (R "total_sulfide" "k_sulfide" (by simp [requiredKs]))
  obtain ⟨c8, e8, q8⟩ := blk_extra_spec hh ht hk mult_alpha
    (R "total_alpha" "k_alpha" (by simp [requiredKs]))
  obtain ⟨c9, e9, q9⟩ := blk_extra_spec hh ht hk mult_beta
    (R "total_beta" "k_beta" (by simp [requiredKs]))
  obtain ⟨c10, e10, q10⟩ := blk_proton_spec (on := decide (scale ∈ [1, 3])) hh ht hk mult_HF
    (fun hon => R "total_fluoride" "k_fluoride" (by
      simp only [List.mem_cons, List.not_mem_nil, or_false, decide_eq_true_eq] at hon
      simp [requiredKs, hon]))
  obtain ⟨c11, e11, q11⟩ := blk_proton_spec (on := decide (scale = 3)) hh ht hk mult_HSO4
    (fun hon => R "total_sulfate" "k_bisulfate" (by
      simp only [decide_eq_true_eq] at hon
      simp [requiredKs, hon]))
  have q0 : Contrib [("H", fin ((10:ℝ) ^ (-p)))] (-((10:ℝ) ^ (-p))) := by
    simpa using Contrib.one (x := (10:ℝ) ^ (-p)) mult_H
  obtain ⟨ts, hts, hsum⟩ := ((((((((((q0.append q1).append q2).append q3).append q4).append
    q5).append q6).append q7).append q8).append q9).append q10).append q11
  have hassert : pyAssert (decide (scale ∈ [1, 2, 3])) = .ok () := by simp [pyAssert, hs]
  simp only [alkalinity, alkalinity_components, neg_fin, pow10_fin, hassert, bind_ok, e1, e2, e3,
    e4, e5, e6, e7, e8, e9, e10, e11, pure_ok, hts, hsum, Except.ok.injEq, fin_inj]
  unfold Sol.alk Sol.of
  simp only [List.mem_cons, List.not_mem_nil, or_false, decide_eq_true_eq]
  ring

end Calk
