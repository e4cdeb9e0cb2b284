import Verif.Lemmas.Components

/-!
# Properties C08-C12: speciation and alkalinity (`calkulate/simulate.py`)

`NonnegDict totals` : every total is a finite non-negative number.
`PosDict ks` : every equilibrium constant is a finite positive number.
`HasKs totals ks scale` : every total that is present has its constants
(`Spec.requiredKs`).
`Spec.Sol.alk` is the textbook alkalinity; `Sol.of` reads the two dicts as a solution.
-/

namespace Calk
open Flt Spec

/-- Typical test solution used in the examples. -/
noncomputable def exTotals : Dict Flt :=
  [("dic", fin 2e-3), ("total_borate", fin 4e-4), ("total_sulfate", fin 0.028),
   ("total_fluoride", fin 7e-5), ("total_phosphate", fin 1e-6), ("total_alpha", fin 1e-5)]
noncomputable def exKs : Dict Flt :=
  [("k_water", fin 1e-13), ("k_carbonic_1", fin 1e-6), ("k_carbonic_2", fin 1e-9),
   ("k_borate", fin 2e-9), ("k_bisulfate", fin 0.1), ("k_fluoride", fin 2e-3),
   ("k_phosphoric_1", fin 2e-2), ("k_phosphoric_2", fin 1e-6), ("k_phosphoric_3", fin 1e-9),
   ("k_alpha", fin 1e-4)]

theorem get?_mem_vals {d : Dict Flt} {P : Flt → Prop} (h : ∀ kv ∈ d, P kv.2) (k : String) (v : Flt)
    (hv : d.get? k = some v) : P v := h _ (Dict.mem_of_get? hv)

theorem exTotals_nonneg : NonnegDict exTotals := by
  apply get?_mem_vals (P := fun v => ∃ r : ℝ, 0 ≤ r ∧ v = fin r)
  intro kv hkv
  simp only [exTotals, List.mem_cons, List.not_mem_nil, or_false] at hkv
  rcases hkv with rfl | rfl | rfl | rfl | rfl | rfl <;> exact ⟨_, by norm_num, rfl⟩

theorem exKs_pos : PosDict exKs := by
  apply get?_mem_vals (P := fun v => ∃ r : ℝ, 0 < r ∧ v = fin r)
  intro kv hkv
  simp only [exKs, List.mem_cons, List.not_mem_nil, or_false] at hkv
  rcases hkv with rfl | rfl | rfl | rfl | rfl | rfl | rfl | rfl | rfl | rfl <;>
    exact ⟨_, by norm_num, rfl⟩

theorem exHasKs : HasKs exTotals exKs 3 := by
  intro r hr
  simp only [requiredKs, List.mem_append, List.mem_cons, List.not_mem_nil, or_false] at hr
  rcases hr with (hr | hr) | hr
  · rcases hr with rfl | rfl | rfl | rfl | rfl | rfl | rfl | rfl | rfl | rfl | rfl <;>
      simp [exTotals, exKs, Dict.has, Dict.get?]
  · simp at hr; subst hr; simp [exTotals, exKs, Dict.has, Dict.get?]
  · simp at hr; subst hr; simp [exTotals, exKs, Dict.has, Dict.get?]

/-! ## C08: laws of mass action and mass balance -/

/-- C08: `H` is `10^-pH`. -/
theorem C08_H (p : ℝ) (totals ks c : Dict Flt) (scale : ℕ)
    (hc : alkalinity_components (fin p) totals ks scale = .ok c) :
    c.get? "H" = some (fin ((10 : ℝ) ^ (-p))) := by
  obtain ⟨c1, c2, c3, c4, c5, c6, c7, c8, c9, c10, c11, -, -, -, -, -, -, -, -, -, -, -, -, hH, -⟩ :=
    components_lookup hc
  exact hH

/-- C08: water: `[H+][OH-] = Kw`. -/
theorem C08_water (p : ℝ) (totals ks c : Dict Flt) (scale : ℕ) (kw : ℝ)
    (hkw : ks.get? "k_water" = some (fin kw))
    (hc : alkalinity_components (fin p) totals ks scale = .ok c) :
    ∃ oh : ℝ, c.get? "OH" = some (fin oh) ∧ (10 : ℝ) ^ (-p) * oh = kw := by
  obtain ⟨c1, c2, c3, c4, c5, c6, c7, c8, c9, c10, c11, -, h1, -, -, -, -, -, -, -, -, -, -, -,
    hOH, -⟩ := components_lookup hc
  have hh : (0 : ℝ) < (10 : ℝ) ^ (-p) := by positivity
  rw [hOH]
  simp only [blk_water, hkw, Except.ok.injEq] at h1
  subst h1
  refine ⟨kw / (10 : ℝ) ^ (-p), ?_, by field_simp⟩
  simp [Dict.get?_cons, div_fin _ _ hh.ne']

/-- C08: carbonate system: mass balance, non-negativity and both mass-action laws. -/
theorem C08_carbonate (p : ℝ) (totals ks c : Dict Flt) (scale : ℕ) (T K1 K2 : ℝ)
    (hT : totals.get? "dic" = some (fin T)) (hK1 : ks.get? "k_carbonic_1" = some (fin K1))
    (hK2 : ks.get? "k_carbonic_2" = some (fin K2)) (hT0 : 0 ≤ T) (h1 : 0 < K1) (h2 : 0 < K2)
    (hc : alkalinity_components (fin p) totals ks scale = .ok c) :
    ∃ co2 hco3 co3 : ℝ, c.get? "CO2" = some (fin co2) ∧ c.get? "HCO3" = some (fin hco3) ∧
      c.get? "CO3" = some (fin co3) ∧ 0 ≤ co2 ∧ 0 ≤ hco3 ∧ 0 ≤ co3 ∧
      co2 + hco3 + co3 = T ∧
      (10 : ℝ) ^ (-p) * hco3 = K1 * co2 ∧ (10 : ℝ) ^ (-p) * co3 = K2 * hco3 := by
  obtain ⟨c1, c2, c3, c4, c5, c6, c7, c8, c9, c10, c11, -, -, hb, -, -, -, -, -, -, -, -, -, -,
    -, e1, e2, e3, -⟩ := components_lookup hc
  have hh : (0 : ℝ) < (10 : ℝ) ^ (-p) := by positivity
  rw [e1, e2, e3]
  rcases blk_carbonate_get hb with ⟨hn, -⟩ | ⟨T', K1', K2', hT', hK1', hK2', rfl⟩
  · rw [hn] at hT; simp at hT
  rw [hT] at hT'; rw [hK1] at hK1'; rw [hK2] at hK2'
  simp only [Option.some.injEq] at hT' hK1' hK2'
  subst hT' hK1' hK2'
  simp only [neg_fin, pow10_fin] at *
  set h := (10 : ℝ) ^ (-p) with hdef
  have hd : 0 < 1 + K1 / h + K1 * K2 / h ^ 2 := by positivity
  refine ⟨T / (1 + K1 / h + K1 * K2 / h ^ 2), K1 * (T / (1 + K1 / h + K1 * K2 / h ^ 2)) / h,
    K2 * (K1 * (T / (1 + K1 / h + K1 * K2 / h ^ 2)) / h) / h, ?_, ?_, ?_, by positivity,
    by positivity, by positivity, ?_, ?_, ?_⟩
  · simp [Dict.get?_cons, div_fin _ _ hh.ne', div_fin _ _ (pow_pos hh 2).ne', div_fin _ _ hd.ne']
  · simp [Dict.get?_cons, div_fin _ _ hh.ne', div_fin _ _ (pow_pos hh 2).ne', div_fin _ _ hd.ne']
  · simp [Dict.get?_cons, div_fin _ _ hh.ne', div_fin _ _ (pow_pos hh 2).ne', div_fin _ _ hd.ne']
  · have : h ^ 2 + K1 * h + K1 * K2 ≠ 0 := by positivity
    field_simp
  · field_simp
  · field_simp

/-- The four monoprotic acids: total, constant and component names. -/
def monoAcids : List (String × String × String) :=
  [("total_borate", "k_borate", "BOH4"), ("total_silicate", "k_silicate", "H3SiO4"),
   ("total_ammonia", "k_ammonia", "NH3"), ("total_sulfide", "k_sulfide", "HS")]

/-- C08: monoprotic acids: the base lies in `[0, T]` and obeys `[H+][A-] = K [HA]`. -/
theorem C08_monoprotic (p : ℝ) (totals ks c : Dict Flt) (scale : ℕ) (T K : ℝ)
    (total k name : String) (hn : (total, k, name) ∈ monoAcids)
    (hT : totals.get? total = some (fin T)) (hK : ks.get? k = some (fin K)) (hT0 : 0 ≤ T)
    (hK0 : 0 < K) (hc : alkalinity_components (fin p) totals ks scale = .ok c) :
    ∃ b : ℝ, c.get? name = some (fin b) ∧ 0 ≤ b ∧ b ≤ T ∧ (10 : ℝ) ^ (-p) * b = K * (T - b) := by
  obtain ⟨c1, c2, c3, c4, c5, c6, c7, c8, c9, c10, c11, -, -, -, b3, -, b5, b6, b7, -, -, -, -, -,
    -, -, -, -, e3, -, -, -, e5, e6, e7, -⟩ := components_lookup hc
  have hh : (0 : ℝ) < (10 : ℝ) ^ (-p) := by positivity
  have main : ∀ cc : Dict Flt, blk_mono (pow10 (-(fin p))) totals ks total k name = .ok cc →
      c.get? name = cc.get? name →
      ∃ b : ℝ, c.get? name = some (fin b) ∧ 0 ≤ b ∧ b ≤ T ∧
        (10 : ℝ) ^ (-p) * b = K * (T - b) := by
    intro cc hb he
    rcases blk_mono_get hb with ⟨hn, -⟩ | ⟨T', K', hT', hK', hg⟩
    · rw [hn] at hT; simp at hT
    rw [hT] at hT'; rw [hK] at hK'
    simp only [Option.some.injEq] at hT' hK'
    subst hT' hK'
    rw [he, hg]
    simp only [neg_fin, pow10_fin, mul_fin, add_fin]
    have hd : (0 : ℝ) < K + (10 : ℝ) ^ (-p) := by positivity
    rw [div_fin _ _ hd.ne']
    refine ⟨_, rfl, by positivity, ?_, ?_⟩
    · rw [div_le_iff₀ hd]; nlinarith [mul_nonneg hT0 hh.le]
    · field_simp; ring
  simp only [monoAcids, List.mem_cons, List.not_mem_nil, or_false, Prod.mk.injEq] at hn
  rcases hn with ⟨rfl, rfl, rfl⟩ | ⟨rfl, rfl, rfl⟩ | ⟨rfl, rfl, rfl⟩ | ⟨rfl, rfl, rfl⟩
  · exact main _ b3 e3
  · exact main _ b5 e5
  · exact main _ b6 e6
  · exact main _ b7 e7

/-- C08: phosphate: the three reported species and the implied H2PO4- are non-negative, obey
all three mass-action laws and add up to the total. -/
theorem C08_phosphate (p : ℝ) (totals ks c : Dict Flt) (scale : ℕ) (T K1 K2 K3 : ℝ)
    (hT : totals.get? "total_phosphate" = some (fin T))
    (hK1 : ks.get? "k_phosphoric_1" = some (fin K1))
    (hK2 : ks.get? "k_phosphoric_2" = some (fin K2))
    (hK3 : ks.get? "k_phosphoric_3" = some (fin K3)) (hT0 : 0 ≤ T) (h1 : 0 < K1) (h2 : 0 < K2)
    (h3 : 0 < K3) (hc : alkalinity_components (fin p) totals ks scale = .ok c) :
    ∃ x3 x2 x1 x0 : ℝ, c.get? "H3PO4" = some (fin x3) ∧ c.get? "HPO4" = some (fin x1) ∧
      c.get? "PO4" = some (fin x0) ∧ 0 ≤ x3 ∧ 0 ≤ x2 ∧ 0 ≤ x1 ∧ 0 ≤ x0 ∧
      x3 + x2 + x1 + x0 = T ∧
      (10 : ℝ) ^ (-p) * x2 = K1 * x3 ∧ (10 : ℝ) ^ (-p) * x1 = K2 * x2 ∧
      (10 : ℝ) ^ (-p) * x0 = K3 * x1 := by
  obtain ⟨c1, c2, c3, c4, c5, c6, c7, c8, c9, c10, c11, -, -, -, -, hb, -, -, -, -, -, -, -, -,
    -, -, -, -, -, e1, e2, e3, -⟩ := components_lookup hc
  have hh : (0 : ℝ) < (10 : ℝ) ^ (-p) := by positivity
  rw [e1, e2, e3]
  rcases blk_phosphate_get hb with ⟨hn, -⟩ | ⟨T', K1', K2', K3', hT', hK1', hK2', hK3', rfl⟩
  · rw [hn] at hT; simp at hT
  rw [hT] at hT'; rw [hK1] at hK1'; rw [hK2] at hK2'; rw [hK3] at hK3'
  simp only [Option.some.injEq] at hT' hK1' hK2' hK3'
  subst hT' hK1' hK2' hK3'
  simp only [neg_fin, pow10_fin] at *
  set h := (10 : ℝ) ^ (-p) with hdef
  have hd : 0 < h ^ 3 + K1 * h ^ 2 + K1 * K2 * h + K1 * K2 * K3 := by positivity
  refine ⟨T * h ^ 3 / (h ^ 3 + K1 * h ^ 2 + K1 * K2 * h + K1 * K2 * K3),
    T * K1 * h ^ 2 / (h ^ 3 + K1 * h ^ 2 + K1 * K2 * h + K1 * K2 * K3),
    T * K1 * K2 * h / (h ^ 3 + K1 * h ^ 2 + K1 * K2 * h + K1 * K2 * K3),
    T * K1 * K2 * K3 / (h ^ 3 + K1 * h ^ 2 + K1 * K2 * h + K1 * K2 * K3),
    ?_, ?_, ?_, by positivity, by positivity, by positivity, by positivity, ?_, ?_, ?_, ?_⟩
  · simp [Dict.get?_cons, div_fin _ _ hd.ne']
  · simp [Dict.get?_cons, div_fin _ _ hd.ne']
  · simp [Dict.get?_cons, div_fin _ _ hd.ne']
  · field_simp
  · field_simp
  · field_simp
  · field_simp

/-- C08: HF and HSO4-: on the scales where they are reported, the protonated form lies in
`[0, T]` and obeys `[H+][A-] = K [HA]`; on the other scales it is not reported. -/
theorem C08_HF_HSO4 (p : ℝ) (totals ks c : Dict Flt) (scale : ℕ) (T K : ℝ)
    (total k name : String) (scales : List ℕ)
    (hn : (total, k, name, scales) ∈ [("total_fluoride", "k_fluoride", "HF", [1, 3]),
      ("total_sulfate", "k_bisulfate", "HSO4", [3])])
    (hT : totals.get? total = some (fin T)) (hK : ks.get? k = some (fin K)) (hT0 : 0 ≤ T)
    (hK0 : 0 < K) (hc : alkalinity_components (fin p) totals ks scale = .ok c) :
    (scale ∉ scales ∧ c.get? name = none) ∨
    (scale ∈ scales ∧ ∃ a : ℝ, c.get? name = some (fin a) ∧ 0 ≤ a ∧ a ≤ T ∧
      (10 : ℝ) ^ (-p) * (T - a) = K * a) := by
  obtain ⟨c1, c2, c3, c4, c5, c6, c7, c8, c9, c10, c11, -, -, -, -, -, -, -, -, -, -, b10, b11, -,
    -, -, -, -, -, -, -, -, -, -, -, -, -, e10, e11⟩ := components_lookup hc
  have hh : (0 : ℝ) < (10 : ℝ) ^ (-p) := by positivity
  have main : ∀ (on : Bool) (cc : Dict Flt),
      blk_proton on (pow10 (-(fin p))) totals ks total k name = .ok cc →
      c.get? name = cc.get? name → (on = true ↔ scale ∈ scales) →
      (scale ∉ scales ∧ c.get? name = none) ∨
      (scale ∈ scales ∧ ∃ a : ℝ, c.get? name = some (fin a) ∧ 0 ≤ a ∧ a ≤ T ∧
        (10 : ℝ) ^ (-p) * (T - a) = K * a) := by
    intro on cc hb he hon
    rcases blk_proton_get hb with ⟨hn | hn, hg⟩ | ⟨T', K', ho, hT', hK', hg⟩
    · left; refine ⟨?_, by rw [he, hg]⟩
      rw [← hon, hn]; simp
    · rw [hn] at hT; simp at hT
    right
    rw [hT] at hT'; rw [hK] at hK'
    simp only [Option.some.injEq] at hT' hK'
    subst hT' hK'
    rw [he, hg]
    simp only [neg_fin, pow10_fin, mul_fin, add_fin]
    have hd : (0 : ℝ) < K + (10 : ℝ) ^ (-p) := by positivity
    rw [div_fin _ _ hd.ne']
    refine ⟨hon.mp ho, _, rfl, by positivity, ?_, ?_⟩
    · rw [div_le_iff₀ hd]; nlinarith [mul_nonneg hT0 hK0.le]
    · field_simp; ring
  simp only [List.mem_cons, List.not_mem_nil, or_false, Prod.mk.injEq] at hn
  rcases hn with ⟨rfl, rfl, rfl, rfl⟩ | ⟨rfl, rfl, rfl, rfl⟩
  · exact main _ _ b10 e10 (by simp)
  · exact main _ _ b11 e11 (by simp)

/-- C08: additional acids: with `A-` defined by mass action and mass balance, the reported
contribution is `[A-]` for acids with pK above 4.5 and `-[HA]` otherwise. -/
theorem C08_extra (p : ℝ) (totals ks c : Dict Flt) (scale : ℕ) (T K : ℝ) (total k name : String)
    (hn : (total, k, name) ∈ [("total_alpha", "k_alpha", "alk_alpha"),
      ("total_beta", "k_beta", "alk_beta")])
    (hT : totals.get? total = some (fin T)) (hK : ks.get? k = some (fin K)) (hT0 : 0 ≤ T)
    (hK0 : 0 < K) (hc : alkalinity_components (fin p) totals ks scale = .ok c) :
    ∃ b : ℝ, 0 ≤ b ∧ b ≤ T ∧ (10 : ℝ) ^ (-p) * b = K * (T - b) ∧
      c.get? name = some (fin (if 4.5 < -Real.logb 10 K then b else -(T - b))) := by
  obtain ⟨c1, c2, c3, c4, c5, c6, c7, c8, c9, c10, c11, -, -, -, -, -, -, -, -, b8, b9, -, -, -,
    -, -, -, -, -, -, -, -, -, -, -, e8, e9, -⟩ := components_lookup hc
  have hh : (0 : ℝ) < (10 : ℝ) ^ (-p) := by positivity
  have main : ∀ (cc : Dict Flt),
      blk_extra (pow10 (-(fin p))) totals ks total k name = .ok cc →
      c.get? name = cc.get? name →
      ∃ b : ℝ, 0 ≤ b ∧ b ≤ T ∧ (10 : ℝ) ^ (-p) * b = K * (T - b) ∧
        c.get? name = some (fin (if 4.5 < -Real.logb 10 K then b else -(T - b))) := by
    intro cc hb he
    rcases blk_extra_get hb with ⟨hn, -⟩ | ⟨T', K', hT', hK', hg⟩
    · rw [hn] at hT; simp at hT
    rw [hT] at hT'; rw [hK] at hK'
    simp only [Option.some.injEq] at hT' hK'
    subst hT' hK'
    rw [he, hg]
    have hd : (0 : ℝ) < K + (10 : ℝ) ^ (-p) := by positivity
    refine ⟨T * K / (K + (10 : ℝ) ^ (-p)), by positivity, ?_, ?_, ?_⟩
    · rw [div_le_iff₀ hd]; nlinarith [mul_nonneg hT0 hh.le]
    · field_simp; ring
    · simp only [neg_fin, pow10_fin, mul_fin, add_fin]
      rw [div_fin _ _ hd.ne', log10_fin _ hK0]
      simp only [neg_fin, le_fin, sub_fin, decide_eq_true_eq]
      rw [show (zlp : ℝ) = 4.5 from rfl]
      by_cases hz : -Real.logb 10 K ≤ 4.5
      · rw [if_pos hz, if_neg (not_lt.mpr hz)]
      · rw [if_neg hz, if_pos (not_le.mp hz)]
  simp only [List.mem_cons, List.not_mem_nil, or_false, Prod.mk.injEq] at hn
  rcases hn with ⟨rfl, rfl, rfl⟩ | ⟨rfl, rfl, rfl⟩
  · exact main _ b8 e8
  · exact main _ b9 e9

example : ∃ c, alkalinity_components (fin 8.1) exTotals exKs 3 = .ok c := by
  rcases components_err (fin 8.1) exTotals exKs 3 with ⟨h, -⟩ | ⟨-, -, h⟩ | ⟨-, r, hr, h1, h2, -⟩
  · simp at h
  · exact h
  · rw [exHasKs r hr h1] at h2; simp at h2

/-! ## C09, C10 -/

/-- The simulator computes the textbook total alkalinity (used by C09, C10, C12). -/
theorem C09_alkalinity_textbook (totals ks : Dict Flt) (scale : ℕ) (hs : scale ∈ [1, 2, 3])
    (ht : NonnegDict totals) (hk : PosDict ks) (hreq : HasKs totals ks scale) (p : ℝ) :
    alkalinity (fin p) totals ks scale
      = .ok (fin ((Sol.of totals ks).alk scale ((10 : ℝ) ^ (-p)))) :=
  alkalinity_eq_spec hs ht hk hreq p

/-- C09: alkalinity is strictly increasing in pH. -/
theorem C09_strictMono (totals ks : Dict Flt) (scale : ℕ) (hs : scale ∈ [1, 2, 3])
    (ht : NonnegDict totals) (hk : PosDict ks) (hreq : HasKs totals ks scale) (p q : ℝ)
    (hpq : p < q) :
    ∃ a b : ℝ, alkalinity (fin p) totals ks scale = .ok (fin a) ∧
      alkalinity (fin q) totals ks scale = .ok (fin b) ∧ a < b := by
  refine ⟨_, _, alkalinity_eq_spec hs ht hk hreq p, alkalinity_eq_spec hs ht hk hreq q, ?_⟩
  apply Sol.alk_strictAnti (Sol.of_valid ht hk) scale (by positivity)
  exact Real.rpow_lt_rpow_of_exponent_lt (by norm_num) (by linarith)

example : ∃ a b : ℝ, alkalinity (fin 3.5) exTotals exKs 3 = .ok (fin a) ∧
      alkalinity (fin 8) exTotals exKs 3 = .ok (fin b) ∧ a < b :=
  C09_strictMono _ _ 3 (by simp) exTotals_nonneg exKs_pos exHasKs _ _ (by norm_num)

/-- C10: with water present, every alkalinity is reached at exactly one pH. -/
theorem C10_existsUnique_pH (totals ks : Dict Flt) (scale : ℕ) (hs : scale ∈ [1, 2, 3])
    (ht : NonnegDict totals) (hk : PosDict ks) (hreq : HasKs totals ks scale)
    (hw : ks.has "k_water" = true) (A : ℝ) :
    ∃! p : ℝ, alkalinity (fin p) totals ks scale = .ok (fin A) := by
  have hkw : 0 < (Sol.of totals ks).kw := by
    obtain ⟨v, hv⟩ := Dict.has_iff.mp hw
    obtain ⟨r, hr, rfl⟩ := hk _ _ hv
    show 0 < rval ks 0 "k_water"
    rw [rval_some hv]; exact hr
  obtain ⟨h, hh, hA⟩ := Sol.alk_exists (Sol.of_valid ht hk) hkw scale A
  refine ⟨-Real.logb 10 h, ?_, ?_⟩
  · simp only
    rw [alkalinity_eq_spec hs ht hk hreq, neg_neg, Real.rpow_logb (by norm_num) (by norm_num) hh, hA]
  · intro q hq
    simp only [alkalinity_eq_spec hs ht hk hreq, Except.ok.injEq, fin_inj] at hq
    have hpow : (0 : ℝ) < (10 : ℝ) ^ (-q) := by positivity
    have : (10 : ℝ) ^ (-q) = h := by
      rcases lt_trichotomy ((10 : ℝ) ^ (-q)) h with hlt | heq | hgt
      · have := Sol.alk_strictAnti (Sol.of_valid ht hk) scale hpow hlt
        rw [hq, hA] at this; exact absurd this (lt_irrefl _)
      · exact heq
      · have := Sol.alk_strictAnti (Sol.of_valid ht hk) scale hh hgt
        rw [hq, hA] at this; exact absurd this (lt_irrefl _)
    rw [← this, Real.logb_rpow (by norm_num) (by norm_num), neg_neg]

example : ∃! p : ℝ, alkalinity (fin p) exTotals exKs 3 = .ok (fin 2.3e-3) :=
  C10_existsUnique_pH _ _ 3 (by simp) exTotals_nonneg exKs_pos exHasKs
    (by simp [exKs, Dict.has, Dict.get?]) _

/-- C10: without a water constant uniqueness still holds but existence fails: alkalinities
above the total base capacity are never reached. -/
theorem C10_water_needed : ¬ ∃ p : ℝ, alkalinity (fin p) [] [] 3 = .ok (fin 0) := by
  rintro ⟨p, hp⟩
  rw [alkalinity_eq_spec (by simp) (by intro k v hv; simp at hv) (by intro k v hv; simp at hv)
    (by intro r _ h; simp [Dict.has] at h)] at hp
  have : (0 : ℝ) < (10 : ℝ) ^ (-p) := by positivity
  simp [Sol.alk, Sol.of, rval, carbAlk, base, phosAlk, extraAlk, acid] at hp
  linarith

/-! ## C11 -/

/-- C11: adding a total with value zero changes nothing. -/
theorem C11_absent_eq_zero (totals ks : Dict Flt) (scale : ℕ) (hs : scale ∈ [1, 2, 3])
    (ht : NonnegDict totals) (hk : PosDict ks) (t : String) (hnone : totals.get? t = none)
    (hreq : HasKs (totals.set t (fin 0)) ks scale) (p : ℝ) :
    alkalinity (fin p) (totals.set t (fin 0)) ks scale = alkalinity (fin p) totals ks scale := by
  have ht' : NonnegDict (totals.set t (fin 0)) := by
    intro k v hv
    rw [Dict.get?_set] at hv
    split at hv
    · simp only [Option.some.injEq] at hv; exact ⟨0, le_rfl, hv.symm⟩
    · exact ht k v hv
  have hreq' : HasKs totals ks scale := by
    intro r hr h
    apply hreq r hr
    rw [Dict.has_iff] at h ⊢
    obtain ⟨v, hv⟩ := h
    rw [Dict.get?_set]
    split
    · exact ⟨_, rfl⟩
    · exact ⟨v, hv⟩
  rw [alkalinity_eq_spec hs ht' hk hreq, alkalinity_eq_spec hs ht hk hreq']
  have hr : ∀ k, rval (totals.set t (fin 0)) 0 k = rval totals 0 k := by
    intro k
    unfold rval
    rw [Dict.get?_set]
    split
    · rename_i r hr
      split at hr
      · rename_i hkt; subst hkt; simp at hr; rw [hnone]; simp [hr]
      · rw [hr]
    · rename_i hr
      split at hr
      · exact absurd rfl (hr 0)
      · rename_i hkt
        split
        · rename_i r hr'; exact absurd hr' (hr r)
        · rfl
  simp only [Sol.of, hr]

/-- C11: an invalid pH scale raises `AssertionError`, whatever else is passed. -/
theorem C11_bad_scale (p : Flt) (totals ks : Dict Flt) (scale : ℕ) (hs : scale ∉ [1, 2, 3]) :
    alkalinity p totals ks scale = .error .AssertionError := by
  rcases components_err p totals ks scale with ⟨-, h⟩ | ⟨h, -⟩ | ⟨h, -⟩
  · simp [alkalinity, h, bind_error]
  · exact absurd h hs
  · exact absurd h hs

/-- C11: on a valid scale the calculation succeeds exactly when every total present has its
constants, for any values whatsoever (including NaN). -/
theorem C11_succeeds_iff (p : Flt) (totals ks : Dict Flt) (scale : ℕ) (hs : scale ∈ [1, 2, 3]) :
    (∃ a, alkalinity p totals ks scale = .ok a) ↔ HasKs totals ks scale := by
  rcases components_err p totals ks scale with ⟨h, -⟩ | ⟨-, h, c, hc⟩ | ⟨-, r, hr, h1, h2, h3⟩
  · exact absurd hs h
  · obtain ⟨ts, hts⟩ := alk_terms_components hc
    exact ⟨fun _ => h, fun _ => ⟨npSum ts, by simp [alkalinity, hc, hts, bind_ok, pure_ok]⟩⟩
  · constructor
    · rintro ⟨a, ha⟩; simp [alkalinity, h3, bind_error] at ha
    · intro h; rw [h r hr h1] at h2; simp at h2

/-- C11: otherwise it raises `KeyError` naming a constant that is needed and missing. -/
theorem C11_missing_constant (p : Flt) (totals ks : Dict Flt) (scale : ℕ)
    (hs : scale ∈ [1, 2, 3]) (hno : ¬ HasKs totals ks scale) :
    ∃ t k, (t, k) ∈ requiredKs scale ∧ totals.has t = true ∧ ks.has k = false ∧
      alkalinity p totals ks scale = .error (.KeyError k) := by
  rcases components_err p totals ks scale with ⟨h, -⟩ | ⟨-, h, -⟩ | ⟨-, r, hr, h1, h2, h3⟩
  · exact absurd hs h
  · exact absurd h hno
  · exact ⟨r.1, r.2, hr, h1, h2, by simp [alkalinity, h3, bind_error]⟩

example : alkalinity (fin 4) [("total_borate", fin 4e-4)] [] 3 = .error (.KeyError "k_borate") := by
  obtain ⟨t, k, h1, h2, h3, h4⟩ := C11_missing_constant (fin 4) [("total_borate", fin 4e-4)] [] 3
    (by simp) (fun h => by
      have := h ("total_borate", "k_borate") (by simp [requiredKs]) (by simp [Dict.has, Dict.get?])
      simp [Dict.has] at this)
  have ht : t = "total_borate" := by
    obtain ⟨v, hv⟩ := Dict.has_iff.mp h2
    by_contra hne
    rw [Dict.get?_cons, if_neg (Ne.symm hne)] at hv; simp at hv
  subst ht
  have : k = "k_borate" := by
    simp only [requiredKs, List.mem_append, List.mem_cons, Prod.mk.injEq, List.not_mem_nil] at h1
    simpa using h1
  rw [h4, this]

example : alkalinity (fin 3.7) (exTotals.set "total_sulfide" (fin 0)) (exKs.set "k_sulfide" (fin 1e-7)) 3
    = alkalinity (fin 3.7) exTotals (exKs.set "k_sulfide" (fin 1e-7)) 3 := by
  apply C11_absent_eq_zero _ _ _ (by simp) exTotals_nonneg
  · intro k v hv
    rw [Dict.get?_set] at hv
    split at hv
    · simp only [Option.some.injEq] at hv; exact ⟨1e-7, by norm_num, hv.symm⟩
    · exact exKs_pos k v hv
  · simp [exTotals, Dict.get?]
  · intro r hr h
    simp only [requiredKs, List.mem_append, List.mem_cons, List.not_mem_nil, or_false] at hr
    rcases hr with (hr | hr) | hr
    · rcases hr with rfl | rfl | rfl | rfl | rfl | rfl | rfl | rfl | rfl | rfl | rfl <;>
        first
        | (simp [exKs, Dict.has, Dict.get?, Dict.set]; done)
        | (simp [exTotals, Dict.has, Dict.get?, Dict.set] at h)
    · simp at hr; subst hr; simp [exKs, Dict.has, Dict.get?, Dict.set]
    · simp at hr; subst hr; simp [exKs, Dict.has, Dict.get?, Dict.set]

end Calk
