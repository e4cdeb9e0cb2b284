import Verif.Props.Simulate

/-!
# Property C12: pH scales (`calkulate/simulate.py`)

`c = 1 + TSO4/KSO4` is the ratio of Total-scale to Free-scale hydrogen ion content.  A
Total-scale constant is `c` times the Free-scale one (HSO4- itself stays on the Free scale).
-/

namespace Calk
open Flt Spec

/-- Convert Free-scale constants to the scale on which `[H+]` is `c` times larger. -/
noncomputable def rescaleKs (c : ℝ) (ks : Dict Flt) : Dict Flt :=
  ks.mapKV fun k v => if k = "k_bisulfate" then v else v * fin c

theorem rescale_pos {ks : Dict Flt} {c : ℝ} (hc : 0 < c) (hk : PosDict ks) :
    PosDict (rescaleKs c ks) := by
  intro k v hv
  simp only [rescaleKs, Dict.get?_mapKV, Option.map_eq_some_iff] at hv
  obtain ⟨a, ha, rfl⟩ := hv
  obtain ⟨r, hr, rfl⟩ := hk k a ha
  split
  · exact ⟨r, hr, rfl⟩
  · exact ⟨r * c, by positivity, by simp⟩

theorem rescale_has {ks : Dict Flt} {c : ℝ} (k : String) :
    (rescaleKs c ks).has k = ks.has k := by
  simp [Dict.has, rescaleKs, Dict.get?_mapKV]

theorem rescale_get? {ks : Dict Flt} {c : ℝ} {k : String} (hne : k ≠ "k_bisulfate") {r : ℝ}
    (h : ks.get? k = some (fin r)) : (rescaleKs c ks).get? k = some (fin (r * c)) := by
  simp [rescaleKs, Dict.get?_mapKV, h, hne]

theorem rescale_get?_none {ks : Dict Flt} {c : ℝ} {k : String}
    (h : ks.get? k = none) : (rescaleKs c ks).get? k = none := by
  simp [rescaleKs, Dict.get?_mapKV, h]

/-- An additional acid stays on the same side of the zero level of protons. -/
def SameSide (c : ℝ) (totals ks : Dict Flt) (total k : String) : Prop :=
  totals.has total = true → ∀ K : ℝ, ks.get? k = some (fin K) →
    (-Real.logb 10 K ≤ 4.5 ↔ -Real.logb 10 (K * c) ≤ 4.5)

section blocks
variable {h c : ℝ} {totals ks : Dict Flt}

theorem blk_water_rescale (hh : 0 < h) (hc : 0 < c) (hk : PosDict ks) :
    blk_water (fin (h * c)) (rescaleKs c ks) = blk_water (fin h) ks := by
  have hhc : h * c ≠ 0 := by positivity
  unfold blk_water
  cases hg : ks.get? "k_water" with
  | none => rw [rescale_get?_none hg]
  | some v =>
    obtain ⟨r, hr, rfl⟩ := hk _ _ hg
    rw [rescale_get? (by decide) hg]
    simp only [div_fin _ _ hhc, div_fin _ _ hh.ne']
    congr 4
    field_simp

theorem blk_mono_rescale (hh : 0 < h) (hc : 0 < c) (ht : NonnegDict totals) (hk : PosDict ks)
    {total k name : String} (hne : k ≠ "k_bisulfate") :
    blk_mono (fin (h * c)) totals (rescaleKs c ks) total k name
      = blk_mono (fin h) totals ks total k name := by
  unfold blk_mono
  cases hT : totals.get? total with
  | none => rfl
  | some v =>
    obtain ⟨T, hT0, rfl⟩ := ht _ _ hT
    cases hg : ks.get? k with
    | none => simp [Dict.get, rescale_get?_none hg, hg]
    | some w =>
      obtain ⟨K, hK, rfl⟩ := hk _ _ hg
      have h1 : K * c + h * c ≠ 0 := by positivity
      have h2 : K + h ≠ 0 := by positivity
      simp only [Dict.get, rescale_get? hne hg, hg, bind_ok, pure_ok, mul_fin, add_fin,
        div_fin _ _ h1, div_fin _ _ h2]
      congr 4
      field_simp

theorem blk_proton_rescale (hh : 0 < h) (hc : 0 < c) (ht : NonnegDict totals) (hk : PosDict ks)
    {on : Bool} {total k name : String} (hne : k ≠ "k_bisulfate") :
    blk_proton on (fin (h * c)) totals (rescaleKs c ks) total k name
      = blk_proton on (fin h) totals ks total k name := by
  unfold blk_proton
  cases on with
  | false => rfl
  | true =>
  simp only [if_true]
  cases hT : totals.get? total with
  | none => rfl
  | some v =>
    obtain ⟨T, hT0, rfl⟩ := ht _ _ hT
    cases hg : ks.get? k with
    | none => simp [Dict.get, rescale_get?_none hg, hg]
    | some w =>
      obtain ⟨K, hK, rfl⟩ := hk _ _ hg
      have h1 : K * c + h * c ≠ 0 := by positivity
      have h2 : K + h ≠ 0 := by positivity
      simp only [Dict.get, rescale_get? hne hg, hg, bind_ok, pure_ok, mul_fin, add_fin,
        div_fin _ _ h1, div_fin _ _ h2]
      congr 4
      field_simp

theorem blk_extra_rescale (hh : 0 < h) (hc : 0 < c) (ht : NonnegDict totals) (hk : PosDict ks)
    {total k name : String} (hne : k ≠ "k_bisulfate") (hside : SameSide c totals ks total k) :
    blk_extra (fin (h * c)) totals (rescaleKs c ks) total k name
      = blk_extra (fin h) totals ks total k name := by
  unfold blk_extra
  cases hT : totals.get? total with
  | none => rfl
  | some v =>
    obtain ⟨T, hT0, rfl⟩ := ht _ _ hT
    cases hg : ks.get? k with
    | none => simp [Dict.get, rescale_get?_none hg, hg]
    | some w =>
      obtain ⟨K, hK, rfl⟩ := hk _ _ hg
      have hs := hside (has_true_of_some hT) K hg
      have h1 : K * c + h * c ≠ 0 := by positivity
      have h2 : K + h ≠ 0 := by positivity
      have hKc : 0 < K * c := by positivity
      have he : T * (K * c) / (K * c + h * c) = T * K / (K + h) := by field_simp
      simp only [Dict.get, rescale_get? hne hg, hg, bind_ok, pure_ok, mul_fin, add_fin,
        div_fin _ _ h1, div_fin _ _ h2, log10_fin _ hK, log10_fin _ hKc, neg_fin, le_fin, sub_fin,
        decide_eq_true_eq, show (zlp : ℝ) = 4.5 from rfl, hs, he]

theorem blk_carbonate_rescale (hh : 0 < h) (hc : 0 < c) (ht : NonnegDict totals) (hk : PosDict ks) :
    blk_carbonate (fin (h * c)) totals (rescaleKs c ks) = blk_carbonate (fin h) totals ks := by
  unfold blk_carbonate
  cases hT : totals.get? "dic" with
  | none => rfl
  | some v =>
    obtain ⟨T, hT0, rfl⟩ := ht _ _ hT
    cases hg : ks.get? "k_carbonic_1" with
    | none => simp [Dict.get, rescale_get?_none hg, hg, bind_error]
    | some w =>
    obtain ⟨K1, hK1, rfl⟩ := hk _ _ hg
    cases hg2 : ks.get? "k_carbonic_2" with
    | none => simp [Dict.get, rescale_get? (by decide) hg, hg, rescale_get?_none hg2, hg2, bind_ok]
    | some w2 =>
    obtain ⟨K2, hK2, rfl⟩ := hk _ _ hg2
    have a1 : h * c ≠ 0 := by positivity
    have a2 : (h * c) ^ 2 ≠ 0 := by positivity
    have a3 : h ^ 2 ≠ 0 := by positivity
    have e1 : K1 * c / (h * c) = K1 / h := by field_simp
    have e2 : K1 * c * (K2 * c) / (h * c) ^ 2 = K1 * K2 / h ^ 2 := by field_simp
    have a4 : 1 + K1 / h + K1 * K2 / h ^ 2 ≠ 0 := by positivity
    have e3 : ∀ x K : ℝ, K * c * x / (h * c) = K * x / h := by intro x K; field_simp
    simp only [Dict.get, rescale_get? (by decide) hg, hg, rescale_get? (by decide) hg2, hg2,
      bind_ok, pure_ok, mul_fin, add_fin, fpow_fin, div_fin _ _ a1, div_fin _ _ hh.ne',
      div_fin _ _ a2, div_fin _ _ a3, e1, e2, div_fin _ _ a4, e3]

theorem blk_phosphate_rescale (hh : 0 < h) (hc : 0 < c) (ht : NonnegDict totals) (hk : PosDict ks) :
    blk_phosphate (fin (h * c)) totals (rescaleKs c ks) = blk_phosphate (fin h) totals ks := by
  unfold blk_phosphate
  cases hT : totals.get? "total_phosphate" with
  | none => rfl
  | some v =>
    obtain ⟨T, hT0, rfl⟩ := ht _ _ hT
    cases hg : ks.get? "k_phosphoric_1" with
    | none => simp [Dict.get, rescale_get?_none hg, hg, bind_error]
    | some w =>
    obtain ⟨K1, hK1, rfl⟩ := hk _ _ hg
    cases hg2 : ks.get? "k_phosphoric_2" with
    | none => simp [Dict.get, rescale_get? (by decide) hg, hg, rescale_get?_none hg2, hg2, bind_ok, bind_error]
    | some w2 =>
    obtain ⟨K2, hK2, rfl⟩ := hk _ _ hg2
    cases hg3 : ks.get? "k_phosphoric_3" with
    | none => simp [Dict.get, rescale_get? (by decide) hg, hg, rescale_get? (by decide) hg2, hg2,
                rescale_get?_none hg3, hg3, bind_ok]
    | some w3 =>
    obtain ⟨K3, hK3, rfl⟩ := hk _ _ hg3
    have a1 : (h * c) ^ 3 + K1 * c * (h * c) ^ 2 + K1 * c * (K2 * c) * (h * c)
        + K1 * c * (K2 * c) * (K3 * c) ≠ 0 := by positivity
    have a2 : h ^ 3 + K1 * h ^ 2 + K1 * K2 * h + K1 * K2 * K3 ≠ 0 := by positivity
    have e0 : (h * c) ^ 3 + K1 * c * (h * c) ^ 2 + K1 * c * (K2 * c) * (h * c)
        + K1 * c * (K2 * c) * (K3 * c) = c ^ 3 * (h ^ 3 + K1 * h ^ 2 + K1 * K2 * h + K1 * K2 * K3) := by
      ring
    simp only [Dict.get, rescale_get? (by decide) hg, hg, rescale_get? (by decide) hg2, hg2,
      rescale_get? (by decide) hg3, hg3,
      bind_ok, pure_ok, mul_fin, add_fin, fpow_fin, div_fin _ _ a1, div_fin _ _ a2]
    rw [e0]
    refine congrArg Except.ok ?_
    simp only [List.cons.injEq, Prod.mk.injEq, fin_inj, true_and, and_true]
    refine ⟨?_, ?_, ?_⟩
    · field_simp
    · field_simp
    · field_simp

end blocks

/-- C12: on the Total scale (scale 1) with Total-scale `[H+]` and constants, every component
other than `H` and `HSO4` is identical to the Free-scale value; `HSO4` is not reported. -/
theorem C12_components (totals ks c1 c3 : Dict Flt) (c p q : ℝ) (hc : 0 < c)
    (ht : NonnegDict totals) (hk : PosDict ks) (hq : (10 : ℝ) ^ (-q) = (10 : ℝ) ^ (-p) * c)
    (ha : SameSide c totals ks "total_alpha" "k_alpha")
    (hb : SameSide c totals ks "total_beta" "k_beta")
    (h1 : alkalinity_components (fin q) totals (rescaleKs c ks) 1 = .ok c1)
    (h3 : alkalinity_components (fin p) totals ks 3 = .ok c3) (name : String)
    (hn : name ≠ "H") (hn' : name ≠ "HSO4") :
    c1.get? name = c3.get? name ∧ c1.get? "HSO4" = none := by
  obtain ⟨a1, a2, a3, a4, a5, a6, a7, a8, a9, a10, a11, -, x1, x2, x3, x4, x5, x6, x7, x8, x9,
    x10, x11, rfl⟩ := components_blocks h1
  obtain ⟨b1, b2, b3, b4, b5, b6, b7, b8, b9, b10, b11, -, y1, y2, y3, y4, y5, y6, y7, y8, y9,
    y10, y11, rfl⟩ := components_blocks h3
  have hh : (0 : ℝ) < (10 : ℝ) ^ (-p) := by positivity
  simp only [neg_fin, pow10_fin, hq] at x1 x2 x3 x4 x5 x6 x7 x8 x9 x10 y1 y2 y3 y4 y5 y6 y7 y8 y9 y10
  rw [blk_water_rescale hh hc hk, y1] at x1
  rw [blk_carbonate_rescale hh hc ht hk, y2] at x2
  rw [blk_mono_rescale hh hc ht hk (by decide), y3] at x3
  rw [blk_phosphate_rescale hh hc ht hk, y4] at x4
  rw [blk_mono_rescale hh hc ht hk (by decide), y5] at x5
  rw [blk_mono_rescale hh hc ht hk (by decide), y6] at x6
  rw [blk_mono_rescale hh hc ht hk (by decide), y7] at x7
  rw [blk_extra_rescale hh hc ht hk (by decide) ha, y8] at x8
  rw [blk_extra_rescale hh hc ht hk (by decide) hb, y9] at x9
  rw [blk_proton_rescale hh hc ht hk (by decide)] at x10
  simp only [List.mem_cons, List.not_mem_nil, or_false, true_or, or_true, decide_true]
    at x10 y10
  rw [y10] at x10
  simp only [Except.ok.injEq] at x1 x2 x3 x4 x5 x6 x7 x8 x9 x10
  subst x1 x2 x3 x4 x5 x6 x7 x8 x9 x10
  have x11' : a11 = [] := by simpa [blk_proton] using x11.symm
  subst x11'
  constructor
  · have n11 : b11.get? name = none := blk_proton_none y11 hn'
    simp [Dict.get?_append, Dict.get?_cons, n11, Ne.symm hn]
  · obtain ⟨_, _, _, _, _, _, _, _, _, _, z, -, -, -, -, -, -, -, -, -, -, -, hz, -, -, -, -, -, -, -,
      -, -, -, -, -, -, -, -, hS⟩ := components_lookup h1
    have : z = [] := by simpa [blk_proton] using hz.symm
    rw [hS, this]; rfl

theorem rval_rescale {ks : Dict Flt} {c : ℝ} (hk : PosDict ks) {k : String}
    (hne : k ≠ "k_bisulfate") (hhas : ks.has k = true) (d : ℝ) :
    rval (rescaleKs c ks) d k = rval ks d k * c := by
  obtain ⟨v, hv⟩ := Dict.has_iff.mp hhas
  obtain ⟨r, hr, rfl⟩ := hk _ _ hv
  rw [rval_some hv, rval_some (rescale_get? hne hv)]

/-- C12: Total-scale alkalinity is the Free-scale alkalinity minus exactly the higher-order
sulfate term `TS h^2 / (KS (KS + h))`, `h` being the free hydrogen ion content. -/
theorem C12_total_scale (totals ks : Dict Flt) (p q TS KS : ℝ) (ht : NonnegDict totals)
    (hk : PosDict ks) (hreq : HasKs totals ks 3)
    (hTS : totals.get? "total_sulfate" = some (fin TS))
    (hKS : ks.get? "k_bisulfate" = some (fin KS))
    (hq : (10 : ℝ) ^ (-q) = (10 : ℝ) ^ (-p) * (1 + TS / KS))
    (ha : SameSide (1 + TS / KS) totals ks "total_alpha" "k_alpha")
    (hb : SameSide (1 + TS / KS) totals ks "total_beta" "k_beta") :
    ∃ a : ℝ, alkalinity (fin p) totals ks 3 = .ok (fin a) ∧
      alkalinity (fin q) totals (rescaleKs (1 + TS / KS) ks) 1
        = .ok (fin (a - TS * ((10 : ℝ) ^ (-p)) ^ 2 / (KS * (KS + (10 : ℝ) ^ (-p))))) := by
  obtain ⟨_, hTS0, he⟩ := ht _ _ hTS
  simp only [fin_inj] at he; subst he
  obtain ⟨_, hKS0, he⟩ := hk _ _ hKS
  simp only [fin_inj] at he; subst he
  set c := 1 + TS / KS with hcdef
  have hc : 0 < c := by positivity
  set h := (10 : ℝ) ^ (-p) with hhdef
  have hh : 0 < h := by positivity
  have hreq1 : HasKs totals (rescaleKs c ks) 1 := by
    intro r hr hT
    rw [rescale_has]
    refine hreq r ?_ hT
    simp only [requiredKs, List.mem_append] at hr ⊢
    rcases hr with (hr | hr) | hr
    · exact Or.inl (Or.inl hr)
    · left; right; simpa using hr
    · simp at hr
  refine ⟨_, alkalinity_eq_spec (by simp) ht hk hreq p, ?_⟩
  rw [alkalinity_eq_spec (by simp) ht (rescale_pos hc hk) hreq1 q, hq]
  refine congrArg (fun x => Except.ok (fin x)) ?_
  -- term by term
  have need : ∀ t k, (t, k) ∈ requiredKs 3 → totals.has t = true → k ≠ "k_bisulfate" →
      rval (rescaleKs c ks) 1 k = rval ks 1 k * c := fun t k hm hT hne =>
    rval_rescale hk hne (hreq (t, k) hm hT) 1
  have zero : ∀ t, totals.has t = false → rval totals 0 t = 0 := by
    intro t hf
    apply rval_none
    cases hg : totals.get? t with
    | none => rfl
    | some v => rw [has_true_of_some hg] at hf; simp at hf
  have hbase : ∀ t k, (t, k) ∈ requiredKs 3 → k ≠ "k_bisulfate" →
      base (rval totals 0 t) (rval (rescaleKs c ks) 1 k) (h * c)
        = base (rval totals 0 t) (rval ks 1 k) h := by
    intro t k hm hne
    cases hT : totals.has t with
    | false => rw [zero t hT]; simp [base]
    | true =>
      rw [need t k hm hT hne]
      have := rval_pos hk k
      unfold base; field_simp
  have hacid : ∀ t k, (t, k) ∈ requiredKs 3 → k ≠ "k_bisulfate" →
      acid (rval totals 0 t) (rval (rescaleKs c ks) 1 k) (h * c)
        = acid (rval totals 0 t) (rval ks 1 k) h := by
    intro t k hm hne
    cases hT : totals.has t with
    | false => rw [zero t hT]; simp [acid]
    | true =>
      rw [need t k hm hT hne]
      have := rval_pos hk k
      unfold acid; field_simp
  have hextra : ∀ t k, (t, k) ∈ requiredKs 3 → k ≠ "k_bisulfate" → SameSide c totals ks t k →
      extraAlk (rval totals 0 t) (rval (rescaleKs c ks) 1 k) (h * c)
        = extraAlk (rval totals 0 t) (rval ks 1 k) h := by
    intro t k hm hne hside
    unfold extraAlk
    rw [hbase t k hm hne, hacid t k hm hne]
    cases hT : totals.has t with
    | false => rw [zero t hT]; simp [base, acid]
    | true =>
      rw [need t k hm hT hne]
      obtain ⟨v, hv⟩ := Dict.has_iff.mp (hreq (t, k) hm hT)
      obtain ⟨r, hr, rfl⟩ := hk _ _ hv
      rw [rval_some hv]
      simp only [hside hT r hv]
  have hkw : rval (rescaleKs c ks) 0 "k_water" / (h * c) = rval ks 0 "k_water" / h := by
    cases hT : ks.has "k_water" with
    | false =>
      have : ks.get? "k_water" = none := by
        cases hg : ks.get? "k_water" with
        | none => rfl
        | some v => rw [has_true_of_some hg] at hT; simp at hT
      rw [rval_none this, rval_none (rescale_get?_none this)]; simp
    | true => rw [rval_rescale hk (by decide) hT]; field_simp
  have hcarb : carbAlk (rval totals 0 "dic") (rval (rescaleKs c ks) 1 "k_carbonic_1")
      (rval (rescaleKs c ks) 1 "k_carbonic_2") (h * c)
      = carbAlk (rval totals 0 "dic") (rval ks 1 "k_carbonic_1") (rval ks 1 "k_carbonic_2") h := by
    cases hT : totals.has "dic" with
    | false => rw [zero _ hT]; simp [carbAlk]
    | true =>
      rw [need "dic" _ (by simp [requiredKs]) hT (by decide),
        need "dic" _ (by simp [requiredKs]) hT (by decide)]
      have h1 := rval_pos hk "k_carbonic_1"
      have h2 := rval_pos hk "k_carbonic_2"
      generalize rval ks 1 "k_carbonic_1" = K1 at *
      generalize rval ks 1 "k_carbonic_2" = K2 at *
      unfold carbAlk
      rw [div_eq_div_iff (by positivity) (by positivity)]
      ring
  have hphos : phosAlk (rval totals 0 "total_phosphate") (rval (rescaleKs c ks) 1 "k_phosphoric_1")
      (rval (rescaleKs c ks) 1 "k_phosphoric_2") (rval (rescaleKs c ks) 1 "k_phosphoric_3") (h * c)
      = phosAlk (rval totals 0 "total_phosphate") (rval ks 1 "k_phosphoric_1")
        (rval ks 1 "k_phosphoric_2") (rval ks 1 "k_phosphoric_3") h := by
    cases hT : totals.has "total_phosphate" with
    | false => rw [zero _ hT]; simp [phosAlk]
    | true =>
      rw [need "total_phosphate" _ (by simp [requiredKs]) hT (by decide),
        need "total_phosphate" _ (by simp [requiredKs]) hT (by decide),
        need "total_phosphate" _ (by simp [requiredKs]) hT (by decide)]
      have h1 := rval_pos hk "k_phosphoric_1"
      have h2 := rval_pos hk "k_phosphoric_2"
      have h3 := rval_pos hk "k_phosphoric_3"
      generalize rval ks 1 "k_phosphoric_1" = K1 at *
      generalize rval ks 1 "k_phosphoric_2" = K2 at *
      generalize rval ks 1 "k_phosphoric_3" = K3 at *
      unfold phosAlk
      rw [div_eq_div_iff (by positivity) (by positivity)]
      ring
  have hso4 : acid (rval totals 0 "total_sulfate") (rval ks 1 "k_bisulfate") h
      = TS * h / (KS + h) := by rw [rval_some hTS, rval_some hKS]; rfl
  simp only [Sol.alk, Sol.of]
  rw [hkw, hcarb, hphos, hbase _ _ (by simp [requiredKs]) (by decide),
    hbase _ _ (by simp [requiredKs]) (by decide), hbase _ _ (by simp [requiredKs]) (by decide),
    hbase _ _ (by simp [requiredKs]) (by decide), hacid _ _ (by simp [requiredKs]) (by decide),
    hextra _ _ (by simp [requiredKs]) (by decide) ha,
    hextra _ _ (by simp [requiredKs]) (by decide) hb, hso4]
  have key : h * c = h + TS * h / (KS + h) + TS * h ^ 2 / (KS * (KS + h)) := by
    rw [hcdef]; field_simp; ring
  rw [key]
  simp
  ring

/-- C12: the `SameSide` hypothesis is needed: an additional acid whose pK is above 4.5 on the
Free scale and at most 4.5 on the Total scale changes the result by its whole total. -/
theorem C12_threshold_jump (T K h c : ℝ) (hK : 0 < K) (hh : 0 < h) (hc : 0 < c)
    (hfree : 4.5 < -Real.logb 10 K) (htot : -Real.logb 10 (K * c) ≤ 4.5) :
    extraAlk T (K * c) (h * c) = extraAlk T K h - T := by
  unfold extraAlk
  rw [if_pos htot, if_neg (not_le.mpr hfree)]
  unfold base acid
  field_simp
  ring

example : ∃ a : ℝ, alkalinity (fin 3) exTotals exKs 3 = .ok (fin a) ∧
      alkalinity (fin (-Real.logb 10 ((10 : ℝ) ^ (-3 : ℝ) * (1 + 0.028 / 0.1)))) exTotals
        (rescaleKs (1 + 0.028 / 0.1) exKs) 1
        = .ok (fin (a - 0.028 * ((10 : ℝ) ^ (-3 : ℝ)) ^ 2 / (0.1 * (0.1 + (10 : ℝ) ^ (-3 : ℝ))))) := by
  apply C12_total_scale exTotals exKs 3 _ 0.028 0.1 exTotals_nonneg exKs_pos exHasKs
  · simp [exTotals, Dict.get?]
  · simp [exKs, Dict.get?]
  · rw [neg_neg, Real.rpow_logb (by norm_num) (by norm_num) (by positivity)]
  · intro _ K hK
    have : K = 1e-4 := by simpa [exKs, Dict.get?, eq_comm] using hK
    subst this
    have h1 : -Real.logb 10 (1e-4 : ℝ) = 4 := by
      rw [show (1e-4 : ℝ) = (10 : ℝ) ^ (-4 : ℝ) by rw [Real.rpow_neg (by norm_num)]; norm_num,
        Real.logb_rpow (by norm_num) (by norm_num)]; norm_num
    have h2 : -Real.logb 10 (1e-4 * (1 + 0.028 / 0.1) : ℝ) ≤ -Real.logb 10 (1e-4 : ℝ) := by
      apply neg_le_neg
      exact Real.logb_le_logb_of_le (by norm_num) (by norm_num) (by norm_num)
    constructor
    · intro _; linarith
    · intro _; rw [h1]; norm_num
  · intro hT; simp [exTotals, Dict.has, Dict.get?] at hT

end Calk
