import Verif.Lemmas.Rounded

/-! Helper lemmas: rounding in `simulate.alkalinity` and `solve_pH`. -/

namespace Calk
open Flt Spec

/-- Sum of the sizes of the terms of the alkalinity at `h = 10^-pH`: every species counted
positively, and twice the total of an additional acid. -/
noncomputable def Spec.Sol.size (s : Sol) (h : ℝ) : ℝ :=
  h + s.kw / h + carbAlk s.dic s.k1 s.k2 h + base s.tb s.kb h
    + s.tp * (s.kp1 * s.kp2 * h + 2 * (s.kp1 * s.kp2 * s.kp3) + h ^ 3)
        / (h ^ 3 + s.kp1 * h ^ 2 + s.kp1 * s.kp2 * h + s.kp1 * s.kp2 * s.kp3)
    + base s.tsi s.ksi h + base s.tnh3 s.knh3 h + base s.th2s s.kh2s h
    + 2 * s.ta + 2 * s.tbeta + acid s.tf s.kf h + acid s.ts s.ks h

/-- number of roundings a term of the alkalinity goes through at most -/
def termDepth (e : ℕ) : ℕ := 10 * e + 12

/-- `c` contributes `x`, up to rounding, in at most `n` terms of total size at most `M`. -/
def ContribF (F : Arith) (u : ℝ) (e n : ℕ) (c : Dict Flt) (x M : ℝ) : Prop :=
  ∃ (ts : List Flt) (es : List (ℝ × ℝ)), alk_termsF F c = .ok ts ∧
    List.Forall₂ (fun v (p : ℝ × ℝ) => FErr (1 / (1 - u)) (termDepth e) p.2 v p.1) ts es ∧
    es.length ≤ n ∧ (es.map Prod.fst).sum = x ∧ (es.map Prod.snd).sum ≤ M

theorem alk_termsF_append (F : Arith) (c d : Dict Flt) :
    alk_termsF F (c ++ d) = (do let a ← alk_termsF F c; let b ← alk_termsF F d; return a ++ b) := by
  induction c with
  | nil =>
    simp only [List.nil_append, alk_termsF, bind_ok]
    cases alk_termsF F d <;> rfl
  | cons kv c ih =>
    obtain ⟨k, v⟩ := kv
    simp only [List.cons_append, alk_termsF, ih]
    cases component_multipliers.get k with
    | error e => rfl
    | ok m =>
      simp only [bind_ok]
      cases alk_termsF F c with
      | error e => rfl
      | ok a =>
        simp only [bind_ok]
        cases alk_termsF F d <;> rfl

section
variable {F : Arith} {u : ℝ} {e : ℕ}

theorem ContribF.nil (n : ℕ) : ContribF F u e n [] 0 0 :=
  ⟨[], [], rfl, .nil, by simp, by simp, by simp⟩

theorem ContribF.append {n m : ℕ} {c d : Dict Flt} {x y M N : ℝ} (hc : ContribF F u e n c x M)
    (hd : ContribF F u e m d y N) : ContribF F u e (n + m) (c ++ d) (x + y) (M + N) := by
  obtain ⟨ts, es, h1, h2, h3, h4, h5⟩ := hc
  obtain ⟨ts', es', g1, g2, g3, g4, g5⟩ := hd
  refine ⟨ts ++ ts', es ++ es', by rw [alk_termsF_append, h1, g1]; rfl, List.rel_append h2 g2, ?_, ?_, ?_⟩
  · simp; omega
  · simp [h4, g4]
  · simp only [List.map_append, List.sum_append]; linarith

variable (hF : Accurate F u e)
include hF

theorem ContribF.one {name : String} {m : ℝ} (h : component_multipliers.get? name = some m)
    {k : ℕ} {M x : ℝ} {v : Flt} (hv : FErr (1 / (1 - u)) k M v x) (hk : k + 1 ≤ termDepth e) :
    ContribF F u e 1 [(name, v)] (x * m) (M * |m|) := by
  have h' := Dict.get_ok_iff.mpr h
  refine ⟨[F.mul v (fin m)], [(x * m, M * |m|)], ?_, ?_, by simp, by simp, by simp⟩
  · simp only [alk_termsF, h', bind_ok]; rfl
  · refine .cons ?_ .nil
    exact hF.ferr_mono (hF.ferr_mul hv (ferr_fin m)) (by simpa using hk) le_rfl

variable {h : ℝ} {hv : Flt} {totals ks : Dict Flt} (hh : FRel (1 / (1 - u)) e hv h)
  (ht : NonnegDict totals) (hk : PosDict ks)
include hh hk

theorem blk_waterF_spec : ∃ c, blk_waterF F hv ks = .ok c ∧
    ContribF F u e 1 c (rval ks 0 "k_water" / h) (rval ks 0 "k_water" / h) := by
  unfold blk_waterF
  cases hkw : ks.get? "k_water" with
  | none =>
    refine ⟨[], rfl, ?_⟩
    rw [rval_none hkw, zero_div]; exact ContribF.nil 1
  | some v =>
    obtain ⟨r, hr, rfl⟩ := hk _ _ hkw
    refine ⟨_, rfl, ?_⟩
    rw [rval_some hkw]
    simpa using ContribF.one hF mult_OH (hF.frel_err (hF.frel_div (frel_fin hr) hh))
      (by unfold termDepth; omega)

include ht

theorem blk_monoF_spec {total k name : String} (hmul : component_multipliers.get? name = some 1)
    (hreq : totals.has total = true → ks.has k = true) :
    ∃ c, blk_monoF F hv totals ks total k name = .ok c ∧
      ContribF F u e 1 c (base (rval totals 0 total) (rval ks 1 k) h)
        (base (rval totals 0 total) (rval ks 1 k) h) := by
  unfold blk_monoF
  cases hT : totals.get? total with
  | none =>
    refine ⟨[], rfl, ?_⟩
    rw [rval_none hT]
    simpa [base] using ContribF.nil 1
  | some v =>
    obtain ⟨T, hT0, rfl⟩ := ht _ _ hT
    obtain ⟨K, hK0, hK, hKr⟩ := get_of_has hk (hreq (by simp [Dict.has, hT]))
    refine ⟨_, by simp only [hK, bind_ok]; rfl, ?_⟩
    rw [rval_some hT, hKr]
    have g := hF.ferr_div (hF.ferr_mul (ferr_nonneg hT0) (hF.frel_err (frel_fin hK0)))
      (hF.frel_add (frel_fin hK0) hh)
    simpa [base] using ContribF.one hF hmul g (by unfold termDepth; omega)

theorem blk_protonF_spec {on : Bool} {total k name : String}
    (hmul : component_multipliers.get? name = some (-1))
    (hreq : on = true → totals.has total = true → ks.has k = true) :
    ∃ c, blk_protonF F on hv totals ks total k name = .ok c ∧
      ContribF F u e 1 c (-(if on = true then acid (rval totals 0 total) (rval ks 1 k) h else 0))
        (acid (rval totals 0 total) (rval ks 1 k) h) := by
  have hh0 : 0 < h := by obtain ⟨y, -, hy⟩ := hh; exact hy.pos
  have hpos : 0 ≤ acid (rval totals 0 total) (rval ks 1 k) h := by
    have := rval_nonneg ht total
    have := rval_pos hk k
    unfold acid; positivity
  unfold blk_protonF
  cases on with
  | false =>
    refine ⟨[], by simp, ?_⟩
    obtain ⟨ts, es, h1, h2, h3, h4, h5⟩ := ContribF.nil (F := F) (u := u) (e := e) 1
    exact ⟨ts, es, h1, h2, h3, by simpa using h4, h5.trans hpos⟩
  | true =>
    simp only [if_true]
    cases hT : totals.get? total with
    | none =>
      refine ⟨[], rfl, ?_⟩
      rw [rval_none hT]
      simpa [acid] using ContribF.nil 1
    | some v =>
      obtain ⟨T, hT0, rfl⟩ := ht _ _ hT
      obtain ⟨K, hK0, hK, hKr⟩ := get_of_has hk (hreq rfl (by simp [Dict.has, hT]))
      refine ⟨_, by simp only [hK, bind_ok]; rfl, ?_⟩
      rw [rval_some hT, hKr]
      have g := hF.ferr_div (hF.ferr_mul (ferr_nonneg hT0) (hF.frel_err hh))
        (hF.frel_add (frel_fin hK0) hh)
      simpa [acid] using ContribF.one hF hmul g (by unfold termDepth; omega)

theorem blk_extraF_spec {total k name : String} (hmul : component_multipliers.get? name = some 1)
    (hreq : totals.has total = true → ks.has k = true)
    (hlog : ∀ K : ℝ, ks.get? k = some (fin K) →
      (-(F.log10 (fin K))).le (fin zlp) = (-(Flt.log10 (fin K))).le (fin zlp)) :
    ∃ c, blk_extraF F hv totals ks total k name = .ok c ∧
      ContribF F u e 1 c (extraAlk (rval totals 0 total) (rval ks 1 k) h)
        (2 * rval totals 0 total) := by
  have hh0 : 0 < h := by obtain ⟨y, -, hy⟩ := hh; exact hy.pos
  unfold blk_extraF
  cases hT : totals.get? total with
  | none =>
    refine ⟨[], rfl, ?_⟩
    rw [rval_none hT]
    have : extraAlk 0 (rval ks 1 k) h = 0 := by simp [extraAlk, base, acid]
    rw [this, mul_zero]; exact ContribF.nil 1
  | some v =>
    obtain ⟨T, hT0, rfl⟩ := ht _ _ hT
    obtain ⟨K, hK0, hK, hKr⟩ := get_of_has hk (hreq (by simp [Dict.has, hT]))
    have hl := hlog K (Dict.get_ok_iff.mp hK)
    refine ⟨_, by simp only [hK, bind_ok, hl]; rfl, ?_⟩
    rw [rval_some hT, hKr, log10_fin _ hK0]
    have g := hF.ferr_div (hF.ferr_mul (ferr_nonneg hT0) (hF.frel_err (frel_fin hK0)))
      (hF.frel_add (frel_fin hK0) hh)
    have hb : T * K / (K + h) ≤ T := by
      rw [div_le_iff₀ (by positivity)]; nlinarith
    have g2 := ferr_neg (hF.ferr_sub (ferr_nonneg hT0) g)
    have e1 : -(T - T * K / (K + h)) = -(acid T K h) := by
      rw [acid_eq hK0 hh0]; rfl
    rw [e1] at g2
    have hfin : FErr (1 / (1 - u)) (termDepth e - 1) (2 * T)
        (if (-(fin (Real.logb 10 K))).le (fin zlp) = true
          then -F.sub (fin T) (F.div (F.mul (fin T) (fin K)) (F.add (fin K) hv))
          else F.div (F.mul (fin T) (fin K)) (F.add (fin K) hv)) (extraAlk T K h) := by
      unfold extraAlk
      simp only [neg_fin, le_fin, decide_eq_true_eq]
      rw [show (zlp : ℝ) = 4.5 from rfl]
      split_ifs
      · exact hF.ferr_mono g2 (by unfold termDepth; omega) (by linarith)
      · exact hF.ferr_mono g (by unfold termDepth; omega) (by linarith)
    simpa using ContribF.one hF hmul hfin (by unfold termDepth; omega)

theorem blk_carbonateF_spec
    (h1 : totals.has "dic" = true → ks.has "k_carbonic_1" = true)
    (h2 : totals.has "dic" = true → ks.has "k_carbonic_2" = true) :
    ∃ c, blk_carbonateF F hv totals ks = .ok c ∧
      ContribF F u e 3 c (carbAlk (rval totals 0 "dic") (rval ks 1 "k_carbonic_1")
        (rval ks 1 "k_carbonic_2") h) (carbAlk (rval totals 0 "dic") (rval ks 1 "k_carbonic_1")
        (rval ks 1 "k_carbonic_2") h) := by
  have hh0 : 0 < h := by obtain ⟨y, -, hy⟩ := hh; exact hy.pos
  unfold blk_carbonateF
  cases hT : totals.get? "dic" with
  | none =>
    refine ⟨[], rfl, ?_⟩
    rw [rval_none hT]
    simpa [carbAlk] using ContribF.nil 3
  | some v =>
    obtain ⟨T, hT0, rfl⟩ := ht _ _ hT
    obtain ⟨K1, hK1, hK1', hK1r⟩ := get_of_has hk (h1 (by simp [Dict.has, hT]))
    obtain ⟨K2, hK2, hK2', hK2r⟩ := get_of_has hk (h2 (by simp [Dict.has, hT]))
    refine ⟨_, by simp only [hK1', hK2', bind_ok]; rfl, ?_⟩
    have gd := hF.frel_add (hF.frel_add (frel_fin one_pos) (hF.frel_div (frel_fin hK1) hh))
      (hF.frel_div (hF.frel_mul (frel_fin hK1) (frel_fin hK2)) (hF.frel_pow hh 2))
    have g1 := hF.ferr_div (ferr_nonneg hT0) gd
    have g2 := hF.ferr_div (hF.ferr_mul (hF.frel_err (frel_fin hK1)) g1) hh
    have g3 := hF.ferr_div (hF.ferr_mul (hF.frel_err (frel_fin hK2)) g2) hh
    have c1 := ContribF.one hF mult_CO2 g1 (by unfold termDepth; omega)
    have c2 := ContribF.one hF mult_HCO3 g2 (by unfold termDepth; omega)
    have c3 := ContribF.one hF mult_CO3 g3 (by unfold termDepth; omega)
    have := (c1.append c2).append c3
    simp only [List.cons_append, List.nil_append] at this
    have hd' : h ^ 2 + K1 * h + K1 * K2 ≠ 0 := by positivity
    convert this using 1
    · rw [rval_some hT, hK1r, hK2r]
      unfold carbAlk
      field_simp
      ring
    · rw [rval_some hT, hK1r, hK2r]
      unfold carbAlk
      simp only [abs_zero, abs_one, abs_two]
      field_simp
      ring

theorem blk_phosphateF_spec
    (h1 : totals.has "total_phosphate" = true → ks.has "k_phosphoric_1" = true)
    (h2 : totals.has "total_phosphate" = true → ks.has "k_phosphoric_2" = true)
    (h3 : totals.has "total_phosphate" = true → ks.has "k_phosphoric_3" = true) :
    ∃ c, blk_phosphateF F hv totals ks = .ok c ∧
      ContribF F u e 3 c (phosAlk (rval totals 0 "total_phosphate") (rval ks 1 "k_phosphoric_1")
        (rval ks 1 "k_phosphoric_2") (rval ks 1 "k_phosphoric_3") h)
        (rval totals 0 "total_phosphate" * (rval ks 1 "k_phosphoric_1" * rval ks 1 "k_phosphoric_2" * h
          + 2 * (rval ks 1 "k_phosphoric_1" * rval ks 1 "k_phosphoric_2" * rval ks 1 "k_phosphoric_3")
          + h ^ 3) / (h ^ 3 + rval ks 1 "k_phosphoric_1" * h ^ 2
            + rval ks 1 "k_phosphoric_1" * rval ks 1 "k_phosphoric_2" * h
            + rval ks 1 "k_phosphoric_1" * rval ks 1 "k_phosphoric_2" * rval ks 1 "k_phosphoric_3")) := by
  have hh0 : 0 < h := by obtain ⟨y, -, hy⟩ := hh; exact hy.pos
  unfold blk_phosphateF
  cases hT : totals.get? "total_phosphate" with
  | none =>
    refine ⟨[], rfl, ?_⟩
    rw [rval_none hT]
    simpa [phosAlk] using ContribF.nil 3
  | some v =>
    obtain ⟨T, hT0, rfl⟩ := ht _ _ hT
    obtain ⟨K1, hK1, hK1', hK1r⟩ := get_of_has hk (h1 (by simp [Dict.has, hT]))
    obtain ⟨K2, hK2, hK2', hK2r⟩ := get_of_has hk (h2 (by simp [Dict.has, hT]))
    obtain ⟨K3, hK3, hK3', hK3r⟩ := get_of_has hk (h3 (by simp [Dict.has, hT]))
    refine ⟨_, by simp only [hK1', hK2', hK3', bind_ok]; rfl, ?_⟩
    have f12 := hF.frel_mul (frel_fin (Q := 1 / (1 - u)) hK1) (frel_fin hK2)
    have gd := hF.frel_add (hF.frel_add (hF.frel_add (hF.frel_pow hh 3)
      (hF.frel_mul (frel_fin hK1) (hF.frel_pow hh 2))) (hF.frel_mul f12 hh))
      (hF.frel_mul f12 (frel_fin hK3))
    have t12 := hF.ferr_mul (hF.ferr_mul (ferr_nonneg (Q := 1 / (1 - u)) hT0)
      (hF.frel_err (frel_fin hK1))) (hF.frel_err (frel_fin hK2))
    have g1 := hF.ferr_div (hF.ferr_mul (ferr_nonneg hT0) (hF.frel_err (hF.frel_pow hh 3))) gd
    have g2 := hF.ferr_div (hF.ferr_mul t12 (hF.frel_err hh)) gd
    have g3 := hF.ferr_div (hF.ferr_mul t12 (hF.frel_err (frel_fin hK3))) gd
    have c1 := ContribF.one hF mult_H3PO4 g1 (by unfold termDepth; omega)
    have c2 := ContribF.one hF mult_HPO4 g2 (by unfold termDepth; omega)
    have c3 := ContribF.one hF mult_PO4 g3 (by unfold termDepth; omega)
    have := (c1.append c2).append c3
    simp only [List.cons_append, List.nil_append] at this
    have hd : h ^ 3 + K1 * h ^ 2 + K1 * K2 * h + K1 * K2 * K3 ≠ 0 := by positivity
    convert this using 1
    · rw [rval_some hT, hK1r, hK2r, hK3r]
      unfold phosAlk
      field_simp
      ring
    · rw [rval_some hT, hK1r, hK2r, hK3r]
      simp only [abs_neg, abs_one, abs_two]
      field_simp
      ring

/-- Rounding in the simulated alkalinity at one point. -/
theorem alkalinityF_near {scale : ℕ} (hs : scale ∈ [1, 2, 3]) (hreq : HasKs totals ks scale)
    (hlog : ∀ k ∈ ["k_alpha", "k_beta"], ∀ K : ℝ, ks.get? k = some (fin K) →
      (-(F.log10 (fin K))).le (fin zlp) = (-(Flt.log10 (fin K))).le (fin zlp)) {pv : Flt}
    (hpv : F.pow10 (-pv) = hv) :
    ∃ v, alkalinityF F pv totals ks scale = .ok v ∧
      FErr (1 / (1 - u)) (termDepth e + 16) ((Sol.of totals ks).size h) v
        ((Sol.of totals ks).alk scale h) := by
  have R : ∀ t k, (t, k) ∈ requiredKs scale → totals.has t = true → ks.has k = true :=
    fun t k hm => hreq (t, k) hm
  obtain ⟨c1, e1, q1⟩ := blk_waterF_spec hF hh hk
  obtain ⟨c2, e2, q2⟩ := blk_carbonateF_spec hF hh ht hk
    (R _ _ (by simp [requiredKs])) (R _ _ (by simp [requiredKs]))
  obtain ⟨c3, e3, q3⟩ := blk_monoF_spec hF hh ht hk mult_BOH4
    (R "total_borate" "k_borate" (by simp [requiredKs]))
  obtain ⟨c4, e4, q4⟩ := blk_phosphateF_spec hF hh ht hk
    (R _ _ (by simp [requiredKs])) (R _ _ (by simp [requiredKs])) (R _ _ (by simp [requiredKs]))
  obtain ⟨c5, e5, q5⟩ := blk_monoF_spec hF hh ht hk mult_H3SiO4
    (R "total_silicate" "k_silicate" (by simp [requiredKs]))
  obtain ⟨c6, e6, q6⟩ := blk_monoF_spec hF hh ht hk mult_NH3
    (R "total_ammonia" "k_ammonia" (by simp [requiredKs]))
  obtain ⟨c7, e7, q7⟩ := blk_monoF_spec hF hh ht hk mult_HS
    (R "total_sulfide" "k_sulfide" (by simp [requiredKs]))
  obtain ⟨c8, e8, q8⟩ := blk_extraF_spec hF hh ht hk mult_alpha
    (R "total_alpha" "k_alpha" (by simp [requiredKs])) (hlog _ (by simp))
  obtain ⟨c9, e9, q9⟩ := blk_extraF_spec hF hh ht hk mult_beta
    (R "total_beta" "k_beta" (by simp [requiredKs])) (hlog _ (by simp))
  obtain ⟨c10, e10, q10⟩ := blk_protonF_spec (on := decide (scale ∈ [1, 3])) hF hh ht hk mult_HF
    (fun hon => R "total_fluoride" "k_fluoride" (by
      simp only [List.mem_cons, List.not_mem_nil, or_false, decide_eq_true_eq] at hon
      simp [requiredKs, hon]))
  obtain ⟨c11, e11, q11⟩ := blk_protonF_spec (on := decide (scale = 3)) hF hh ht hk mult_HSO4
    (fun hon => R "total_sulfate" "k_bisulfate" (by
      simp only [decide_eq_true_eq] at hon
      simp [requiredKs, hon]))
  have q0 := ContribF.one hF mult_H (hF.frel_err hh) (by unfold termDepth; omega)
  obtain ⟨ts, es, h1, h2, h3, h4, h5⟩ := ((((((((((q0.append q1).append q2).append q3).append q4).append
    q5).append q6).append q7).append q8).append q9).append q10).append q11
  have hsum := hF.sums (hF.sum ts) es h2
  have hassert : pyAssert (decide (scale ∈ [1, 2, 3])) = .ok () := by simp [pyAssert, hs]
  refine ⟨F.sum ts, ?_, ?_⟩
  · simp only [alkalinityF, alkalinity_componentsF, hpv, hassert, bind_ok, e1, e2, e3,
      e4, e5, e6, e7, e8, e9, e10, e11, pure_ok, h1]
  · rw [h4] at hsum
    have := hF.ferr_mono hsum (l := termDepth e + 16) (by omega) h5
    convert this using 1
    · unfold Sol.size Sol.of
      simp only [abs_neg, abs_one, mul_one]
    · unfold Sol.alk Sol.of
      simp only [List.mem_cons, List.not_mem_nil, or_false, decide_eq_true_eq]
      ring

omit hh in
/-- Rounding in the simulated alkalinity at one point, for a given pH. -/
theorem alkalinityF_spec {scale : ℕ} (hs : scale ∈ [1, 2, 3]) (hreq : HasKs totals ks scale)
    (hlog : ∀ k ∈ ["k_alpha", "k_beta"], ∀ K : ℝ, ks.get? k = some (fin K) →
      (-(F.log10 (fin K))).le (fin zlp) = (-(Flt.log10 (fin K))).le (fin zlp)) (p : ℝ) :
    ∃ v, alkalinityF F (fin p) totals ks scale = .ok v ∧
      FErr (1 / (1 - u)) (termDepth e + 16) ((Sol.of totals ks).size ((10:ℝ) ^ (-p))) v
        ((Sol.of totals ks).alk scale ((10:ℝ) ^ (-p))) :=
  alkalinityF_near hF (hF.pow10 (-p)) ht hk hs hreq hlog (by simp)

end
end Calk
