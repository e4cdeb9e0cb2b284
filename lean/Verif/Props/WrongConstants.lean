import Verif.Props.Contents

/-!
# Property C145: which way wrong constants push the alkalinity (pH mode)
-/

namespace Calk
open Flt Spec

/-! ## Specification -/

/-- an additional acid counts the same way with both constants: weaker than the zero level of protons (pK 4.5),
or not -/
def Spec.SameRole (K K' : ℝ) : Prop := -Real.logb 10 K ≤ 4.5 ↔ -Real.logb 10 K' ≤ 4.5

/-! ## Lemmas -/

theorem sampleAlk_eq (x K : String → ℝ) (h : ℝ) :
    sampleAlk x K h = -h + K "k_water" / h + 1e-6 * (contents.map fun k => x k * uptake K h k).sum := by
  have h1 := sampleAlk_sub (fun _ => 0) x K h
  have h2 : sampleAlk (fun _ => 0) K h = -h + K "k_water" / h := by
    simp [sampleAlk, Sol.alk, mixture, mixContent, carbAlk, phosAlk, base, acid, extraAlk]
  simp only [sub_zero] at h1
  rw [h2] at h1
  linarith

theorem lost_mono {K K' h : ℝ} (hK : 0 < K) (hh : 0 < h) (hKK : K ≤ K') : lost K h ≤ lost K' h := by
  unfold lost
  rw [div_le_div_iff₀ (by positivity) (by linarith)]
  nlinarith

theorem held_anti {K K' h : ℝ} (hK : 0 < K) (hh : 0 < h) (hKK : K ≤ K') : held K' h ≤ held K h := by
  unfold held
  gcongr

theorem lost_add_held {K h : ℝ} (hK : 0 < K) (hh : 0 < h) : lost K h + held K h = 1 := by
  unfold lost held
  rw [← add_div, div_self (by positivity)]

/-- protons lost by a diprotic acid, in its constants -/
theorem di_mono {a b a' b' h : ℝ} (ha : 0 < a) (hb : 0 < b) (hh : 0 < h) (haa : a ≤ a') (hbb : b ≤ b') :
    (a * h + 2 * (a * b)) / (h ^ 2 + a * h + a * b) ≤ (a' * h + 2 * (a' * b')) / (h ^ 2 + a' * h + a' * b') := by
  have ha' : 0 < a' := by linarith
  have hb' : 0 < b' := by linarith
  rw [div_le_div_iff₀ (by positivity) (by positivity)]
  have e : (a' * h + 2 * (a' * b')) * (h ^ 2 + a * h + a * b) - (a * h + 2 * (a * b)) * (h ^ 2 + a' * h + a' * b')
      = (a' - a) * h ^ 3 + 2 * h ^ 2 * (a' * b' - a * b) + a * a' * h * (b' - b) := by ring
  have e1 : 0 ≤ (a' - a) * h ^ 3 := mul_nonneg (by linarith) (by positivity)
  have e2 : a * b ≤ a' * b' := by gcongr
  have e3 : 0 ≤ 2 * h ^ 2 * (a' * b' - a * b) := mul_nonneg (by positivity) (by linarith)
  have e4 : 0 ≤ a * a' * h * (b' - b) := mul_nonneg (by positivity) (by linarith)
  linarith

/-- and by a triprotic one -/
theorem tri_mono {a b c a' b' c' h : ℝ} (ha : 0 < a) (hb : 0 < b) (hc : 0 < c) (hh : 0 < h) (haa : a ≤ a')
    (hbb : b ≤ b') (hcc : c ≤ c') :
    (a * b * h + 2 * (a * b * c) - h ^ 3) / (h ^ 3 + a * h ^ 2 + a * b * h + a * b * c)
      ≤ (a' * b' * h + 2 * (a' * b' * c') - h ^ 3) / (h ^ 3 + a' * h ^ 2 + a' * b' * h + a' * b' * c') := by
  have ha' : 0 < a' := by linarith
  have hb' : 0 < b' := by linarith
  have hc' : 0 < c' := by linarith
  rw [div_le_div_iff₀ (by positivity) (by positivity)]
  have e : (a' * b' * h + 2 * (a' * b' * c') - h ^ 3) * (h ^ 3 + a * h ^ 2 + a * b * h + a * b * c)
      - (a * b * h + 2 * (a * b * c) - h ^ 3) * (h ^ 3 + a' * h ^ 2 + a' * b' * h + a' * b' * c')
      = (a' - a) * h ^ 5 + 2 * h ^ 4 * (a' * b' - a * b) + 3 * h ^ 3 * (a' * b' * c' - a * b * c)
        + h ^ 3 * (a * a') * (b' - b) + 2 * h ^ 2 * (a * a') * (b' * c' - b * c)
        + h * (a * b * (a' * b')) * (c' - c) := by ring
  have p1 : a * b ≤ a' * b' := by gcongr
  have p2 : b * c ≤ b' * c' := by gcongr
  have p3 : a * b * c ≤ a' * b' * c' := by gcongr
  have e1 : 0 ≤ (a' - a) * h ^ 5 := mul_nonneg (by linarith) (by positivity)
  have e2 : 0 ≤ 2 * h ^ 4 * (a' * b' - a * b) := mul_nonneg (by positivity) (by linarith)
  have e3 : 0 ≤ 3 * h ^ 3 * (a' * b' * c' - a * b * c) := mul_nonneg (by positivity) (by linarith)
  have e4 : 0 ≤ h ^ 3 * (a * a') * (b' - b) := mul_nonneg (by positivity) (by linarith)
  have e5 : 0 ≤ 2 * h ^ 2 * (a * a') * (b' * c' - b * c) := mul_nonneg (by positivity) (by linarith)
  have e6 : 0 ≤ h * (a * b * (a' * b')) * (c' - c) := mul_nonneg (by positivity) (by linarith)
  linarith

theorem uptake_mono {K K' : String → ℝ} (hK : ∀ k ∈ allConstants, 0 < K k) (hKK : ∀ k ∈ allConstants, K k ≤ K' k)
    (ha : SameRole (K "k_alpha") (K' "k_alpha")) (hb : SameRole (K "k_beta") (K' "k_beta")) {h : ℝ} (hh : 0 < h)
    (k : String) : uptake K h k ≤ uptake K' h k := by
  have e1 : ∀ k ∈ allConstants, lost (K k) h ≤ lost (K' k) h := fun k hk => lost_mono (hK k hk) hh (hKK k hk)
  have e2 : ∀ k ∈ allConstants, -held (K k) h ≤ -held (K' k) h :=
    fun k hk => neg_le_neg (held_anti (hK k hk) hh (hKK k hk))
  have e3 : ∀ k ∈ allConstants, SameRole (K k) (K' k) →
      (if -Real.logb 10 (K k) ≤ 4.5 then -held (K k) h else lost (K k) h)
        ≤ if -Real.logb 10 (K' k) ≤ 4.5 then -held (K' k) h else lost (K' k) h := by
    intro k hk hr
    by_cases hz : -Real.logb 10 (K k) ≤ 4.5
    · rw [if_pos hz, if_pos (hr.mp hz)]; exact e2 k hk
    · rw [if_neg hz, if_neg (fun h => hz (hr.mpr h))]; exact e1 k hk
  unfold uptake
  by_cases k1 : k = "dic"
  · rw [if_pos k1, if_pos k1]
    exact di_mono (hK _ (by decide)) (hK _ (by decide)) hh (hKK _ (by decide)) (hKK _ (by decide))
  rw [if_neg k1, if_neg k1]
  by_cases k2 : k = "total_borate"
  · rw [if_pos k2, if_pos k2]; exact e1 _ (by decide)
  rw [if_neg k2, if_neg k2]
  by_cases k3 : k = "total_phosphate"
  · rw [if_pos k3, if_pos k3]
    exact tri_mono (hK _ (by decide)) (hK _ (by decide)) (hK _ (by decide)) hh (hKK _ (by decide))
      (hKK _ (by decide)) (hKK _ (by decide))
  rw [if_neg k3, if_neg k3]
  by_cases k4 : k = "total_silicate"
  · rw [if_pos k4, if_pos k4]; exact e1 _ (by decide)
  rw [if_neg k4, if_neg k4]
  by_cases k5 : k = "total_ammonia"
  · rw [if_pos k5, if_pos k5]; exact e1 _ (by decide)
  rw [if_neg k5, if_neg k5]
  by_cases k6 : k = "total_sulfide"
  · rw [if_pos k6, if_pos k6]; exact e1 _ (by decide)
  rw [if_neg k6, if_neg k6]
  by_cases k7 : k = "total_alpha"
  · rw [if_pos k7, if_pos k7]; exact e3 _ (by decide) ha
  rw [if_neg k7, if_neg k7]
  by_cases k8 : k = "total_beta"
  · rw [if_pos k8, if_pos k8]; exact e3 _ (by decide) hb
  rw [if_neg k8, if_neg k8]
  by_cases k9 : k = "total_fluoride"
  · rw [if_pos k9, if_pos k9]; exact e2 _ (by decide)
  rw [if_neg k9, if_neg k9]
  exact e2 _ (by decide)

theorem windowMean_mono {lo hi : ℝ} {tm pH : List ℝ} {e e' : ℝ → ℝ → ℝ} (hm : ∀ m ∈ tm, 0 ≤ m)
    (h : ∀ m p : ℝ, 0 ≤ m → e m p ≤ e' m p) :
    windowMean lo hi pH (List.zipWith e tm pH) ≤ windowMean lo hi pH (List.zipWith e' tm pH) := by
  unfold windowMean
  refine div_le_div_of_nonneg_right (mask_sum_le (by simp) fun i h1 h2 => ?_) (by positivity)
  rw [List.getElem_zipWith, List.getElem_zipWith]
  exact h _ _ (hm _ (List.getElem_mem _))

theorem windowMean_shift {lo hi : ℝ} {tm pH : List ℝ} {e : ℝ → ℝ → ℝ} (d : ℝ) (hl : tm.length = pH.length)
    (hin : ∃ p ∈ pH, lo ≤ p ∧ p ≤ hi) :
    windowMean lo hi pH (List.zipWith (fun m p => e m p + d) tm pH)
      = windowMean lo hi pH (List.zipWith e tm pH) + d := by
  have key : ∀ (W : ℝ → Bool) (tm pH : List ℝ), tm.length = pH.length →
      (mask (pH.map W) (List.zipWith (fun m p => e m p + d) tm pH)).sum
        = (mask (pH.map W) (List.zipWith e tm pH)).sum + d * (pH.filter W).length := by
    intro W tm pH hl
    induction pH generalizing tm with
    | nil => simp
    | cons p pH ih =>
      match tm, hl with
      | m :: tm, hl =>
        have ih := ih tm (by simpa using hl)
        cases hW : W p
        · simpa only [List.map_cons, List.zipWith_cons_cons, hW, mask_cons_false, List.filter_cons,
            Bool.false_eq_true, if_false] using ih
        · simp only [List.map_cons, List.zipWith_cons_cons, hW, mask_cons_true, List.sum_cons, ih, List.filter_cons,
            if_true, List.length_cons, Nat.cast_add, Nat.cast_one]
          ring
  have hN : ((pH.filter fun p => decide (lo ≤ p) && decide (p ≤ hi)).length : ℝ) ≠ 0 := by
    obtain ⟨p, hp, h1, h2⟩ := hin
    have : p ∈ pH.filter fun p => decide (lo ≤ p) && decide (p ≤ hi) := by
      simp [hp, h1, h2]
    exact_mod_cast (List.length_pos_of_mem this).ne'
  unfold windowMean
  rw [key _ _ _ hl, add_div, mul_div_assoc, div_self hN, mul_one]

/-- passing the zero level -/
theorem crossing_between {K K' h : ℝ} (hK : 0 < K) (hh : 0 < h) (hKK : K ≤ K') :
    K / K' ≤ held K' h + lost K h ∧ held K' h + lost K h ≤ 1 := by
  have hK' : 0 < K' := by linarith
  constructor
  · have h1 : lost K h ≥ K / (K' + h) := by
      unfold lost
      gcongr
    have h2 : K / K' ≤ (K + h) / (K' + h) := by
      rw [div_le_div_iff₀ hK' (by positivity)]
      nlinarith
    unfold held
    have : (K + h) / (K' + h) = K / (K' + h) + h / (K' + h) := add_div _ _ _
    linarith
  · linarith [held_anti hK hh hKK, lost_add_held hK hh]

theorem estimate_extra {x K K' : String → ℝ} {c n g M m p : ℝ} {k t : String}
    (hkt : (k = "k_alpha" ∧ t = "total_alpha") ∨ (k = "k_beta" ∧ t = "total_beta"))
    (hsame : ∀ j, j ≠ k → K' j = K j) :
    estimate x K' c n g M m p = estimate x K c n g M m p
      + x t * (uptake K' ((10 : ℝ) ^ (-p)) t - uptake K ((10 : ℝ) ^ (-p)) t) := by
  have hu : ∀ h, (contents.map fun k => x k * uptake K' h k).sum
      = (contents.map fun k => x k * uptake K h k).sum + x t * (uptake K' h t - uptake K h t) := by
    intro h
    rcases hkt with ⟨rfl, rfl⟩ | ⟨rfl, rfl⟩ <;>
    · simp only [contents, List.map_cons, List.map_nil, List.sum_cons, List.sum_nil, uptake, String.reduceEq,
        if_true, if_false, hsame "k_carbonic_1" (by decide), hsame "k_carbonic_2" (by decide),
        hsame "k_borate" (by decide), hsame "k_phosphoric_1" (by decide), hsame "k_phosphoric_2" (by decide),
        hsame "k_phosphoric_3" (by decide), hsame "k_silicate" (by decide), hsame "k_ammonia" (by decide),
        hsame "k_sulfide" (by decide), hsame "k_fluoride" (by decide), hsame "k_bisulfate" (by decide)]
      first
      | rw [hsame "k_beta" (by decide)]; ring
      | rw [hsame "k_alpha" (by decide)]; ring
  have hs : K' "k_bisulfate" = K "k_bisulfate" := hsame _ (by rcases hkt with ⟨rfl, -⟩ | ⟨rfl, -⟩ <;> decide)
  have hw : K' "k_water" = K "k_water" := hsame _ (by rcases hkt with ⟨rfl, -⟩ | ⟨rfl, -⟩ <;> decide)
  unfold estimate titrantAcid
  rw [sampleAlk_eq, sampleAlk_eq, hu, hs, hw]
  ring

/-! ## Properties -/

/-- **C145**: with the same or higher dissociation constants, all else equal, the same titration gives the same
or a higher alkalinity in pH mode (unless an additional acid passes pK 4.5). -/
theorem C145_directions (w w' : World) (f f' : String) (S S' : Flt) (kw kw' : Dict Val) (x K K' : String → ℝ)
    (c n g lo hi M : ℝ) (tm pH : List ℝ) (h : PHRun w f S kw x K c n g lo hi M tm pH)
    (h' : PHRun w' f' S' kw' x K' c n g lo hi M tm pH) (hin : ∃ p ∈ pH, lo ≤ p ∧ p ≤ hi)
    (hKK : ∀ k ∈ allConstants, K k ≤ K' k)
    (ha : SameRole (K "k_alpha") (K' "k_alpha")) (hb : SameRole (K "k_beta") (K' "k_beta")) :
    ∃ (r r' : SolvePH) (T T' : List Flt) (a a' : ℝ),
      files_solve w f (fin c) S kw = .ok (.pH r (pH.map fin) T) ∧
      files_solve w' f' (fin c) S' kw' = .ok (.pH r' (pH.map fin) T') ∧
      r.alkalinity = fin a ∧ r'.alkalinity = fin a' ∧ a ≤ a' := by
  obtain ⟨r, T, h1, -, h2⟩ := C122_formula w f S kw x K c n g lo hi M tm pH h hin
  obtain ⟨r', T', h1', -, h2'⟩ := C122_formula w' f' S' kw' x K' c n g lo hi M tm pH h' hin
  refine ⟨r, r', T, T', _, _, h1, h1', h2, h2', windowMean_mono h.masses fun m p hm => ?_⟩
  have hK : ∀ k ∈ allConstants, 0 < K k := fun k hk => (h.sample.constants k hk).2
  have hx : ∀ k ∈ contents, 0 ≤ x k := by
    intro k hk
    refine (h.sample.contents k ?_).2
    revert k; decide
  have hM := h.mass
  have hcg := h.acid
  set q := (10 : ℝ) ^ (-p) with hq
  have q0 : 0 < q := by rw [hq]; positivity
  have s1 : (contents.map fun k => x k * uptake K q k).sum ≤ (contents.map fun k => x k * uptake K' q k).sum :=
    List.sum_le_sum fun k hk => mul_le_mul_of_nonneg_left (uptake_mono hK hKK ha hb q0 k) (hx k hk)
  have s2 : K "k_water" / q ≤ K' "k_water" / q := by
    have := hKK "k_water" (by decide)
    gcongr
  have s3 := held_anti (hK "k_bisulfate" (by decide)) q0 (hKK "k_bisulfate" (by decide))
  have s4 := mul_le_mul_of_nonneg_left s3 hcg
  unfold held at s4
  have s5 : titrantAcid K c n g q ≤ titrantAcid K' c n g q := by
    unfold titrantAcid
    nlinarith
  have s6 := mul_le_mul_of_nonneg_left s5 (show 0 ≤ m / M by positivity)
  unfold estimate
  rw [← hq, sampleAlk_eq, sampleAlk_eq]
  linarith

/-- **C145**: but when the constant of an additional acid passes 10⁻⁴·⁵ (from `K k` below it to `K' k` not below
it), the acid no longer takes up protons but brings them: the alkalinity falls by between `K k / K' k` of its
content and all of it. -/
theorem C145_crossing (w w' : World) (f f' : String) (S S' : Flt) (kw kw' : Dict Val) (x K K' : String → ℝ)
    (c n g lo hi M : ℝ) (tm pH : List ℝ) (h : PHRun w f S kw x K c n g lo hi M tm pH)
    (h' : PHRun w' f' S' kw' x K' c n g lo hi M tm pH) (hin : ∃ p ∈ pH, lo ≤ p ∧ p ≤ hi) (k t : String)
    (hkt : (k = "k_alpha" ∧ t = "total_alpha") ∨ (k = "k_beta" ∧ t = "total_beta"))
    (hsame : ∀ j, j ≠ k → K' j = K j)
    (hweak : K k < (10 : ℝ) ^ (-4.5 : ℝ)) (hstrong : (10 : ℝ) ^ (-4.5 : ℝ) ≤ K' k) :
    ∃ (r r' : SolvePH) (T T' : List Flt) (a a' : ℝ),
      files_solve w f (fin c) S kw = .ok (.pH r (pH.map fin) T) ∧
      files_solve w' f' (fin c) S' kw' = .ok (.pH r' (pH.map fin) T') ∧
      r.alkalinity = fin a ∧ r'.alkalinity = fin a' ∧
      a - x t ≤ a' ∧ a' ≤ a - x t * (K k / K' k) := by
  obtain ⟨r, T, h1, -, h2⟩ := C122_formula w f S kw x K c n g lo hi M tm pH h hin
  obtain ⟨r', T', h1', -, h2'⟩ := C122_formula w' f' S' kw' x K' c n g lo hi M tm pH h' hin
  have hk : k ∈ allConstants := by rcases hkt with ⟨rfl, -⟩ | ⟨rfl, -⟩ <;> decide
  have hK0 : 0 < K k := (h.sample.constants k hk).2
  have hK0' : 0 < K' k := (h'.sample.constants k hk).2
  have hx : 0 ≤ x t := (h.sample.contents t (by rcases hkt with ⟨-, rfl⟩ | ⟨-, rfl⟩ <;> decide)).2
  have z1 : ¬ -Real.logb 10 (K k) ≤ 4.5 := by
    rw [not_le, lt_neg, Real.logb_lt_iff_lt_rpow (by norm_num) hK0]
    exact hweak
  have z2 : -Real.logb 10 (K' k) ≤ 4.5 := by
    rw [neg_le, Real.le_logb_iff_rpow_le (by norm_num) hK0']
    exact hstrong
  have hu : ∀ q : ℝ, uptake K' q t - uptake K q t = -(held (K' k) q + lost (K k) q) := by
    intro q
    rcases hkt with ⟨rfl, rfl⟩ | ⟨rfl, rfl⟩ <;>
    · simp only [uptake, String.reduceEq, if_true, if_false, if_neg z1, if_pos z2]
      ring
  have hest : ∀ m p : ℝ, estimate x K c n g M m p + -x t ≤ estimate x K' c n g M m p ∧
      estimate x K' c n g M m p ≤ estimate x K c n g M m p + -(x t * (K k / K' k)) := by
    intro m p
    obtain ⟨c1, c2⟩ := crossing_between hK0 (show (0 : ℝ) < (10 : ℝ) ^ (-p) by positivity)
      (hweak.le.trans hstrong)
    rw [estimate_extra hkt hsame, hu]
    have := mul_le_mul_of_nonneg_left c1 hx
    have := mul_le_mul_of_nonneg_left c2 hx
    constructor <;> linarith
  refine ⟨r, r', T, T', _, _, h1, h1', h2, h2', ?_, ?_⟩
  · have := windowMean_mono (lo := lo) (hi := hi) (pH := pH) h.masses fun m p _ => (hest m p).1
    rw [windowMean_shift _ h.lengths hin] at this
    linarith
  · have := windowMean_mono (lo := lo) (hi := hi) (pH := pH) h.masses fun m p _ => (hest m p).2
    rw [windowMean_shift _ h.lengths hin] at this
    linarith

/-! ### A case

The titration of C109, with any positive constants. -/

noncomputable def wcArgs (K : String → ℝ) : Dict Val :=
  [ ("solve_mode", .str "pH"), ("analyte_mass", .num (fin 0.1)), ("titrant_amount_unit", .str "kg"),
    ("titrant_normality", .num (fin 2)), ("titrant_total_sulfate", .num (fin 1)) ] ++
  (("dic" :: (optionalContents ++ saltContents)).map fun k => (k, Val.num (fin (pContents k)))) ++
  allConstants.map fun k => (k, Val.num (fin (K k)))

theorem wc_ks (K : String → ℝ) (p q : ℝ) : ∃ ks, ∀ tp, get_k_constants (pWorld p q) tp [fin 25, fin 25]
      ((get_kwargs_for keys_totals_ks (wcArgs K) none).filter
        fun kv => keys_get_k_constants.contains kv.1) = .ok ks := by
  have hkw : ((get_kwargs_for keys_totals_ks (wcArgs K) none).filter
      fun kv => keys_get_k_constants.contains kv.1)
        = allConstants.map fun k => (k, Val.num (fin (K k))) := rfl
  rw [hkw]
  simp [get_k_constants, pWorld, keepWorld, ks_for_pyco2, argNotNull, Dict.get?, Val.toFlt, bind_ok,
    pure_ok, Val.isNull, calk_to_pyco2_ks, setIf, Dict.set, argVal, Val.eqNum, feq, allConstants]

theorem wc_loads (K : String → ℝ) (p q : ℝ) : ∃ cv totals ks,
    load (pWorld p q) "a.dat" (fin 35) (wcArgs K) = .ok (cv, totals, ks) ∧
    cv.titrant_mass = [0.001, 0.002].map fin ∧ cv.analyte_mass = fin 0.1 ∧
    cv.measurement = [p, q].map fin ∧ cv.temperature = [fin 25, fin 25] := by
  obtain ⟨t, tp, h1, hfit⟩ := p_totals p q
  obtain ⟨ks, h2⟩ := wc_ks K p q
  obtain ⟨totals, h3, -⟩ := C05_dilute_totals t [fin 0.001, fin 0.002] (fin 0.1) hfit
  refine ⟨⟨[fin 0.001, fin 0.002], [fin p, fin q], [fin 25, fin 25], fin 0.1, fin 35⟩, totals,
    ks, ?_, rfl, rfl, rfl, rfl⟩
  unfold load
  have e1 : full_name "a.dat" (wcArgs K) = .ok "a.dat" := rfl
  have e2 : (pWorld p q).readDat "a.dat" (get_kwargs_for keys_read_dat (wcArgs K) none) = .ok (pData p q) := rfl
  have e3 : amount_units (pData p q) (fin 35) (get_kwargs_for keys_cau (wcArgs K) none)
      = .ok ⟨[fin 0.001, fin 0.002], [fin p, fin q], [fin 25, fin 25], fin 0.1, fin 35⟩ := by
    have hkw : get_kwargs_for keys_cau (wcArgs K) none
      = [("analyte_mass", .num (fin 0.1)), ("titrant_amount_unit", .str "kg")] := rfl
    rw [hkw]
    simp [amount_units, override_temperature, titrant_masses, get_analyte_mass, argOpt, argVal,
      argNotNull, Dict.get?, Val.toFlt, Val.isNull, Val.lower, bind_ok, pure_ok, pyAssert, pData,
      show lowerS "kg" = "kg" by decide]
  have e4 : totals_for_ks ⟨[fin 0.001, fin 0.002], [fin p, fin q], [fin 25, fin 25], fin 0.1,
      fin 35⟩ tp (get_kwargs_for keys_totals_ks (wcArgs K) none) = .ok tp := rfl
  have e5 : ((get_kwargs_for keys_totals_ks (wcArgs K) none).filter fun kv => keys_get_totals.contains kv.1)
      = ((get_kwargs_for keys_totals_ks pArgs none).filter fun kv => keys_get_totals.contains kv.1) := rfl
  rw [e1, bind_ok, e2, bind_ok, e3, bind_ok]
  unfold totals_ks
  simp only [e5, h1, bind_ok, h3, e4, h2]
  rfl

theorem wc_load (K : String → ℝ) (p q : ℝ) : ∃ cv totals ks,
    load (pWorld p q) "a.dat" (fin 35) (wcArgs K) = .ok (cv, totals, ks) ∧
    cv.titrant_mass = [0.001, 0.002].map fin ∧ cv.analyte_mass = fin 0.1 ∧
    cv.measurement = [p, q].map fin := by
  obtain ⟨cv, totals, ks, h, h1, h2, h3, -⟩ := wc_loads K p q
  exact ⟨cv, totals, ks, h, h1, h2, h3⟩

theorem wc_run {K : String → ℝ} (hK : ∀ k, 0 < K k) (p q : ℝ) :
    PHRun (pWorld p q) "a.dat" (fin 35) (wcArgs K) pContents K 0.1 2 1 3 4 0.1 [0.001, 0.002] [p, q] := by
  refine ⟨wc_load K p q, keepWorld_totals, keepWorld_ks, ?_, ⟨"pH", rfl, by decide⟩, ⟨?_, ?_, ?_⟩, .inl rfl, rfl,
    rfl, .inl rfl, .inr ⟨rfl, rfl⟩, .inr ⟨rfl, rfl⟩, by norm_num, rfl, by norm_num, ?_, by norm_num⟩
  · have : Dict.keys (wcArgs K) = [ "solve_mode", "analyte_mass", "titrant_amount_unit",
      "titrant_normality", "titrant_total_sulfate" ] ++
      ("dic" :: (optionalContents ++ saltContents)) ++ allConstants := rfl
    rw [this]
    decide
  · intro k hk
    refine ⟨?_, by norm_num [pContents]⟩
    simp only [optionalContents, saltContents, List.cons_append, List.nil_append, List.mem_cons,
      List.not_mem_nil, or_false] at hk
    rcases hk with rfl | rfl | rfl | rfl | rfl | rfl | rfl | rfl | rfl | rfl <;> rfl
  · intro k hk
    refine ⟨?_, hK k⟩
    simp only [allConstants, List.mem_cons, List.not_mem_nil, or_false] at hk
    rcases hk with rfl | rfl | rfl | rfl | rfl | rfl | rfl | rfl | rfl | rfl | rfl | rfl | rfl | rfl
      <;> rfl
  · exact not_onTotalScale rfl
  · intro m hm
    simp only [List.mem_cons, List.not_mem_nil, or_false] at hm
    rcases hm with rfl | rfl <;> norm_num

/-- all constants doubled: the same or a higher alkalinity -/
example (p q : ℝ) (hp : 3 ≤ p ∧ p ≤ 4) : ∃ (r r' : SolvePH) (T T' : List Flt) (a a' : ℝ),
    files_solve (pWorld p q) "a.dat" (fin 0.1) (fin 35) (wcArgs fun _ => 1e-6) = .ok (.pH r ([p, q].map fin) T) ∧
    files_solve (pWorld p q) "a.dat" (fin 0.1) (fin 35) (wcArgs fun _ => 2e-6) = .ok (.pH r' ([p, q].map fin) T') ∧
    r.alkalinity = fin a ∧ r'.alkalinity = fin a' ∧ a ≤ a' := by
  have hz : ∀ y : ℝ, 0 < y → y ≤ 1e-5 → ¬ -Real.logb 10 y ≤ 4.5 := by
    intro y h0 hy
    rw [not_le, lt_neg, Real.logb_lt_iff_lt_rpow (by norm_num) h0]
    calc y ≤ (10 : ℝ) ^ (-5 : ℝ) := by rw [Real.rpow_neg (by norm_num)]; norm_num; norm_num at hy; exact hy
      _ < _ := Real.rpow_lt_rpow_of_exponent_lt (by norm_num) (by norm_num)
  have hr : SameRole 1e-6 2e-6 := iff_of_false (hz _ (by norm_num) (by norm_num)) (hz _ (by norm_num) (by norm_num))
  exact C145_directions _ _ _ _ _ _ _ _ _ _ _ _ _ _ _ _ _ _ _ (wc_run (fun _ => by norm_num) p q)
    (wc_run (fun _ => by norm_num) p q) ⟨p, by simp, hp⟩ (fun _ _ => by norm_num) hr hr

/-- alpha's constant from 0.00003 to 0.00004: about 10 µmol/kg, its whole content, lost -/
example (p q : ℝ) (hp : 3 ≤ p ∧ p ≤ 4) : ∃ (r r' : SolvePH) (T T' : List Flt) (a a' : ℝ),
    files_solve (pWorld p q) "a.dat" (fin 0.1) (fin 35) (wcArgs fun k => if k = "k_alpha" then 3e-5 else 1e-6)
      = .ok (.pH r ([p, q].map fin) T) ∧
    files_solve (pWorld p q) "a.dat" (fin 0.1) (fin 35) (wcArgs fun k => if k = "k_alpha" then 4e-5 else 1e-6)
      = .ok (.pH r' ([p, q].map fin) T') ∧
    r.alkalinity = fin a ∧ r'.alkalinity = fin a' ∧ a - 10 ≤ a' ∧ a' ≤ a - 7.5 := by
  have hsq : ((10 : ℝ) ^ (-4.5 : ℝ)) ^ 2 = 1e-9 := by
    rw [← Real.rpow_natCast, ← Real.rpow_mul (by norm_num), show (-4.5 : ℝ) * (2 : ℕ) = -9 by norm_num,
      Real.rpow_neg (by norm_num)]
    norm_num
  have h0 : (0 : ℝ) < (10 : ℝ) ^ (-4.5 : ℝ) := by positivity
  obtain ⟨r, r', T, T', a, a', h1, h2, h3, h4, h5, h6⟩ := C145_crossing _ _ _ _ _ _ _ _ _ _ _ _ _ _ _ _ _ _ _
    (wc_run (K := fun k => if k = "k_alpha" then 3e-5 else 1e-6) (fun k => by split_ifs <;> norm_num) p q)
    (wc_run (K := fun k => if k = "k_alpha" then 4e-5 else 1e-6) (fun k => by split_ifs <;> norm_num) p q)
    ⟨p, by simp, hp⟩ "k_alpha" "total_alpha" (.inl ⟨rfl, rfl⟩) (fun j hj => by simp only [if_neg hj])
    (by simp only [if_true]; exact lt_of_pow_lt_pow_left₀ 2 h0.le (by rw [hsq]; norm_num))
    (by simp only [if_true]; exact le_of_sq_le_sq (by rw [hsq]; norm_num) (by norm_num))
  refine ⟨r, r', T, T', a, a', h1, h2, h3, h4, ?_, ?_⟩
  · simpa [pContents] using h5
  · simp only [if_true, pContents] at h6
    norm_num at h6 ⊢
    exact h6

end Calk
