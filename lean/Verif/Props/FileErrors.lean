import Verif.Props.FileCalibrate
import Verif.Props.Read
import Verif.Lemmas.Capacity
import Mathlib.Analysis.Convex.SpecificFunctions.Basic

/-!
# Property C113: what errors in the data cost, and so what writing them to a file costs

In pH mode.  The data are exact up to given errors; the error of the alkalinity reported is bounded.
Rounding by `write_dat` is such an error.
-/

namespace Calk
open Flt Spec

theorem mixContent_mul (x : String → ℝ) (m M c g : ℝ) (k : String) (h : m + M ≠ 0) :
    mixContent x m M c g k * (m + M)
      = x k * 1e-6 * M + if k = "total_sulfate" then m * c * g else 0 := by
  unfold mixContent
  rw [div_mul_cancel₀ _ h]

/-- mixtures with different amounts of the same acid, at the same acidity -/
theorem mixture_mass_sub {x K : String → ℝ} {m m' M c g h : ℝ} (hm : m + M ≠ 0) (hm' : m' + M ≠ 0) :
    (mixture x K m M c g).alk 3 h * (m + M) - (mixture x K m' M c g).alk 3 h * (m' + M)
      = (m - m') * (K "k_water" / h - h - c * g * (h / (K "k_bisulfate" + h))) := by
  have key : ∀ q : ℝ, q + M ≠ 0 → (mixture x K q M c g).alk 3 h * (q + M)
      = (-h + K "k_water" / h) * (q + M) + carbAlk (x "dic" * 1e-6 * M) (K "k_carbonic_1") (K "k_carbonic_2") h
        + base (x "total_borate" * 1e-6 * M) (K "k_borate") h
        + phosAlk (x "total_phosphate" * 1e-6 * M) (K "k_phosphoric_1") (K "k_phosphoric_2")
          (K "k_phosphoric_3") h
        + base (x "total_silicate" * 1e-6 * M) (K "k_silicate") h
        + base (x "total_ammonia" * 1e-6 * M) (K "k_ammonia") h
        + base (x "total_sulfide" * 1e-6 * M) (K "k_sulfide") h
        + extraAlk (x "total_alpha" * 1e-6 * M) (K "k_alpha") h
        + extraAlk (x "total_beta" * 1e-6 * M) (K "k_beta") h
        - acid (x "total_fluoride" * 1e-6 * M) (K "k_fluoride") h
        - acid (x "total_sulfate" * 1e-6 * M + q * c * g) (K "k_bisulfate") h := by
    intro q hq
    have hk : ∀ k, k ≠ "total_sulfate" → x k * 1e-6 * M = mixContent x q M c g k * (q + M) := by
      intro k hk; rw [mixContent_mul _ _ _ _ _ _ hq, if_neg hk, add_zero]
    have hs : x "total_sulfate" * 1e-6 * M + q * c * g
        = mixContent x q M c g "total_sulfate" * (q + M) := by
      rw [mixContent_mul _ _ _ _ _ _ hq, if_pos rfl]
    rw [hs, hk "dic" (by decide), hk "total_borate" (by decide), hk "total_phosphate" (by decide),
      hk "total_silicate" (by decide), hk "total_ammonia" (by decide), hk "total_sulfide" (by decide),
      hk "total_alpha" (by decide), hk "total_beta" (by decide), hk "total_fluoride" (by decide)]
    have e1 : ∀ T K s : ℝ, base (T * s) K h = base T K h * s := by intros; unfold base; ring
    have e2 : ∀ T K s : ℝ, acid (T * s) K h = acid T K h * s := by intros; unfold acid; ring
    have e3 : ∀ T K s : ℝ, extraAlk (T * s) K h = extraAlk T K h * s := by
      intros; unfold extraAlk; rw [e1, e2]; split_ifs <;> ring
    have e4 : ∀ T K K' s : ℝ, carbAlk (T * s) K K' h = carbAlk T K K' h * s := by
      intros; unfold carbAlk; ring
    have e5 : ∀ T K K' K'' s : ℝ, phosAlk (T * s) K K' K'' h = phosAlk T K K' K'' h * s := by
      intros; unfold phosAlk; ring
    simp only [e1, e2, e3, e4, e5, Sol.alk, mixture]
    norm_num
    ring
  rw [key m hm, key m' hm']
  have e : ∀ T s : ℝ, acid (T + s) (K "k_bisulfate") h
      = acid T (K "k_bisulfate") h + s * (h / (K "k_bisulfate" + h)) := by
    intros; unfold acid; ring
  rw [e, e]
  ring

theorem mixture_valid {x K : String → ℝ} {m M c g : ℝ} (hM : 0 < M) (hm : 0 ≤ m) (hac : 0 ≤ c * g)
    (hx : ∀ k ∈ "dic" :: (optionalContents ++ saltContents), 0 ≤ x k)
    (hK : ∀ k ∈ allConstants, 0 < K k) : (mixture x K m M c g).Valid := by
  have hc : ∀ k ∈ "dic" :: (optionalContents ++ saltContents), 0 ≤ mixContent x m M c g k := by
    intro k hk
    have := hx k hk
    have h3 : 0 ≤ m * c * g := by rw [mul_assoc]; positivity
    unfold mixContent
    apply div_nonneg
    · split_ifs <;> positivity
    · positivity
  constructor <;> simp only [mixture] <;>
    first
      | exact hc _ (by decide)
      | exact hK _ (by decide)
      | exact (hK _ (by decide)).le

/-- two pH values within `δ` of each other -/
theorem acidity_error {p q δ lo : ℝ} (hpq : |p - q| ≤ δ) (hlo : lo ≤ p) :
    |(10 : ℝ) ^ (-p) - (10 : ℝ) ^ (-q)| ≤ (10 : ℝ) ^ (-lo) * ((10 : ℝ) ^ δ - 1) := by
  obtain ⟨h1, h2⟩ := abs_le.mp hpq
  have hδ : 0 ≤ δ := (abs_nonneg _).trans hpq
  have ha : (10 : ℝ) ^ (-p) ≤ (10 : ℝ) ^ (-lo) := Real.rpow_le_rpow_of_exponent_le (by norm_num) (by linarith)
  have hd : (1 : ℝ) ≤ (10 : ℝ) ^ δ := Real.one_le_rpow (by norm_num) hδ
  have e : (10 : ℝ) ^ (-q) = (10 : ℝ) ^ (-p) * (10 : ℝ) ^ (p - q) := by
    rw [← Real.rpow_add (by norm_num)]; congr 1; ring
  have hp0 : (0 : ℝ) < (10 : ℝ) ^ (-p) := by positivity
  have u : (10 : ℝ) ^ (p - q) ≤ (10 : ℝ) ^ δ := Real.rpow_le_rpow_of_exponent_le (by norm_num) h2
  have l : (10 : ℝ) ^ (-δ) ≤ (10 : ℝ) ^ (p - q) := Real.rpow_le_rpow_of_exponent_le (by norm_num) h1
  have hi : (10 : ℝ) ^ (-δ) * (10 : ℝ) ^ δ = 1 := by
    rw [← Real.rpow_add (by norm_num), neg_add_cancel, Real.rpow_zero]
  have l' : 1 - (10 : ℝ) ^ (-δ) ≤ (10 : ℝ) ^ δ - 1 := by nlinarith
  have hle : |1 - (10 : ℝ) ^ (p - q)| ≤ (10 : ℝ) ^ δ - 1 := by
    rw [abs_le]; constructor <;> linarith
  rw [e, show (10 : ℝ) ^ (-p) - (10 : ℝ) ^ (-p) * (10 : ℝ) ^ (p - q)
    = (10 : ℝ) ^ (-p) * (1 - (10 : ℝ) ^ (p - q)) by ring, abs_mul, abs_of_pos hp0]
  calc _ ≤ (10 : ℝ) ^ (-p) * ((10 : ℝ) ^ δ - 1) := mul_le_mul_of_nonneg_left hle hp0.le
    _ ≤ _ := mul_le_mul_of_nonneg_right ha (by linarith)

/-- a bound on what errors of at most `ε` kg in the titrant mass and `δ` in the pH can do to
alkalinity (mol) at a point with `m` kg of titrant, for the window `lo` to `hi` -/
noncomputable def errorAt (x K : String → ℝ) (c n g lo hi M ε δ m : ℝ) : ℝ :=
  (m + M) * (1 + (mixture x K m M c g).buffering ((10 : ℝ) ^ (-(hi + δ))))
      * ((10 : ℝ) ^ (-lo) * ((10 : ℝ) ^ δ - 1))
    + ε * (c * n + K "k_water" * (10 : ℝ) ^ (hi + δ) + (10 : ℝ) ^ (δ - lo))

theorem point_error {x K : String → ℝ} {c n g lo hi M ε δ m m₀ p p₀ : ℝ} (hM : 0 < M) (hm : 0 ≤ m)
    (hm₀ : 0 ≤ m₀) (hc : 0 ≤ c) (hg : 0 ≤ g) (hgn : g ≤ n)
    (hx : ∀ k ∈ "dic" :: (optionalContents ++ saltContents), 0 ≤ x k)
    (hK : ∀ k ∈ allConstants, 0 < K k) (hp : lo ≤ p ∧ p ≤ hi) (hε : |m - m₀| ≤ ε) (hδ : |p - p₀| ≤ δ) :
    |((mixture x K m M c g).alk 3 ((10 : ℝ) ^ (-p)) * (m + M) + m * c * n)
      - ((mixture x K m₀ M c g).alk 3 ((10 : ℝ) ^ (-p₀)) * (m₀ + M) + m₀ * c * n)|
      ≤ errorAt x K c n g lo hi M ε δ m := by
  obtain ⟨d1, d2⟩ := abs_le.mp hδ
  have hδ0 : 0 ≤ δ := (abs_nonneg _).trans hδ
  set a := (10 : ℝ) ^ (-p) with ha
  set b := (10 : ℝ) ^ (-p₀) with hb
  set L := (10 : ℝ) ^ (-(hi + δ)) with hL
  have hL0 : 0 < L := by positivity
  have hLa : L ≤ a := Real.rpow_le_rpow_of_exponent_le (by norm_num) (by linarith)
  have hLb : L ≤ b := Real.rpow_le_rpow_of_exponent_le (by norm_num) (by linarith)
  have hb0 : 0 < b := by positivity
  have hbU : b ≤ (10 : ℝ) ^ (δ - lo) := Real.rpow_le_rpow_of_exponent_le (by norm_num) (by linarith)
  have hv := mixture_valid hM hm (mul_nonneg hc hg) hx hK
  have hmM : 0 < m + M := by linarith
  have hB := buffering_nonneg hv hL0
  set B := (mixture x K m M c g).buffering L with hBdef
  have hab := acidity_error hδ hp.1
  rw [← ha, ← hb] at hab
  have h1 : |(mixture x K m M c g).alk 3 a - (mixture x K m M c g).alk 3 b| ≤ (1 + B) * |a - b| := by
    rcases le_total a b with h | h
    · obtain ⟨f1, f2⟩ := alk_fall hv hL0 hLa h
      rw [abs_of_nonneg (by linarith), abs_of_nonpos (by linarith)]
      linarith
    · obtain ⟨f1, f2⟩ := alk_fall hv hL0 hLb h
      rw [abs_of_nonpos (by linarith), abs_of_nonneg (by linarith)]
      linarith
  have hw := hK "k_water" (by decide)
  have hs := hK "k_bisulfate" (by decide)
  have hfr0 : 0 ≤ b / (K "k_bisulfate" + b) := by positivity
  have hfr1 : b / (K "k_bisulfate" + b) ≤ 1 := by rw [div_le_one (by positivity)]; linarith
  have hwb : K "k_water" / b ≤ K "k_water" * (10 : ℝ) ^ (hi + δ) := by
    rw [div_eq_mul_inv]
    apply mul_le_mul_of_nonneg_left _ hw.le
    rw [hb, ← Real.rpow_neg (by norm_num), neg_neg]
    exact Real.rpow_le_rpow_of_exponent_le (by norm_num) (by linarith)
  have hwb0 : 0 ≤ K "k_water" / b := by positivity
  have h2 : |K "k_water" / b - b - c * g * (b / (K "k_bisulfate" + b)) + c * n|
      ≤ c * n + K "k_water" * (10 : ℝ) ^ (hi + δ) + (10 : ℝ) ^ (δ - lo) := by
    have q0 : 0 ≤ c * g * (b / (K "k_bisulfate" + b)) := by positivity
    have q1 : c * g * (b / (K "k_bisulfate" + b)) ≤ c * g := mul_le_of_le_one_right (by positivity) hfr1
    have q2 : c * g ≤ c * n := mul_le_mul_of_nonneg_left hgn hc
    have q3 : 0 ≤ c * n := (mul_nonneg hc hg).trans q2
    have q4 : (0 : ℝ) ≤ K "k_water" * (10 : ℝ) ^ (hi + δ) := by positivity
    rw [abs_le]; constructor <;> linarith
  have hsub := mixture_mass_sub (x := x) (K := K) (m := m) (m' := m₀) (M := M) (c := c) (g := g) (h := b)
    hmM.ne' (by positivity)
  have e : ((mixture x K m M c g).alk 3 a * (m + M) + m * c * n)
      - ((mixture x K m₀ M c g).alk 3 b * (m₀ + M) + m₀ * c * n)
      = (m + M) * ((mixture x K m M c g).alk 3 a - (mixture x K m M c g).alk 3 b)
        + (m - m₀) * (K "k_water" / b - b - c * g * (b / (K "k_bisulfate" + b)) + c * n) := by
    linear_combination hsub
  rw [e]
  refine (abs_add_le _ _).trans (add_le_add ?_ ?_)
  · rw [abs_mul, abs_of_pos hmM, mul_assoc]
    apply mul_le_mul_of_nonneg_left _ hmM.le
    exact h1.trans (mul_le_mul_of_nonneg_left hab (by linarith))
  · rw [abs_mul]
    exact mul_le_mul hε h2 (abs_nonneg _) ((abs_nonneg _).trans hε)

theorem mask_mean_error {u : List Bool} {est : List ℝ} {a B : ℝ}
    (h : ∀ i, (h1 : i < u.length) → (h2 : i < est.length) → u[i] = true → |est[i] - a| ≤ B) :
    |(mask u est).sum - (mask u est).length * a| ≤ (mask u est).length * B := by
  induction u generalizing est with
  | nil => simp [mask]
  | cons t us ih =>
    cases est with
    | nil => simp [mask]
    | cons y ys =>
      have h' := ih (est := ys) fun i h1 h2 hu =>
        h (i + 1) (by simpa using h1) (by simpa using h2) (by simpa using hu)
      cases t with
      | false => simpa [mask_cons_false] using h'
      | true =>
        have h0 : |y - a| ≤ B := h 0 (by simp) (by simp) rfl
        simp only [mask_cons_true, List.sum_cons, List.length_cons, Nat.cast_add, Nat.cast_one]
        have : y + (mask us ys).sum - ((mask us ys).length + 1) * a
            = (y - a) + ((mask us ys).sum - (mask us ys).length * a) := by ring
        rw [this]
        refine (abs_add_le _ _).trans ?_
        linarith

/-- **C113**: data that are exact (charge balance of the mixture of sample and acid) up to errors of at
most `ε` kg in the titrant mass and `δ` in the pH of each point used give the alkalinity up to the
error bound of the worst point. -/
theorem C113_error (w : World) (f : String) (S : Flt) (kw : Dict Val) (x K : String → ℝ)
    (A c n g lo hi M ε δ B : ℝ) (tm pH tm₀ pH₀ : List ℝ) (h : PHRun w f S kw x K c n g lo hi M tm pH)
    (hc : 0 ≤ c) (hg : 0 ≤ g) (hgn : g ≤ n)
    (hl : tm₀.length = tm.length) (hl' : pH₀.length = pH.length) (hm₀ : ∀ m ∈ tm₀, 0 ≤ m)
    (hbal : ∀ i, (hp : i < pH₀.length) → (ht : i < tm₀.length) →
      (mixture x K tm₀[i] M c g).alk 3 ((10 : ℝ) ^ (-pH₀[i])) * (tm₀[i] + M) = A * M - tm₀[i] * c * n)
    (hin : ∃ p ∈ pH, lo ≤ p ∧ p ≤ hi)
    (herr : ∀ i, (hp : i < pH.length) → (ht : i < tm.length) → (hp' : i < pH₀.length) →
      (ht' : i < tm₀.length) → lo ≤ pH[i] → pH[i] ≤ hi →
      |tm[i] - tm₀[i]| ≤ ε ∧ |pH[i] - pH₀[i]| ≤ δ ∧ errorAt x K c n g lo hi M ε δ tm[i] ≤ B) :
    ∃ (r : SolvePH) (T : List Flt) (a : ℝ),
      files_solve w f (fin c) S kw = .ok (.pH r (pH.map fin) T) ∧ r.alkalinity = fin a ∧
      |a - 1e6 * A| ≤ 1e6 * B / M := by
  obtain ⟨r, T, est, h1, hle, hest, -, h5⟩ := C109_estimates w f S kw x K c n g lo hi M tm pH h hin
  refine ⟨r, T, _, h1, h5, ?_⟩
  have hM := h.mass
  have hpt : ∀ i, (h1 : i < (pH.map fun p => decide (lo ≤ p) && decide (p ≤ hi)).length) →
      (h2 : i < est.length) → (pH.map fun p => decide (lo ≤ p) && decide (p ≤ hi))[i] = true →
      |est[i] - 1e6 * A| ≤ 1e6 * B / M := by
    intro i h1 h2 hu
    have hp : i < pH.length := by simpa using h1
    have ht : i < tm.length := by rw [h.lengths]; exact hp
    simp only [List.getElem_map, Bool.and_eq_true, decide_eq_true_eq] at hu
    obtain ⟨e1, e2, e3⟩ := herr i hp ht (by omega) (by omega) hu.1 hu.2
    have hb := hbal i (by omega) (by omega)
    have hpe := point_error hM (h.masses _ (List.getElem_mem ht)) (hm₀ _ (List.getElem_mem (by omega)))
      hc hg hgn (fun k hk => (h.sample.contents k hk).2) (fun k hk => (h.sample.constants k hk).2)
      hu e1 e2
    rw [hest i hp ht h2]
    have e : 1e6 * ((mixture x K tm[i] M c g).alk 3 ((10 : ℝ) ^ (-pH[i])) * (tm[i] + M) + tm[i] * c * n) / M
        - 1e6 * A = 1e6 * (((mixture x K tm[i] M c g).alk 3 ((10 : ℝ) ^ (-pH[i])) * (tm[i] + M)
          + tm[i] * c * n) - ((mixture x K tm₀[i] M c g).alk 3 ((10 : ℝ) ^ (-pH₀[i])) * (tm₀[i] + M)
          + tm₀[i] * c * n)) / M := by
      rw [hb]
      field_simp
      ring
    rw [e, abs_div, abs_mul, abs_of_pos hM, abs_of_pos (by norm_num : (0 : ℝ) < 1e6)]
    apply div_le_div_of_nonneg_right _ hM.le
    apply mul_le_mul_of_nonneg_left (hpe.trans e3) (by norm_num)
  have hmean := mask_mean_error hpt
  have hlen : (mask (pH.map fun p => decide (lo ≤ p) && decide (p ≤ hi)) est).length
      = (pH.filter fun p => decide (lo ≤ p) && decide (p ≤ hi)).length := by
    rw [← mask_eq_filter]
    exact mask_length_eq hle
  rw [hlen] at hmean
  have hpos : (0 : ℝ) < ((pH.filter fun p => decide (lo ≤ p) && decide (p ≤ hi)).length : ℝ) := by
    obtain ⟨p, hp, hlo, hhi⟩ := hin
    have : p ∈ pH.filter fun p => decide (lo ≤ p) && decide (p ≤ hi) :=
      List.mem_filter.mpr ⟨hp, by simp [hlo, hhi]⟩
    exact_mod_cast List.length_pos_of_mem this
  set N : ℝ := ((pH.filter fun p => decide (lo ≤ p) && decide (p ≤ hi)).length : ℝ)
  set s := (mask (pH.map fun p => decide (lo ≤ p) && decide (p ≤ hi)) est).sum
  rw [show s / N - 1e6 * A = (s - N * (1e6 * A)) / N by field_simp, abs_div, abs_of_pos hpos,
    div_le_iff₀ hpos]
  linarith

/-! ## Written files -/

/-- kg of titrant per unit of the amounts in the file -/
def UnitFactor (kw : Dict Val) (u : ℝ) : Prop :=
  (∃ s, kw.get? "titrant_amount_unit" = some (.str s) ∧ lowerS s = "g" ∧ u = 1e-3) ∨
  (∃ s, kw.get? "titrant_amount_unit" = some (.str s) ∧ lowerS s = "kg" ∧ u = 1) ∨
  ((kw.get? "titrant_amount_unit" = none ∨
      ∃ s, kw.get? "titrant_amount_unit" = some (.str s) ∧ lowerS s = "ml") ∧
    ∃ d, kw.get? "titrant_density" = some (.num (fin d)) ∧ u = d * 1e-3)

theorem cau_get? (kw : Dict Val) {k : String} (hk : keys_cau.contains k = true) :
    Dict.get? (get_kwargs_for keys_cau kw none) k = kw.get? k := by
  rw [show get_kwargs_for keys_cau kw none = kw.filter fun kv => keys_cau.contains kv.1 from rfl,
    Dict.get?_filter (fun k => keys_cau.contains k), if_pos hk]

theorem UnitFactor.masses {kw : Dict Val} {u : ℝ} (h : UnitFactor kw u) {dd : DatData} {tm : List Flt}
    (hr : titrant_masses dd (get_kwargs_for keys_cau kw none) = .ok tm) {a : List ℝ}
    (ha : dd.titrant_amount = a.map fin) : tm = (a.map (· * u)).map fin := by
  unfold titrant_masses argVal argOpt at hr
  rw [cau_get? kw (by decide), cau_get? kw (by decide)] at hr
  rcases h with ⟨s, hs, hl, rfl⟩ | ⟨s, hs, hl, rfl⟩ | ⟨hs, d, hd, rfl⟩
  · rw [hs] at hr
    simp [Val.lower, hl, bind_ok, pyAssert] at hr
    rw [← hr, ha]
    simp [List.map_map, Function.comp_def]
  · rw [hs] at hr
    simp [Val.lower, hl, bind_ok, pyAssert] at hr
    rw [← hr, ha]
    simp
  · have hu : ((kw.get? "titrant_amount_unit").getD (.str "ml")).lower = .ok "ml" := by
      rcases hs with hs | ⟨s, hs, hl⟩ <;> rw [hs]
      · have : lowerS "ml" = "ml" := by decide
        exact congrArg Except.ok this
      · simp [Val.lower, hl]
    rw [hu, hd] at hr
    simp [Val.toFlt, bind_ok, pure_ok, pyAssert] at hr
    rw [← hr, ha]
    simp [List.map_map, Function.comp_def, mul_assoc]

/-- the arguments of a pH-mode solve with everything given, as in `PHRun`, whatever the data -/
structure PHArgs (w : World) (kw : Dict Val) (x K : String → ℝ) (c n g lo hi M : ℝ) : Prop where
  keepsTotals : KeepsTotals w
  keepsKs : KeepsKs w
  nodup : kw.keys.Nodup
  mode : ∃ s, kw.get? "solve_mode" = some (.str s) ∧ lowerS s = "ph"
  sample : GivenSample kw x K
  sulfate : NumOr kw "titrant_total_sulfate" 0 g
  no_phosphate : kw.get? "titrant_total_phosphate" = none
  no_fluoride : kw.get? "titrant_total_fluoride" = none
  normality : NumOr kw "titrant_normality" 1 n
  pH_min : NumOr kw "pH_min" 3 lo
  pH_max : NumOr kw "pH_max" 4 hi
  window : lo < hi
  mass : 0 < M
  acid : 0 ≤ c * g

theorem PHArgs.run {w : World} {f : String} {S : Flt} {kw : Dict Val} {x K : String → ℝ}
    {c n g lo hi M : ℝ} (h : PHArgs w kw x K c n g lo hi M) {tm pH : List ℝ}
    (hload : ∃ cv totals ks, load w f S kw = .ok (cv, totals, ks) ∧
      cv.titrant_mass = tm.map fin ∧ cv.analyte_mass = fin M ∧ cv.measurement = pH.map fin)
    (hl : tm.length = pH.length) (hm : ∀ m ∈ tm, 0 ≤ m) : PHRun w f S kw x K c n g lo hi M tm pH :=
  ⟨hload, h.keepsTotals, h.keepsKs, h.nodup, h.mode, h.sample, h.sulfate, h.no_phosphate,
    h.no_fluoride, h.normality, h.pH_min, h.pH_max, h.window, hl, h.mass, hm, h.acid⟩

/-- no settings for reading the file -/
def NoReadSettings (kw : Dict Val) : Prop := ∀ k ∈ "file_path" :: keys_read_dat, kw.get? k = none

theorem NoReadSettings.nil {kw : Dict Val} (h : NoReadSettings kw) :
    get_kwargs_for keys_read_dat kw none = [] := by
  rw [show get_kwargs_for keys_read_dat kw none
    = kw.filter fun kv => keys_read_dat.contains kv.1 from rfl, List.filter_eq_nil_iff]
  intro kv hkv hc
  have := (Dict.get?_eq_none_iff kw kv.1).mp (h kv.1 (List.mem_cons_of_mem _ (by simpa using hc)))
  exact this (List.mem_map.mpr ⟨kv, hkv, rfl⟩)

/-- columns of real numbers that were written and read -/
theorem rounded_reals {k : ℕ} {xs : List ℝ} {ys : List Flt} (h : ColumnRounded k xs.length (xs.map fin) ys) :
    ∃ zs : List ℝ, ys = zs.map fin ∧ zs.length = xs.length ∧
      ∀ i, (h1 : i < xs.length) → (h2 : i < zs.length) →
        (∃ z : ℤ, zs[i] = z / 10 ^ k) ∧ |xs[i] - zs[i]| ≤ (1 / 2) / 10 ^ k := by
  have key : ∀ i, (h1 : i < xs.length) → ∃ z : ℝ, ys[i]? = some (fin z) ∧
      (∃ q : ℤ, z = q / 10 ^ k) ∧ |xs[i] - z| ≤ (1 / 2) / 10 ^ k := by
    intro i h1
    obtain ⟨y, hy, hr⟩ := h.2 i (fin xs[i]) h1 (by simp [h1])
    cases y with
    | fin z => exact ⟨z, hy, hr.1.imp fun _ h => h.1, hr.2⟩
    | nan => exact absurd hr id
    | pinf => exact absurd hr id
    | ninf => exact absurd hr id
  choose f hf using key
  refine ⟨List.ofFn fun i : Fin xs.length => f i i.2, ?_, by simp, ?_⟩
  · apply List.ext_getElem?
    intro i
    by_cases hi : i < xs.length
    · rw [(hf i hi).1]
      simp [hi]
    · rw [List.getElem?_eq_none (by rw [h.1]; omega), List.getElem?_eq_none (by simp; omega)]
  · intro i h1 h2
    simp only [List.getElem_ofFn]
    exact (hf i h1).2

theorem rounded_nonneg {x y : ℝ} {k : ℕ} (hx : 0 ≤ x) (hz : ∃ z : ℤ, y = z / 10 ^ k)
    (h : |x - y| ≤ (1 / 2) / 10 ^ k) : 0 ≤ y := by
  obtain ⟨z, rfl⟩ := hz
  have hk : (0 : ℝ) < 10 ^ k := by positivity
  by_contra hc
  have hz : (z : ℝ) < 0 := by
    by_contra h'
    exact hc (div_nonneg (not_lt.mp h') hk.le)
  have hz1 : (z : ℝ) ≤ -1 := by
    have : z < 0 := by exact_mod_cast hz
    exact_mod_cast Int.le_sub_one_of_lt this
  have h2 := (abs_le.mp h).2
  have h3 : (z : ℝ) / 10 ^ k ≤ -1 / 10 ^ k := div_le_div_of_nonneg_right hz1 hk.le
  have h4 : (1 / 2 : ℝ) / 10 ^ k < 1 / 10 ^ k := div_lt_div_of_pos_right (by norm_num) hk
  rw [neg_div] at h3
  linarith

/-- **C113**: exact data written to a new file by `write_dat` with default formats and solved from there:
the file gives the alkalinity up to the error bound for 0.0005 units of titrant and 0.0005 in pH. -/
theorem C113_written (w : World) (fs : FS) (pd : Pandas) (f : String) (S : Flt) (kw : Dict Val)
    (x K : String → ℝ) (A c n g lo hi M u B : ℝ) (amount pH T : List ℝ)
    (hnew : fs f = none) (hl : pH.length = amount.length) (hl' : T.length = amount.length)
    (hlen : 2 ≤ amount.length)
    (hw : w.readDat = readDatFrom
      ((write_dat f (amount.map fin) (pH.map fin) (T.map fin) : PyS FS Unit) fs).2 pd)
    (hset : NoReadSettings kw) (hu : UnitFactor kw u) (hu0 : 0 ≤ u)
    (hmass : kw.get? "analyte_mass" = some (.num (fin M))) (hload : ∃ out, load w f S kw = .ok out)
    (hrun : PHArgs w kw x K c n g lo hi M)
    (hc : 0 ≤ c) (hg : 0 ≤ g) (hgn : g ≤ n) (ha : ∀ a ∈ amount, 0 ≤ a)
    (hbal : ∀ i, (hp : i < pH.length) → (ht : i < amount.length) →
      (mixture x K (amount[i] * u) M c g).alk 3 ((10 : ℝ) ^ (-pH[i])) * (amount[i] * u + M)
        = A * M - amount[i] * u * c * n)
    (hin : ∃ p ∈ pH, lo + 0.0005 ≤ p ∧ p ≤ hi - 0.0005)
    (hB : ∀ m, 0 ≤ m → (∃ a ∈ amount, |m - a * u| ≤ 0.0005 * u) →
      errorAt x K c n g lo hi M (0.0005 * u) 0.0005 m ≤ B) :
    ∃ (r : SolvePH) (pH' T' : List Flt) (a : ℝ),
      files_solve w f (fin c) S kw = .ok (.pH r pH' T') ∧ r.alkalinity = fin a ∧
      |a - 1e6 * A| ≤ 1e6 * B / M := by
  obtain ⟨⟨cv, totals, ks⟩, hload⟩ := hload
  obtain ⟨fname, dd, h1, h2, h3, -⟩ := load_parts hload
  have hfn : fname = f := by
    unfold full_name at h1
    rw [hset "file_path" List.mem_cons_self] at h1
    exact (Except.ok.inj h1).symm
  subst hfn
  obtain ⟨fs', d, e1, e2, ca, cm, -⟩ := C53_round_trip fs pd fname (amount.map fin) (pH.map fin)
    (T.map fin) "Titration data exported by Calkulate" "titrant_amount\tmeasurement\ttemperature" 3 3 3
    (by constructor <;> decide) (by constructor <;> decide) hnew (by simp; omega)
  have hmin : min (amount.map fin).length (min (pH.map fin).length (T.map fin).length)
      = amount.length := by simp; omega
  rw [hmin] at ca cm
  rw [← hl] at cm
  have hdd : dd = d := by
    rw [hw, hset.nil, e1] at h2
    unfold readDatFrom at h2
    rw [e2] at h2
    exact (Except.ok.inj h2).symm
  subst hdd
  obtain ⟨a', ha', hla, hra⟩ := rounded_reals ca
  obtain ⟨p', hp', hlp, hrp⟩ := rounded_reals cm
  unfold amount_units at h3
  simp only [bind_ok_iff, pure_ok, Except.ok.injEq] at h3
  obtain ⟨T'', -, tm, htm, am, ham, hcv⟩ := h3
  have htm' := hu.masses htm ha'
  have ham' : am = fin M := by
    unfold get_analyte_mass argNotNull at ham
    rw [cau_get? kw (by decide), hmass] at ham
    simp [Val.isNull, Val.toFlt, bind_ok, pure_ok] at ham
    exact ham.symm
  have hn0 : ∀ i, (h1 : i < amount.length) → (h2 : i < a'.length) → 0 ≤ a'[i] := fun i h1 h2 =>
    rounded_nonneg (ha _ (List.getElem_mem h1)) (hra i h1 h2).1 (hra i h1 h2).2
  have hrunit := hrun.run (f := fname) (S := S) (tm := a'.map (· * u)) (pH := p') ⟨cv, totals, ks, hload, by rw [← hcv]; exact htm',
    by rw [← hcv]; exact ham', by rw [← hcv]; exact hp'⟩ (by simp; omega) (by
      intro m hm
      obtain ⟨y, hy, rfl⟩ := List.mem_map.mp hm
      obtain ⟨i, hi, rfl⟩ := List.mem_iff_getElem.mp hy
      exact mul_nonneg (hn0 i (by omega) hi) hu0)
  obtain ⟨r, T', a, h4, h5, h6⟩ := C113_error w fname S kw x K A c n g lo hi M (0.0005 * u) 0.0005 B
    (a'.map (· * u)) p' (amount.map (· * u)) pH hrunit hc hg hgn (by simp [hla]) (by omega) (by
      intro m hm
      obtain ⟨y, hy, rfl⟩ := List.mem_map.mp hm
      exact mul_nonneg (ha y hy) hu0)
    (by
      intro i hp ht
      simp only [List.getElem_map]
      exact hbal i hp (by simpa using ht))
    (by
      obtain ⟨p, hp, q1, q2⟩ := hin
      obtain ⟨i, hi, rfl⟩ := List.mem_iff_getElem.mp hp
      have := (hrp i hi (by omega)).2
      have := abs_le.mp this
      norm_num at this
      exact ⟨p'[i]'(by omega), List.getElem_mem _, by linarith [this.1, this.2],
        by linarith [this.1, this.2]⟩)
    (by
      intro i hp ht hp0 ht0 _ _
      simp only [List.getElem_map]
      have hi : i < a'.length := by simpa using ht
      have hi' : i < amount.length := by omega
      have q1 := (hra i hi' hi).2
      have q2 := (hrp i hp0 hp).2
      have r1 : |a'[i] * u - amount[i] * u| ≤ 0.0005 * u := by
        rw [← sub_mul, abs_mul, abs_of_nonneg hu0, abs_sub_comm]
        apply mul_le_mul_of_nonneg_right _ hu0
        exact q1.trans (by norm_num)
      refine ⟨r1, ?_, ?_⟩
      · rw [abs_sub_comm]
        exact q2.trans (by norm_num)
      · exact hB _ (mul_nonneg (hn0 i hi' hi) hu0) ⟨amount[i], List.getElem_mem _, r1⟩)
  exact ⟨r, _, T', a, h4, h5, h6⟩

/-! ### A case -/

/-- `pArgs` with the amounts in g -/
noncomputable def grArgs : Dict Val :=
  [ ("solve_mode", .str "pH"), ("analyte_mass", .num (fin 0.1)), ("titrant_amount_unit", .str "g"),
    ("titrant_normality", .num (fin 2)), ("titrant_total_sulfate", .num (fin 1)) ] ++
  (("dic" :: (optionalContents ++ saltContents)).map fun k => (k, Val.num (fin (pContents k)))) ++
  allConstants.map fun k => (k, Val.num (fin (pConstants k)))

/-- a world that reads files -/
noncomputable def readWorld (fs : FS) (pd : Pandas) : World := { keepWorld with readDat := readDatFrom fs pd }

theorem gr_args (fs : FS) (pd : Pandas) :
    PHArgs (readWorld fs pd) grArgs pContents pConstants 0.1 2 1 3 4 0.1 := by
  refine ⟨keepWorld_totals, keepWorld_ks, ?_, ⟨"pH", rfl, by decide⟩, ⟨?_, ?_, ?_⟩, .inl rfl, rfl,
    rfl, .inl rfl, .inr ⟨rfl, rfl⟩, .inr ⟨rfl, rfl⟩, by norm_num, by norm_num, by norm_num⟩
  · have : Dict.keys grArgs = [ "solve_mode", "analyte_mass", "titrant_amount_unit",
      "titrant_normality", "titrant_total_sulfate" ] ++
      ("dic" :: (optionalContents ++ saltContents)) ++ allConstants := rfl
    rw [this]
    decide
  · intro k hk
    refine ⟨?_, by norm_num [pContents]⟩
    simp only [optionalContents, saltContents, List.cons_append, List.nil_append, List.mem_cons,
      List.not_mem_nil, or_false] at hk
    rcases hk with rfl | rfl | rfl | rfl | rfl | rfl | rfl | rfl | rfl | rfl <;> rfl
  · intro k hk
    refine ⟨?_, by norm_num [pConstants]⟩
    simp only [allConstants, List.mem_cons, List.not_mem_nil, or_false] at hk
    rcases hk with rfl | rfl | rfl | rfl | rfl | rfl | rfl | rfl | rfl | rfl | rfl | rfl | rfl | rfl
      <;> rfl
  · exact not_onTotalScale rfl

theorem gr_ks (fs : FS) (pd : Pandas) (T : List Flt) : ∃ ks, ∀ tp, get_k_constants (readWorld fs pd) tp T
      ((get_kwargs_for keys_totals_ks grArgs none).filter
        fun kv => keys_get_k_constants.contains kv.1) = .ok ks := by
  have hkw : ((get_kwargs_for keys_totals_ks grArgs none).filter
      fun kv => keys_get_k_constants.contains kv.1)
        = allConstants.map fun k => (k, Val.num (fin 1e-6)) := rfl
  rw [hkw]
  simp [get_k_constants, readWorld, keepWorld, ks_for_pyco2, argNotNull, Dict.get?, Val.toFlt, bind_ok,
    pure_ok, Val.isNull, calk_to_pyco2_ks, setIf, Dict.set, argVal, Val.eqNum, feq, allConstants]

theorem gr_totals (fs : FS) (pd : Pandas) (n : ℕ) : ∃ t tp, get_totals (readWorld fs pd) (fin 35)
      ((get_kwargs_for keys_totals_ks grArgs none).filter fun kv => keys_get_totals.contains kv.1)
        = .ok (t, tp) ∧ ∀ kv ∈ t, kv.2.fits n = true := by
  have hkw : ((get_kwargs_for keys_totals_ks grArgs none).filter
      fun kv => keys_get_totals.contains kv.1)
        = ("dic" :: (optionalContents ++ saltContents)).map fun k => (k, Val.num (fin 10)) := rfl
  rw [hkw]
  simp [get_totals, readWorld, keepWorld, argNum, argNotNull, Dict.get?, Val.toFlt, bind_ok, pure_ok,
    copyIfPos, Val.isNull, Dict.get, Dict.get?_append, totals_for_pyco2, setIf_get?,
    optionalContents, saltContents, setIfPos, Dict.set, NpVal.fits]
  intro a b h
  rcases h with h | h | h | h | h | h | h | h | h | h <;> rw [h.2]

/-- whatever a file holds, it can be loaded if it can be read -/
theorem gr_load (fs : FS) (pd : Pandas) (f : String) (d : DatData)
    (h : readDatFrom fs pd f [] = .ok d) : ∃ out, load (readWorld fs pd) f (fin 35) grArgs = .ok out := by
  set tm := d.titrant_amount.map fun x => x * fin 1e-3 with htm
  obtain ⟨t, tp, h1, hfit⟩ := gr_totals fs pd tm.length
  obtain ⟨ks, h2⟩ := gr_ks fs pd d.temperature
  obtain ⟨totals, h3, -⟩ := C05_dilute_totals t tm (fin 0.1) hfit
  refine ⟨(⟨tm, d.measurement, d.temperature, fin 0.1, fin 35⟩, totals, ks), ?_⟩
  unfold load
  have e1 : full_name f grArgs = .ok f := rfl
  have e2 : (readWorld fs pd).readDat f (get_kwargs_for keys_read_dat grArgs none) = .ok d := h
  have e3 : amount_units d (fin 35) (get_kwargs_for keys_cau grArgs none)
      = .ok ⟨tm, d.measurement, d.temperature, fin 0.1, fin 35⟩ := by
    have hkw : get_kwargs_for keys_cau grArgs none
      = [("analyte_mass", .num (fin 0.1)), ("titrant_amount_unit", .str "g")] := rfl
    rw [hkw]
    simp [amount_units, override_temperature, titrant_masses, get_analyte_mass, argOpt, argVal,
      argNotNull, Dict.get?, Val.toFlt, Val.isNull, Val.lower, bind_ok, pure_ok, pyAssert, htm,
      show lowerS "g" = "g" by decide]
  have e4 : totals_for_ks ⟨tm, d.measurement, d.temperature, fin 0.1, fin 35⟩ tp
      (get_kwargs_for keys_totals_ks grArgs none) = .ok tp := rfl
  rw [e1, bind_ok, e2, bind_ok, e3, bind_ok]
  unfold totals_ks
  simp only [h1, bind_ok, h3, e4, h2]
  rfl

/-- the error bound in this case -/
theorem gr_bound {m : ℝ} (hm0 : 0 ≤ m) (hm : m ≤ 0.0021) :
    errorAt pContents pConstants 0.1 2 1 3 4 0.1 (0.0005 * 1e-3) 0.0005 m ≤ 6e-5 := by
  have hd : (10 : ℝ) ^ (0.0005 : ℝ) ≤ 1.0045 := by
    have := _root_.rpow_one_add_le_one_add_mul_self (s := 9) (by norm_num) (p := 0.0005) (by norm_num)
      (by norm_num)
    norm_num at this ⊢
    linarith
  have hd1 : (1 : ℝ) ≤ (10 : ℝ) ^ (0.0005 : ℝ) := Real.one_le_rpow (by norm_num) (by norm_num)
  have h4 : (10 : ℝ) ^ (4 + 0.0005 : ℝ) ≤ 10045 := by
    rw [Real.rpow_add (by norm_num)]
    have : (10 : ℝ) ^ (4 : ℝ) = 10000 := by norm_num
    rw [this]; linarith
  have h3 : (10 : ℝ) ^ (-3 : ℝ) = 1e-3 := by
    rw [Real.rpow_neg (by norm_num)]; norm_num
  have h3' : (10 : ℝ) ^ (0.0005 - 3 : ℝ) ≤ 1.0045e-3 := by
    rw [sub_eq_add_neg, Real.rpow_add (by norm_num), h3]; linarith
  set L := (10 : ℝ) ^ (-(4 + 0.0005) : ℝ) with hL
  have hL0 : (0.99e-4 : ℝ) ≤ L := by
    rw [hL, Real.rpow_neg (by norm_num), ← one_div, le_div_iff₀ (by positivity)]
    linarith
  have hLp : 0 < L := by linarith
  have hLL : (0.98e-8 : ℝ) ≤ L ^ 2 := by nlinarith
  have q : ∀ a : ℝ, 0 ≤ a → a / L ^ 2 ≤ a * 1.03e8 := by
    intro a ha
    rw [div_le_iff₀ (by positivity)]
    nlinarith
  have hmono : mono 1e-6 L ≤ 103 := by
    unfold mono
    rw [div_le_iff₀ (by positivity)]
    nlinarith
  have hmono0 : 0 ≤ mono 1e-6 L := mono_nonneg (by norm_num) hLp
  have hT : (10 * 1e-6 * 0.1) / (m + 0.1) ≤ 1e-5 := by
    rw [div_le_iff₀ (by positivity)]; nlinarith
  have hT0 : 0 ≤ (10 * 1e-6 * 0.1) / (m + 0.1) := by positivity
  have hS : (10 * 1e-6 * 0.1 + m * 0.1 * 1) / (m + 0.1) ≤ 2.2e-3 := by
    rw [div_le_iff₀ (by positivity)]; nlinarith
  have hS0 : 0 ≤ (10 * 1e-6 * 0.1 + m * 0.1 * 1) / (m + 0.1) := by positivity
  set T := (10 * 1e-6 * 0.1) / (m + 0.1)
  set U := (10 * 1e-6 * 0.1 + m * 0.1 * 1) / (m + 0.1)
  have q1 := q 1e-6 (by norm_num)
  have q2 := q (2 * 1e-6) (by norm_num)
  have q3 := q (2 * 1e-6 + 7 * 1e-6) (by norm_num)
  have q20 : (0 : ℝ) ≤ 2 * 1e-6 / L ^ 2 := by positivity
  have q30 : (0 : ℝ) ≤ (2 * 1e-6 + 7 * 1e-6) / L ^ 2 := by positivity
  have hbuf : (mixture pContents pConstants m 0.1 0.1 1).buffering L
      = 1e-6 / L ^ 2 + T * (mono 1e-6 L + mono 1e-6 L + 2 * 1e-6 / L ^ 2) + T * mono 1e-6 L
        + T * (mono 1e-6 L + mono 1e-6 L + mono 1e-6 L + (2 * 1e-6 + 7 * 1e-6) / L ^ 2)
        + T * mono 1e-6 L + T * mono 1e-6 L + T * mono 1e-6 L + T * mono 1e-6 L + T * mono 1e-6 L
        + T * mono 1e-6 L + U * mono 1e-6 L := by
    have hk : ∀ k, k ≠ "total_sulfate" → mixContent pContents m 0.1 0.1 1 k = T := by
      intro k hk; unfold mixContent pContents; rw [if_neg hk, add_zero]
    have hs : mixContent pContents m 0.1 0.1 1 "total_sulfate" = U := by
      unfold mixContent pContents; rw [if_pos rfl]
    simp only [Sol.buffering, mixture, hs, hk "dic" (by decide), hk "total_borate" (by decide),
      hk "total_phosphate" (by decide), hk "total_silicate" (by decide), hk "total_ammonia" (by decide),
      hk "total_sulfide" (by decide), hk "total_alpha" (by decide), hk "total_beta" (by decide),
      hk "total_fluoride" (by decide), pConstants]
  have p1 : T * mono 1e-6 L ≤ 1e-5 * 103 := mul_le_mul hT hmono hmono0 (by norm_num)
  have p2 : U * mono 1e-6 L ≤ 2.2e-3 * 103 := mul_le_mul hS hmono hmono0 (by norm_num)
  have p3 : T * (2 * 1e-6 / L ^ 2) ≤ 1e-5 * (2 * 1e-6 * 1.03e8) := mul_le_mul hT q2 q20 (by norm_num)
  have p4 : T * ((2 * 1e-6 + 7 * 1e-6) / L ^ 2) ≤ 1e-5 * ((2 * 1e-6 + 7 * 1e-6) * 1.03e8) :=
    mul_le_mul hT q3 q30 (by norm_num)
  have hB : 1 + (mixture pContents pConstants m 0.1 0.1 1).buffering L ≤ 105 := by
    rw [hbuf]
    simp only [mul_add]
    linarith
  have hB0 : 0 ≤ 1 + (mixture pContents pConstants m 0.1 0.1 1).buffering L := by
    rw [hbuf]; positivity
  unfold errorAt
  rw [← hL, h3]
  have r1 : (m + 0.1) * (1 + (mixture pContents pConstants m 0.1 0.1 1).buffering L) ≤ 0.1021 * 105 :=
    mul_le_mul (by linarith) hB hB0 (by norm_num)
  have r2 : (m + 0.1) * (1 + (mixture pContents pConstants m 0.1 0.1 1).buffering L)
      * (1e-3 * ((10 : ℝ) ^ (0.0005 : ℝ) - 1)) ≤ 0.1021 * 105 * (1e-3 * 0.0045) :=
    mul_le_mul r1 (by linarith) (by linarith) (by norm_num)
  have r3 : pConstants "k_water" * (10 : ℝ) ^ (4 + 0.0005 : ℝ) ≤ 1e-6 * 10045 := by
    unfold pConstants; linarith
  have r4 : 0.0005 * 1e-3 * (0.1 * 2 + pConstants "k_water" * (10 : ℝ) ^ (4 + 0.0005 : ℝ)
      + (10 : ℝ) ^ (0.0005 - 3 : ℝ)) ≤ 0.0005 * 1e-3 * (0.1 * 2 + 1e-6 * 10045 + 1.0045e-3) := by
    apply mul_le_mul_of_nonneg_left _ (by norm_num)
    linarith
  refine (add_le_add r2 r4).trans (by norm_num)

/-- C113 applies: exact data, in g, written to a new file and solved from there -/
example (pd : Pandas) (p : ℝ) (hp : 3.0005 ≤ p ∧ p ≤ 3.9995) : ∃ (q A : ℝ) (fs : FS) (r : SolvePH)
    (pH T : List Flt) (a : ℝ), readWorld fs pd = readWorld ((write_dat "a.dat" [fin 1, fin 2] [fin p, fin q]
        [fin 25, fin 25] : PyS FS Unit) (fun _ => none)).2 pd ∧
      files_solve (readWorld fs pd) "a.dat" (fin 0.1) (fin 35) grArgs = .ok (.pH r pH T) ∧
      r.alkalinity = fin a ∧ |a - 1e6 * A| ≤ 600 := by
  obtain ⟨q, A, hex⟩ := p_exact p
  set fs := ((write_dat "a.dat" [fin 1, fin 2] [fin p, fin q] [fin 25, fin 25] : PyS FS Unit)
    (fun _ => none)).2 with hfs
  have hload : ∃ out, load (readWorld fs pd) "a.dat" (fin 35) grArgs = .ok out := by
    obtain ⟨fs', d, h1, h2, -⟩ := C53_round_trip (fun _ => none) pd "a.dat" [fin 1, fin 2] [fin p, fin q]
      [fin 25, fin 25] "Titration data exported by Calkulate" "titrant_amount\tmeasurement\ttemperature"
      3 3 3 (by constructor <;> decide) (by constructor <;> decide) rfl (by simp)
    have : fs = fs' := by rw [hfs, h1]
    refine gr_load fs pd "a.dat" d ?_
    unfold readDatFrom
    rw [this, h2]
    rfl
  have hB : ∀ m, 0 ≤ m → (∃ a ∈ ([1, 2] : List ℝ), |m - a * 1e-3| ≤ 0.0005 * 1e-3) →
      errorAt pContents pConstants 0.1 2 1 3 4 0.1 (0.0005 * 1e-3) 0.0005 m ≤ 6e-5 := by
    intro m hm0 ⟨a, ha, hm⟩
    refine gr_bound hm0 ?_
    have := (abs_le.mp hm).2
    simp only [List.mem_cons, List.not_mem_nil, or_false] at ha
    rcases ha with rfl | rfl <;> linarith
  obtain ⟨r, pH, T, a, h1, h2, h3⟩ := C113_written (readWorld fs pd) (fun _ => none) pd "a.dat" (fin 35) grArgs
    pContents pConstants A 0.1 2 1 3 4 0.1 1e-3 6e-5 [1, 2] [p, q] [25, 25] rfl rfl rfl (by simp) rfl
    (by
      intro k hk
      simp only [keys_read_dat, List.mem_cons, List.not_mem_nil, or_false] at hk
      rcases hk with rfl | rfl | rfl | rfl | rfl | rfl | rfl | rfl | rfl <;> rfl)
    (.inl ⟨"g", rfl, by decide, rfl⟩) (by norm_num) rfl hload (gr_args _ _) (by norm_num) (by norm_num)
    (by norm_num) (by intro a ha; simp at ha; rcases ha with rfl | rfl <;> norm_num)
    (by
      intro i hp ht
      have := hex i hp ht
      match i, ht with
      | 0, _ =>
        simp only [List.getElem_cons_zero] at this ⊢
        norm_num at this ⊢
        exact this
      | 1, _ =>
        simp only [List.getElem_cons_succ, List.getElem_cons_zero] at this ⊢
        norm_num at this ⊢
        exact this)
    ⟨p, by simp, by linarith [hp.1], by linarith [hp.2]⟩ hB
  exact ⟨q, A, fs, r, pH, T, a, rfl, h1, h2, h3.trans (by norm_num)⟩

end Calk
