import Verif.Props.FileEmf
import Verif.Props.FileErrors

/-!
# Property C120: what errors in the data cost in EMF mode

The found alkalinity and EMF0 are the best fit (C112).  If the true ones fit the points used up to
small misfits, the found ones are close to them.
-/

namespace Calk
open Flt Spec

/-- Two points that are both fitted, nearly, with acidities in the same ratio `k` to the true ones. -/
theorem pair_stable {s₁ s₂ : Sol} (hs₁ : s₁.Valid) (hs₂ : s₂.Valid) {w₁ w₂ h₁ h₂ k lo Δ ε : ℝ}
    (hw₁ : 0 < w₁) (hw₂ : 0 < w₂) (hh₁ : 0 < h₁) (hh₂ : 0 < h₂) (hk : 0 < k) (hlo : 0 < lo) (hl : lo ≤ h₁)
    (hl' : lo ≤ k * h₁) (e₁ : |(s₁.alk 3 (k * h₁) - s₁.alk 3 h₁) * w₁ - Δ| ≤ w₁ * ε)
    (e₂ : |(s₂.alk 3 (k * h₂) - s₂.alk 3 h₂) * w₂ - Δ| ≤ w₂ * ε) :
    |k - 1| * (w₂ * h₂ - (1 + s₁.buffering lo) * (w₁ * h₁)) ≤ (w₁ + w₂) * ε ∧
      |Δ| ≤ w₁ * ε + (1 + s₁.buffering lo) * (w₁ * h₁) * |k - 1| := by
  have hB := buffering_nonneg hs₁ hlo
  obtain ⟨a₁, b₁⟩ := abs_le.mp e₁
  obtain ⟨a₂, b₂⟩ := abs_le.mp e₂
  set B := s₁.buffering lo
  rcases le_total k 1 with h | h
  · have g₁ := alk_fall hs₁ hlo hl' (mul_le_of_le_one_left hh₁.le h)
    have g₂ := (alk_fall hs₂ (mul_pos hk hh₂) le_rfl (mul_le_of_le_one_left hh₂.le h)).1
    have k₁ := mul_le_mul_of_nonneg_right g₁.2 hw₁.le
    have k₁' := mul_le_mul_of_nonneg_right g₁.1 hw₁.le
    have k₂ := mul_le_mul_of_nonneg_right g₂ hw₂.le
    have z : 0 ≤ (h₁ - k * h₁) * w₁ := mul_nonneg (by nlinarith) hw₁.le
    rw [abs_of_nonpos (by linarith : k - 1 ≤ 0)]
    have q : (1 + B) * (h₁ - k * h₁) * w₁ = (1 + B) * (w₁ * h₁) * -(k - 1) := by ring
    rw [q] at k₁
    have q₂ : (h₂ - k * h₂) * w₂ = -(k - 1) * (w₂ * h₂) := by ring
    rw [q₂] at k₂
    refine ⟨?_, ?_⟩
    · have : -(k - 1) * (w₂ * h₂ - (1 + B) * (w₁ * h₁))
          = -(k - 1) * (w₂ * h₂) - (1 + B) * (w₁ * h₁) * -(k - 1) := by ring
      rw [this]; linarith
    · rw [abs_le]; constructor <;> linarith
  · have g₁ := alk_fall hs₁ hlo hl (le_mul_of_one_le_left hh₁.le h)
    have g₂ := (alk_fall hs₂ hh₂ le_rfl (le_mul_of_one_le_left hh₂.le h)).1
    have k₁ := mul_le_mul_of_nonneg_right g₁.2 hw₁.le
    have k₁' := mul_le_mul_of_nonneg_right g₁.1 hw₁.le
    have k₂ := mul_le_mul_of_nonneg_right g₂ hw₂.le
    have z : 0 ≤ (k * h₁ - h₁) * w₁ := mul_nonneg (by nlinarith) hw₁.le
    rw [abs_of_nonneg (by linarith : 0 ≤ k - 1)]
    have q : (1 + B) * (k * h₁ - h₁) * w₁ = (1 + B) * (w₁ * h₁) * (k - 1) := by ring
    rw [q] at k₁
    have q₂ : (k * h₂ - h₂) * w₂ = (k - 1) * (w₂ * h₂) := by ring
    rw [q₂] at k₂
    refine ⟨?_, ?_⟩
    · have : (k - 1) * (w₂ * h₂ - (1 + B) * (w₁ * h₁))
          = (k - 1) * (w₂ * h₂) - (1 + B) * (w₁ * h₁) * (k - 1) := by ring
      rw [this]; linarith
    · rw [abs_le]; constructor <;> linarith

/-- a factor within `δ < 1` of one has a small logarithm -/
theorem log_near_one {k δ : ℝ} (hk : 0 < k) (h : |k - 1| ≤ δ) (hδ : δ < 1) :
    |Real.log k| ≤ δ / (1 - δ) := by
  obtain ⟨h1, h2⟩ := abs_le.mp h
  have hδ0 : 0 ≤ δ := (abs_nonneg _).trans h
  have hp : 0 < 1 - δ := by linarith
  have hd : δ ≤ δ / (1 - δ) := by rw [le_div_iff₀ hp]; nlinarith
  rw [abs_le]
  constructor
  · have := Real.one_sub_inv_le_log_of_pos hk
    have h3 : k⁻¹ ≤ (1 - δ)⁻¹ := by gcongr; linarith
    have h4 : (1 - δ)⁻¹ = 1 + δ / (1 - δ) := by field_simp; ring
    linarith
  · have := Real.log_le_sub_one_of_pos hk
    linarith

/-- one of several numbers is no larger than the root of the sum of their squares -/
theorem abs_le_of_sum_sq {l : List ℝ} {η : ℝ} (hη : 0 ≤ η) (h : (l.map (· ^ 2)).sum ≤ l.length * η ^ 2) {x : ℝ}
    (hx : x ∈ l) : |x| ≤ Real.sqrt l.length * η := by
  have h1 : x ^ 2 ≤ (l.map (· ^ 2)).sum := by
    apply List.single_le_sum
    · intro y hy; obtain ⟨z, -, rfl⟩ := List.mem_map.mp hy; positivity
    · exact List.mem_map.mpr ⟨x, hx, rfl⟩
  apply abs_le_of_sq_le_sq
  · rw [mul_pow, Real.sq_sqrt (by positivity)]; exact h1.trans h
  · positivity

theorem sum_sq_le {α : Type} (l : List α) (f : α → ℝ) {η : ℝ} (h : ∀ x ∈ l, |f x| ≤ η) :
    (l.map fun x => f x ^ 2).sum ≤ l.length * η ^ 2 := by
  induction l with
  | nil => simp
  | cons x l ih =>
    have h1 := ih fun y hy => h y (List.mem_cons_of_mem _ hy)
    have h2 : f x ^ 2 ≤ η ^ 2 := sq_le_sq' (abs_le.mp (h x (List.mem_cons_self ..))).1
      (abs_le.mp (h x (List.mem_cons_self ..))).2
    simp only [List.map_cons, List.sum_cons, List.length_cons, Nat.cast_add, Nat.cast_one]
    linarith

/-- the acidity read with another EMF0 -/
theorem readAcidity_ratio (E E' : ℝ) (p : ℝ × ℝ × ℝ) :
    readAcidity E' p = Real.exp ((E - E') / (8.3144621 * (p.2.2 + 273.15) / 96.4853365)) * readAcidity E p := by
  unfold readAcidity
  rw [← Real.exp_add, ← add_div]
  congr 2
  ring

/-- by how much the second point's acid exceeds that of the first, with its buffering -/
noncomputable def Spec.acidExcess (x K : String → ℝ) (c g M E lo : ℝ) (p q : ℝ × ℝ × ℝ) : ℝ :=
  (q.1 + M) * readAcidity E q
    - (1 + (mixture x K p.1 M c g).buffering lo) * ((p.1 + M) * readAcidity E p)

/-- how far the acidities that are read can be off, relatively, for misfits of `ε` -/
noncomputable def Spec.acidityOff (x K : String → ℝ) (c g M E lo ε : ℝ) (p q : ℝ × ℝ × ℝ) : ℝ :=
  ((p.1 + M) + (q.1 + M)) * ε / acidExcess x K c g M E lo p q

/-- **C120**: if the true alkalinity and EMF0 fit every point used up to a misfit of `η`, then an EMF
solve with an optimiser that finds the minimum is off by no more than the bound: for two of the `N`
points used, at the same temperature, the second with clearly more acid than the first, and the first
fitted as acid. -/
theorem C120_misfit (w : World) (f : String) (S : Flt) (kw : Dict Val) (x K : String → ℝ)
    (c n g M : ℝ) (pts : List (ℝ × ℝ × ℝ)) (h : EmfRun w f S kw x K c n g M pts)
    (hmin : LsGlobalMin w.ls) (sr : SolveEmf) (T : List Flt)
    (hr : files_solve w f (fin c) S kw = .ok (.emf sr T)) (A E A' E' η : ℝ)
    (hx : sr.opt_result.x = (fin A', fin E'))
    (hη : ∀ p ∈ mask sr.used pts, |pointMisfit x K c n g M A E p| ≤ η)
    (p q : ℝ × ℝ × ℝ) (hp : p ∈ mask sr.used pts) (hq : q ∈ mask sr.used pts) (hTT : p.2.2 = q.2.2)
    (lo ε : ℝ) (hlo : 0 < lo) (hl : lo ≤ readAcidity E p) (hl' : lo ≤ readAcidity E' p)
    (hε : ε = (1 + Real.sqrt (mask sr.used pts).length) * η)
    (hmore : 0 < acidExcess x K c g M E lo p q) :
    sr.alkalinity = fin (1e6 * A') ∧ sr.emf0 = fin E' ∧
    |A' - A| * M ≤ (p.1 + M) * (ε + (1 + (mixture x K p.1 M c g).buffering lo) * readAcidity E p
      * acidityOff x K c g M E lo ε p q) ∧
    (acidityOff x K c g M E lo ε p q < 1 →
      |E' - E| ≤ 8.3144621 * (p.2.2 + 273.15) / 96.4853365 *
        (acidityOff x K c g M E lo ε p q / (1 - acidityOff x K c g M E lo ε p q))) := by
  have hbest := C112_best w f S kw x K c n g M pts h hmin sr T hr A' E' hx A E
  obtain ⟨sr', he, hrep⟩ := C112_estimates w f S kw x K c n g M pts h _ hr
  cases he
  have hne : true ∈ sr.used := true_mem_of_mask hp
  obtain ⟨r1, r2, -, -⟩ := hrep A' E' hx hne
  refine ⟨r1, r2, ?_⟩
  have hη0 : 0 ≤ η := (abs_nonneg _).trans (hη p hp)
  have hsum := hbest.trans (sum_sq_le _ _ hη)
  have hfound : ∀ y ∈ mask sr.used pts,
      |pointMisfit x K c n g M A' E' y| ≤ Real.sqrt (mask sr.used pts).length * η := by
    intro y hy
    have := abs_le_of_sum_sq (l := (mask sr.used pts).map (pointMisfit x K c n g M A' E')) hη0
      (by rw [List.map_map, List.length_map]; exact hsum) (List.mem_map.mpr ⟨y, hy, rfl⟩)
    rwa [List.length_map] at this
  have hmem : ∀ y ∈ mask sr.used pts, y ∈ pts := fun _ hy => mask_subset _ _ hy
  have hM := h.mass
  have hwt : ∀ y ∈ mask sr.used pts, 0 < y.1 + M := fun y hy =>
    add_pos_of_nonneg_of_pos (h.masses y (hmem y hy)) hM
  have hval : ∀ y ∈ mask sr.used pts, (mixture x K y.1 M c g).Valid := fun y hy =>
    mixture_valid hM (h.masses y (hmem y hy)) h.acid (fun k hk => (h.sample.contents k hk).2)
      (fun k hk => (h.sample.constants k hk).2)
  set σ := 8.3144621 * (p.2.2 + 273.15) / 96.4853365 with hσ
  have hσ0 : 0 < σ := by
    have : 0 < p.2.2 + 273.15 := by have := h.temps p (hmem p hp); linarith
    rw [hσ]; positivity
  set k := Real.exp ((E - E') / σ) with hk
  have hk0 : 0 < k := Real.exp_pos _
  have hrp : readAcidity E' p = k * readAcidity E p := readAcidity_ratio E E' p
  have hrq : readAcidity E' q = k * readAcidity E q := by
    have := readAcidity_ratio E E' q
    rw [← hTT] at this
    exact this
  have hdiff : ∀ y ∈ mask sr.used pts, readAcidity E' y = k * readAcidity E y →
      |((mixture x K y.1 M c g).alk 3 (k * readAcidity E y) - (mixture x K y.1 M c g).alk 3 (readAcidity E y))
        * (y.1 + M) - (A' - A) * M| ≤ (y.1 + M) * ε := by
    intro y hy hyr
    have h1 := hη y hy
    have h2 := hfound y hy
    have hw := hwt y hy
    have e : ((mixture x K y.1 M c g).alk 3 (k * readAcidity E y)
        - (mixture x K y.1 M c g).alk 3 (readAcidity E y)) * (y.1 + M) - (A' - A) * M
        = (y.1 + M) * (pointMisfit x K c n g M A' E' y - pointMisfit x K c n g M A E y) := by
      unfold pointMisfit
      rw [hyr]
      field_simp
      ring
    rw [e, abs_mul, abs_of_pos hw]
    apply mul_le_mul_of_nonneg_left _ hw.le
    refine (abs_sub _ _).trans ?_
    rw [hε]
    linarith
  have hap : 0 < readAcidity E p := Real.exp_pos _
  have haq : 0 < readAcidity E q := Real.exp_pos _
  obtain ⟨c1, c2⟩ := pair_stable (hval p hp) (hval q hq) (hwt p hp) (hwt q hq) hap haq hk0 hlo hl
    (by rw [← hrp]; exact hl') (hdiff p hp hrp) (hdiff q hq hrq)
  have hoff : |k - 1| ≤ acidityOff x K c g M E lo ε p q := by
    unfold acidityOff
    rw [le_div_iff₀ hmore]
    exact c1
  have hB := buffering_nonneg (hval p hp) hlo
  refine ⟨?_, fun hlt => ?_⟩
  · rw [abs_mul, abs_of_pos hM] at c2
    have hw := hwt p hp
    have := mul_le_mul_of_nonneg_left hoff (show 0 ≤ (1 + (mixture x K p.1 M c g).buffering lo)
      * ((p.1 + M) * readAcidity E p) by positivity)
    calc _ ≤ _ := c2
      _ ≤ _ := by linarith
  · have := log_near_one hk0 hoff hlt
    rw [hk, Real.log_exp, abs_div, abs_of_pos hσ0, div_le_iff₀ hσ0] at this
    rw [abs_sub_comm, mul_comm]
    exact this

/-- the pH read at a point, for the EMF0 `E` -/
noncomputable def Spec.readPH (E : ℝ) (p : ℝ × ℝ × ℝ) : ℝ := -Real.logb 10 (readAcidity E p)

theorem readPH_eq (E : ℝ) (p : ℝ × ℝ × ℝ) : readPH E p
    = (E - p.2.1) / (8.3144621 * (p.2.2 + 273.15) / 96.4853365 * Real.log 10) := by
  unfold readPH readAcidity
  rw [Real.logb, Real.log_exp, ← neg_div, ← neg_div, neg_sub, div_div]

theorem rpow_readPH (E : ℝ) (p : ℝ × ℝ × ℝ) : (10 : ℝ) ^ (-(readPH E p)) = readAcidity E p := by
  unfold readPH
  rw [neg_neg]
  exact Real.rpow_logb (by norm_num) (by norm_num) (Real.exp_pos _)

/-- A point is off by at most `ε` kg of titrant and `δ` pH units' worth of EMF from a point at which a
sample of alkalinity `A`, with an electrode of EMF0 `E`, is exact. -/
def Spec.NearExact (x K : String → ℝ) (c n g M A E ε δ : ℝ) (p : ℝ × ℝ × ℝ) : Prop :=
  ∃ m₀ e₀ : ℝ, 0 ≤ m₀ ∧ |p.1 - m₀| ≤ ε ∧
    |p.2.1 - e₀| ≤ δ * (8.3144621 * (p.2.2 + 273.15) / 96.4853365 * Real.log 10) ∧
    (mixture x K m₀ M c g).alk 3 (readAcidity E (m₀, e₀, p.2.2)) * (m₀ + M) = A * M - m₀ * c * n

theorem near_misfit {x K : String → ℝ} {c n g M A E ε δ lo hi η : ℝ} {p : ℝ × ℝ × ℝ} (hM : 0 < M)
    (hm : 0 ≤ p.1) (hT : -273.15 < p.2.2) (hc : 0 ≤ c) (hg : 0 ≤ g) (hgn : g ≤ n)
    (hx : ∀ k ∈ "dic" :: (optionalContents ++ saltContents), 0 ≤ x k)
    (hK : ∀ k ∈ allConstants, 0 < K k) (hp : lo ≤ readPH E p ∧ readPH E p ≤ hi)
    (h : NearExact x K c n g M A E ε δ p) (hη : errorAt x K c n g lo hi M ε δ p.1 ≤ η * (p.1 + M)) :
    |pointMisfit x K c n g M A E p| ≤ η := by
  obtain ⟨m₀, e₀, hm₀, h1, h2, h3⟩ := h
  have hw : 0 < p.1 + M := by linarith
  have hs : 0 < 8.3144621 * (p.2.2 + 273.15) / 96.4853365 * Real.log 10 := by
    have : 0 < p.2.2 + 273.15 := by linarith
    have := Real.log_pos (show (1 : ℝ) < 10 by norm_num)
    positivity
  have hd : |readPH E p - readPH E (m₀, e₀, p.2.2)| ≤ δ := by
    rw [readPH_eq, readPH_eq, ← sub_div, abs_div, abs_of_pos hs, div_le_iff₀ hs]
    rw [show E - p.2.1 - (E - e₀) = -(p.2.1 - e₀) by ring, abs_neg]
    exact h2
  have he := point_error hM hm hm₀ hc hg hgn hx hK hp h1 hd
  rw [rpow_readPH, rpow_readPH, h3] at he
  have e : pointMisfit x K c n g M A E p * (p.1 + M)
      = ((mixture x K p.1 M c g).alk 3 (readAcidity E p) * (p.1 + M) + p.1 * c * n)
        - (A * M - m₀ * c * n + m₀ * c * n) := by
    unfold pointMisfit
    field_simp
    ring
  rw [← e, abs_mul, abs_of_pos hw] at he
  exact le_of_mul_le_mul_right (he.trans hη) hw

/-- **C120**: errors of at most `ε` kg in the masses of titrant and of `δ` pH units' worth of EMF in the
potentials of the points used move the result of an EMF solve with an optimiser that finds the minimum
no further than the bound, which is proportional to `η`, what such errors can do to alkalinity. -/
theorem C120_errors (w : World) (f : String) (S : Flt) (kw : Dict Val) (x K : String → ℝ)
    (c n g M : ℝ) (pts : List (ℝ × ℝ × ℝ)) (h : EmfRun w f S kw x K c n g M pts)
    (hc : 0 ≤ c) (hg : 0 ≤ g) (hgn : g ≤ n)
    (hmin : LsGlobalMin w.ls) (sr : SolveEmf) (T : List Flt)
    (hr : files_solve w f (fin c) S kw = .ok (.emf sr T)) (A E A' E' lo hi ε δ η : ℝ)
    (hx : sr.opt_result.x = (fin A', fin E'))
    (hwin : ∀ p ∈ mask sr.used pts, lo ≤ readPH E p ∧ readPH E p ≤ hi)
    (hnear : ∀ p ∈ mask sr.used pts, NearExact x K c n g M A E ε δ p)
    (hη : ∀ p ∈ mask sr.used pts, errorAt x K c n g lo hi M ε δ p.1 ≤ η * (p.1 + M))
    (p q : ℝ × ℝ × ℝ) (hp : p ∈ mask sr.used pts) (hq : q ∈ mask sr.used pts) (hTT : p.2.2 = q.2.2)
    (least ε' : ℝ) (hleast : 0 < least) (hl : least ≤ readAcidity E p) (hl' : least ≤ readAcidity E' p)
    (hε : ε' = (1 + Real.sqrt (mask sr.used pts).length) * η)
    (hmore : 0 < acidExcess x K c g M E least p q) :
    sr.alkalinity = fin (1e6 * A') ∧ sr.emf0 = fin E' ∧
    |A' - A| * M ≤ (p.1 + M) * (ε' + (1 + (mixture x K p.1 M c g).buffering least) * readAcidity E p
      * acidityOff x K c g M E least ε' p q) ∧
    (acidityOff x K c g M E least ε' p q < 1 →
      |E' - E| ≤ 8.3144621 * (p.2.2 + 273.15) / 96.4853365 *
        (acidityOff x K c g M E least ε' p q / (1 - acidityOff x K c g M E least ε' p q))) := by
  refine C120_misfit w f S kw x K c n g M pts h hmin sr T hr A E A' E' η hx ?_ p q hp hq hTT least ε'
    hleast hl hl' hε hmore
  intro y hy
  have hy' := mask_subset _ _ hy
  exact near_misfit h.mass (h.masses y hy') (h.temps y hy') hc hg hgn
    (fun k hk => (h.sample.contents k hk).2) (fun k hk => (h.sample.constants k hk).2) (hwin y hy)
    (hnear y hy) (hη y hy)

/-! ### A case

The points of C112 are exact for an EMF0 of 400 mV.  Had the electrode an EMF0 of 400.001 mV, each
potential would be off by 0.001 mV. -/

theorem qAcid_nonneg : 0 ≤ qAcid := by
  have : qAlk 0.002 9e-4 * 0.102 ≤ qAlk 0.001 2e-4 * 0.101 := by
    norm_num [qAlk, Sol.alk, carbAlk, phosAlk, base, acid, extraAlk, mixture, mixContent, pContents, qConstants]
    split_ifs <;> norm_num
  unfold qAcid
  apply div_nonneg <;> linarith

/-- one ten-thousandth of a pH unit -/
theorem small_unit : (10 : ℝ) ^ (1e-4 : ℝ) ≤ 1.001 := by
  have h : (10 : ℝ) ≤ 1.001 ^ 10000 := by
    have := one_add_mul_le_pow (a := (0.001 : ℝ)) (by norm_num) 10000
    norm_num at this ⊢
    linarith
  calc (10 : ℝ) ^ (1e-4 : ℝ) ≤ ((1.001 : ℝ) ^ 10000) ^ (1e-4 : ℝ) :=
        Real.rpow_le_rpow (by norm_num) h (by norm_num)
    _ = 1.001 := by
        rw [← Real.rpow_natCast, ← Real.rpow_mul (by norm_num)]
        norm_num

theorem q_off (p : ℝ × ℝ × ℝ) (ht : p.2.2 = 25) :
    0.9999 * readAcidity 400 p ≤ readAcidity 400.001 p ∧ readAcidity 400.001 p ≤ readAcidity 400 p := by
  rw [readAcidity_ratio 400 400.001 p, ht]
  have h0 : 0 < readAcidity 400 p := Real.exp_pos _
  constructor
  · apply mul_le_mul_of_nonneg_right _ h0.le
    have := Real.add_one_le_exp (((400:ℝ) - 400.001) / (8.3144621 * (25 + 273.15) / 96.4853365))
    refine le_trans ?_ this
    norm_num
  · apply mul_le_of_le_one_left h0.le
    rw [Real.exp_le_one_iff]
    norm_num

theorem q_window (p : ℝ × ℝ × ℝ) (hp : p ∈ qPts 400) :
    3 ≤ readPH 400.001 p ∧ readPH 400.001 p ≤ 4 := by
  have key : 1e-4 ≤ readAcidity 400.001 p ∧ readAcidity 400.001 p ≤ 1e-3 := by
    simp only [qPts, List.mem_cons, List.not_mem_nil, or_false] at hp
    have ht : p.2.2 = 25 := by rcases hp with rfl | rfl <;> rfl
    have := q_off p ht
    rcases hp with rfl | rfl <;>
    · rw [read_nernst _ (by norm_num) (by norm_num)] at this
      constructor
      · refine le_trans ?_ this.1; norm_num
      · refine this.2.trans ?_; norm_num
  have h0 : 0 < readAcidity 400.001 p := Real.exp_pos _
  have a1 : Real.logb 10 (readAcidity 400.001 p) ≤ -3 := by
    rw [Real.logb_le_iff_le_rpow (by norm_num) h0, Real.rpow_neg (by norm_num)]
    refine key.2.trans ?_; norm_num
  have a2 : -4 ≤ Real.logb 10 (readAcidity 400.001 p) := by
    rw [Real.le_logb_iff_rpow_le (by norm_num) h0, Real.rpow_neg (by norm_num)]
    refine le_trans ?_ key.1; norm_num
  unfold readPH
  constructor <;> linarith

theorem q_near (p : ℝ × ℝ × ℝ) (hp : p ∈ qPts 400) :
    NearExact pContents qConstants qAcid 1 0 0.1 qTrue 400.001 0 1e-4 p := by
  have ht : p.2.2 = 25 := by
    simp only [qPts, List.mem_cons, List.not_mem_nil, or_false] at hp
    rcases hp with rfl | rfl <;> rfl
  refine ⟨p.1, p.2.1 + 0.001, (q_run 400).masses p hp, by simp, ?_, ?_⟩
  · have hl : (0.9 : ℝ) ≤ Real.log 10 := by
      refine le_trans ?_ (Real.one_sub_inv_le_log_of_pos (by norm_num))
      norm_num
    rw [sub_add_cancel_left, abs_neg, abs_of_pos (by norm_num), ht]
    calc (0.001 : ℝ) ≤ 1e-4 * (8.3144621 * (25 + 273.15) / 96.4853365 * 0.9) := by norm_num
      _ ≤ _ := by gcongr
  · have : readAcidity 400.001 (p.1, p.2.1 + 0.001, p.2.2) = readAcidity 400 p := by
      unfold readAcidity
      congr 2
      ring
    rw [this]
    exact (q_exact 400 p hp).2.2

/-- a larger least acidity, less buffering -/
theorem buffering_anti {s : Sol} (hv : s.Valid) {lo lo' : ℝ} (hlo : 0 < lo) (h : lo ≤ lo') :
    s.buffering lo' ≤ s.buffering lo := by
  have h1 := hv.kw; have h2 := hv.dic; have h3 := hv.k1; have h4 := hv.k2
  have hm : ∀ {T K : ℝ}, 0 ≤ T → 0 < K → T * mono K lo' ≤ T * mono K lo := by
    intro T K hT hK
    unfold mono
    gcongr
  have hm' : ∀ {K : ℝ}, 0 < K → mono K lo' ≤ mono K lo := by
    intro K hK
    simpa using hm zero_le_one hK
  have hd : ∀ {a : ℝ}, 0 ≤ a → a / lo' ^ 2 ≤ a / lo ^ 2 := by
    intro a ha
    gcongr
  unfold Sol.buffering
  have := hm hv.tb hv.kb
  have := hm hv.tsi hv.ksi
  have := hm hv.tnh3 hv.knh3
  have := hm hv.th2s hv.kh2s
  have := hm hv.ta hv.ka
  have := hm hv.tbeta hv.kbeta
  have := hm hv.tf hv.kf
  have := hm hv.ts hv.ks
  have := hd hv.kw
  have a1 : s.dic * (mono s.k1 lo' + mono s.k2 lo' + 2 * s.k2 / lo' ^ 2)
      ≤ s.dic * (mono s.k1 lo + mono s.k2 lo + 2 * s.k2 / lo ^ 2) := by
    apply mul_le_mul_of_nonneg_left _ hv.dic
    have := hm' hv.k1
    have := hm' hv.k2
    have := hd (a := 2 * s.k2) (by linarith)
    linarith
  have a2 : s.tp * (mono s.kp1 lo' + mono s.kp2 lo' + mono s.kp3 lo' + (2 * s.kp2 + 7 * s.kp3) / lo' ^ 2)
      ≤ s.tp * (mono s.kp1 lo + mono s.kp2 lo + mono s.kp3 lo + (2 * s.kp2 + 7 * s.kp3) / lo ^ 2) := by
    apply mul_le_mul_of_nonneg_left _ hv.tp
    have := hm' hv.kp1
    have := hm' hv.kp2
    have := hm' hv.kp3
    have := hd (a := 2 * s.kp2 + 7 * s.kp3) (by linarith [hv.kp2, hv.kp3])
    linarith
  linarith

theorem q_buffer {m lo : ℝ} (hm : m = 0.001 ∨ m = 0.002) (h : 9e-5 ≤ lo) :
    0 ≤ (mixture pContents qConstants m 0.1 qAcid 0).buffering lo ∧
      (mixture pContents qConstants m 0.1 qAcid 0).buffering lo ≤ 1.5 ∧
      (1.9e-4 ≤ lo → (mixture pContents qConstants m 0.1 qAcid 0).buffering lo ≤ 0.3) := by
  have hv : (mixture pContents qConstants m 0.1 qAcid 0).Valid := by
    refine mixture_valid (by norm_num) ?_ (by simp) (fun _ _ => by norm_num [pContents])
      (fun _ _ => by norm_num [qConstants])
    rcases hm with rfl | rfl <;> norm_num
  refine ⟨buffering_nonneg hv (by linarith), (buffering_anti hv (by norm_num) h).trans ?_, fun h' =>
    (buffering_anti hv (by norm_num) h').trans ?_⟩ <;>
  rcases hm with rfl | rfl <;>
    norm_num [Sol.buffering, mono, mixture, mixContent, pContents, qConstants]

theorem q_mass {p : ℝ × ℝ × ℝ} (hp : p ∈ qPts 400) : p.1 = 0.001 ∨ p.1 = 0.002 := by
  simp only [qPts, List.mem_cons, List.not_mem_nil, or_false] at hp
  rcases hp with rfl | rfl
  · exact .inl rfl
  · exact .inr rfl

theorem q_error (p : ℝ × ℝ × ℝ) (hp : p ∈ qPts 400) :
    errorAt pContents qConstants qAcid 1 0 3 4 0.1 0 1e-4 p.1 ≤ 3e-6 * (p.1 + 0.1) := by
  have hlo : (9e-5 : ℝ) ≤ (10 : ℝ) ^ (-(4 + 1e-4 : ℝ)) := by
    rw [Real.rpow_neg (by norm_num), Real.rpow_add (by norm_num)]
    have h1 : (10 : ℝ) ^ (4 : ℝ) * (10 : ℝ) ^ (1e-4 : ℝ) ≤ 10010 := by
      have := mul_le_mul_of_nonneg_left small_unit (show (0 : ℝ) ≤ (10 : ℝ) ^ (4 : ℝ) by positivity)
      refine this.trans ?_
      norm_num
    have h2 := inv_anti₀ (by positivity) h1
    refine le_trans ?_ h2
    norm_num
  obtain ⟨hb0, hb, -⟩ := q_buffer (q_mass hp) hlo
  have hs := small_unit
  have hs1 : (1 : ℝ) ≤ (10 : ℝ) ^ (1e-4 : ℝ) := Real.one_le_rpow (by norm_num) (by norm_num)
  have hw : 0 < p.1 + 0.1 := by rcases q_mass hp with h | h <;> rw [h] <;> norm_num
  have h3 : (10 : ℝ) ^ (-(3 : ℝ)) = 1e-3 := by rw [Real.rpow_neg (by norm_num)]; norm_num
  unfold errorAt
  rw [zero_mul, add_zero, h3, mul_assoc, mul_comm (3e-6 : ℝ)]
  apply mul_le_mul_of_nonneg_left _ hw.le
  have : (1 + (mixture pContents qConstants p.1 0.1 qAcid 0).buffering ((10 : ℝ) ^ (-(4 + 1e-4 : ℝ))))
      * (1e-3 * ((10 : ℝ) ^ (1e-4 : ℝ) - 1)) ≤ (1 + 1.5) * (1e-3 * (1.001 - 1)) := by gcongr
  exact this.trans (by norm_num)

/-- alkalinity and EMF0 of that sample are found within 20 µmol/kg and a millivolt -/
example : ∃ sr T A' E', files_solve (qWorld 400) "a.dat" (fin qAcid) (fin 35) (qArgs 400) = .ok (.emf sr T) ∧
    sr.alkalinity = fin (1e6 * A') ∧ sr.emf0 = fin E' ∧ |A' - qTrue| ≤ 2e-5 ∧ |E' - 400.001| ≤ 1 := by
  obtain ⟨sr, h, hx, hu⟩ := (q_solve 400)
  have hm : mask sr.used (qPts 400) = qPts 400 := by rw [hu]; rfl
  obtain ⟨a1, a2⟩ := q_off (0.001, nernst 400 25 2e-4, 25) rfl
  obtain ⟨b1, b2⟩ := q_off (0.002, nernst 400 25 9e-4, 25) rfl
  rw [read_nernst _ (by norm_num) (by norm_num)] at a1 a2 b1 b2
  obtain ⟨c1, -, c2⟩ := q_buffer (m := 0.001) (lo := 1.9e-4) (.inl rfl) (by norm_num)
  have c2 := c2 le_rfl
  have hex : 6e-5 ≤ acidExcess pContents qConstants qAcid 0 0.1 400.001 1.9e-4 (0.001, nernst 400 25 2e-4, 25)
      (0.002, nernst 400 25 9e-4, 25) := by
    unfold acidExcess
    have h1 : (1 + (mixture pContents qConstants 0.001 0.1 qAcid 0).buffering 1.9e-4)
        * ((0.001 + 0.1) * readAcidity 400.001 (0.001, nernst 400 25 2e-4, 25))
        ≤ (1 + 0.3) * ((0.001 + 0.1) * 2e-4) := by gcongr
    norm_num at h1 b1 ⊢
    linarith
  have hq := C120_errors _ _ _ _ _ _ _ _ _ _ _ (q_run 400) qAcid_nonneg le_rfl zero_le_one
    lsExact_contracts.2 _ _ h qTrue 400.001 _ _ 3 4 0 1e-4 3e-6 hx
    (by rw [hm]; exact q_window) (by rw [hm]; exact q_near) (by rw [hm]; exact q_error)
    (0.001, nernst 400 25 2e-4, 25) (0.002, nernst 400 25 9e-4, 25) (by rw [hm]; simp [qPts])
    (by rw [hm]; simp [qPts]) rfl 1.9e-4 _ (by norm_num) (le_trans (by norm_num) a1)
    (by rw [read_nernst _ (by norm_num) (by norm_num)]; norm_num) rfl (lt_of_lt_of_le (by norm_num) hex)
  obtain ⟨r1, r2, r3, r4⟩ := hq
  rw [hm] at r3 r4
  set ε' : ℝ := (1 + Real.sqrt (qPts 400).length) * 3e-6 with hε'
  have he0 : 0 ≤ ε' := by positivity
  have he : ε' ≤ 7.5e-6 := by
    have : Real.sqrt ((qPts 400).length : ℝ) ≤ 1.5 := by
      rw [Real.sqrt_le_left (by norm_num)]
      norm_num [qPts]
    rw [hε']
    linarith
  set off := acidityOff pContents qConstants qAcid 0 0.1 400.001 1.9e-4 ε' (0.001, nernst 400 25 2e-4, 25)
      (0.002, nernst 400 25 9e-4, 25) with hoff
  have ho0 : 0 ≤ off := by
    rw [hoff]; unfold acidityOff
    apply div_nonneg _ (le_trans (by norm_num) hex)
    positivity
  have ho : off ≤ 0.026 := by
    rw [hoff]; unfold acidityOff
    rw [div_le_iff₀ (lt_of_lt_of_le (by norm_num) hex)]
    norm_num at he hex ⊢
    linarith
  refine ⟨sr, _, _, _, h, r1, r2, ?_, ?_⟩
  · have h1 : (1 + (mixture pContents qConstants 0.001 0.1 qAcid 0).buffering 1.9e-4)
        * readAcidity 400.001 (0.001, nernst 400 25 2e-4, 25) * off ≤ (1 + 0.3) * 2e-4 * 0.026 := by gcongr
    norm_num at r3 h1 he ⊢
  · refine (r4 (by linarith)).trans ?_
    have h1 : off / (1 - off) ≤ 0.026 / (1 - 0.026) := by gcongr
    calc _ ≤ 8.3144621 * (25 + 273.15) / 96.4853365 * ((0.026 : ℝ) / (1 - 0.026)) := by gcongr
      _ ≤ _ := by norm_num

end Calk
