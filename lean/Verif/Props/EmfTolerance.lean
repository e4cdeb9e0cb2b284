import Verif.Props.DatasetEmf
import Verif.Props.Tolerance
import Verif.Props.RoundingEmf

/-!
# Property C136: inexact titrations, solves and calibrations in EMF mode

C120, C124, C130 and C132 with misfits in the data, an optimiser that finds the minimum only nearly, and
calibrations that stop at a residual or have a certified value that is not quite true.
-/

namespace Calk
open Flt Spec

/-- the fit found is nearly the best -/
theorem near_best (w : World) (f : String) (S : Flt) (kw : Dict Val) (x K : String → ℝ)
    (c n g M : ℝ) (pts : List (ℝ × ℝ × ℝ)) (h : EmfRun w f S kw x K c n g M pts)
    {τ : ℝ} (hmin : LsNearMin τ w.ls) (sr : SolveEmf) (T : List Flt)
    (hr : files_solve w f (fin c) S kw = .ok (.emf sr T)) (A E : ℝ)
    (hx : sr.opt_result.x = (fin A, fin E)) (A' E' : ℝ) :
    Real.sqrt ((mask sr.used pts).map fun p => pointMisfit x K c n g M A E p ^ 2).sum
      ≤ Real.sqrt ((mask sr.used pts).map fun p => pointMisfit x K c n g M A' E' p ^ 2).sum + τ := by
  obtain ⟨totals, ks, o, double, sr', he, ho, hsr, hv, hsol⟩ := h.solver hr
  cases he
  obtain ⟨o', -, -, hn, hlast⟩ := solve_emf_last hsr
  rw [ho] at hn
  obtain ⟨gg, opt, -, -, hk, -, -, hopt, hres⟩ := solve_emf_false_iff.mp hlast
  have hx' : opt.x = (fin A, fin E) := by rw [hres] at hx; exact hx
  have hu : sr.used = (emfStart o' gg ((pts.map (·.2.1)).map fin) ((pts.map (·.2.2)).map fin)).used := by
    rw [hres]; rfl
  rw [← hu, hn] at hopt
  have hprob := h.problem hv hk hsol sr.used
  have hs := h.sound _ _ _ hopt
  rw [hx', hprob] at hs
  obtain ⟨res, h1, h2⟩ := hmin _ _ _ hopt (fin A', fin E') _ (hprob A' E')
  have hinj : res = (mask sr.used pts).map (pointMisfit x K c n g M A E) := by
    rw [← Except.ok.inj hs] at h1
    exact (List.map_injective_iff.mpr (fun a b hab => Flt.fin.inj hab) h1).symm
  rw [hinj] at h2
  simpa [List.map_map, Function.comp_def] using h2

/-- **C136**: if the true alkalinity and EMF0 fit every point used up to a misfit of `η`, then an EMF
solve with an optimiser that gets within `τ` of the minimum is off by no more than the bound of C120
for misfits enlarged by `τ`. -/
theorem C136_misfit (w : World) (f : String) (S : Flt) (kw : Dict Val) (x K : String → ℝ)
    (c n g M : ℝ) (pts : List (ℝ × ℝ × ℝ)) (h : EmfRun w f S kw x K c n g M pts)
    {τ : ℝ} (hmin : LsNearMin τ w.ls) (sr : SolveEmf) (T : List Flt)
    (hr : files_solve w f (fin c) S kw = .ok (.emf sr T)) (A E A' E' η : ℝ)
    (hx : sr.opt_result.x = (fin A', fin E'))
    (hη : ∀ p ∈ mask sr.used pts, |pointMisfit x K c n g M A E p| ≤ η)
    (p q : ℝ × ℝ × ℝ) (hp : p ∈ mask sr.used pts) (hq : q ∈ mask sr.used pts) (hTT : p.2.2 = q.2.2)
    (lo ε : ℝ) (hlo : 0 < lo) (hl : lo ≤ readAcidity E p) (hl' : lo ≤ readAcidity E' p)
    (hε : ε = (1 + Real.sqrt (mask sr.used pts).length) * η + τ)
    (hmore : 0 < acidExcess x K c g M E lo p q) :
    sr.alkalinity = fin (1e6 * A') ∧ sr.emf0 = fin E' ∧
    |A' - A| * M ≤ (p.1 + M) * (ε + (1 + (mixture x K p.1 M c g).buffering lo) * readAcidity E p
      * acidityOff x K c g M E lo ε p q) ∧
    (acidityOff x K c g M E lo ε p q < 1 →
      |E' - E| ≤ 8.3144621 * (p.2.2 + 273.15) / 96.4853365 *
        (acidityOff x K c g M E lo ε p q / (1 - acidityOff x K c g M E lo ε p q))) := by
  have hbest := near_best w f S kw x K c n g M pts h hmin sr T hr A' E' hx A E
  obtain ⟨sr', he, hrep⟩ := C112_estimates w f S kw x K c n g M pts h _ hr
  cases he
  have hne : true ∈ sr.used := true_mem_of_mask hp
  obtain ⟨r1, r2, -, -⟩ := hrep A' E' hx hne
  refine ⟨r1, r2, ?_⟩
  have hη0 : 0 ≤ η := (abs_nonneg _).trans (hη p hp)
  have hsum : Real.sqrt ((mask sr.used pts).map fun p => pointMisfit x K c n g M A E p ^ 2).sum
      ≤ Real.sqrt (mask sr.used pts).length * η := by
    refine (Real.sqrt_le_sqrt (sum_sq_le _ _ hη)).trans ?_
    rw [Real.sqrt_mul (by positivity), Real.sqrt_sq hη0]
  have hfound : ∀ y ∈ mask sr.used pts,
      |pointMisfit x K c n g M A' E' y| ≤ Real.sqrt (mask sr.used pts).length * η + τ := by
    intro y hy
    refine le_trans ?_ (hbest.trans (add_le_add hsum le_rfl))
    rw [← Real.sqrt_sq_eq_abs]
    apply Real.sqrt_le_sqrt
    apply List.single_le_sum
    · intro z hz; obtain ⟨z', -, rfl⟩ := List.mem_map.mp hz; positivity
    · exact List.mem_map.mpr ⟨y, hy, rfl⟩
  have hmem : ∀ y ∈ mask sr.used pts, y ∈ pts := fun _ hy => mask_subset _ _ hy
  have hM := h.mass
  have hwt : ∀ y ∈ mask sr.used pts, 0 < y.1 + M := fun y hy =>
    add_pos_of_nonneg_of_pos (h.masses y (hmem y hy)) hM
  have hval : ∀ y ∈ mask sr.used pts, (mixture x K y.1 M c g).Valid := fun y hy =>
    mixture_valid hM (h.masses y (hmem y hy)) h.acid (fun k hk => (h.sample.contents k hk).2)
      (fun k hk => (h.sample.constants k hk).2)
  set σ := 8.3144621 * (p.2.2 + 273.15) / 96.4853365 with hσ
  have hσ0 : 0 < σ := by
    have : 0 < p.2.2 + 273.15 := by have := h.temps p (hmem p hp); linarith
    rw [hσ]; positivity
  set k := Real.exp ((E - E') / σ) with hk
  have hk0 : 0 < k := Real.exp_pos _
  have hrp : readAcidity E' p = k * readAcidity E p := readAcidity_ratio E E' p
  have hrq : readAcidity E' q = k * readAcidity E q := by
    have := readAcidity_ratio E E' q
    rw [← hTT] at this
    exact this
  have hdiff : ∀ y ∈ mask sr.used pts, readAcidity E' y = k * readAcidity E y →
      |((mixture x K y.1 M c g).alk 3 (k * readAcidity E y) - (mixture x K y.1 M c g).alk 3 (readAcidity E y))
        * (y.1 + M) - (A' - A) * M| ≤ (y.1 + M) * ε := by
    intro y hy hyr
    have h1 := hη y hy
    have h2 := hfound y hy
    have hw := hwt y hy
    have e : ((mixture x K y.1 M c g).alk 3 (k * readAcidity E y)
        - (mixture x K y.1 M c g).alk 3 (readAcidity E y)) * (y.1 + M) - (A' - A) * M
        = (y.1 + M) * (pointMisfit x K c n g M A' E' y - pointMisfit x K c n g M A E y) := by
      unfold pointMisfit
      rw [hyr]
      field_simp
      ring
    rw [e, abs_mul, abs_of_pos hw]
    apply mul_le_mul_of_nonneg_left _ hw.le
    refine (abs_sub _ _).trans ?_
    rw [hε]
    linarith
  have hap : 0 < readAcidity E p := Real.exp_pos _
  have haq : 0 < readAcidity E q := Real.exp_pos _
  obtain ⟨c1, c2⟩ := pair_stable (hval p hp) (hval q hq) (hwt p hp) (hwt q hq) hap haq hk0 hlo hl
    (by rw [← hrp]; exact hl') (hdiff p hp hrp) (hdiff q hq hrq)
  have hoff : |k - 1| ≤ acidityOff x K c g M E lo ε p q := by
    unfold acidityOff
    rw [le_div_iff₀ hmore]
    exact c1
  have hB := buffering_nonneg (hval p hp) hlo
  refine ⟨?_, fun hlt => ?_⟩
  · rw [abs_mul, abs_of_pos hM] at c2
    have hw := hwt p hp
    have := mul_le_mul_of_nonneg_left hoff (show 0 ≤ (1 + (mixture x K p.1 M c g).buffering lo)
      * ((p.1 + M) * readAcidity E p) by positivity)
    calc _ ≤ _ := c2
      _ ≤ _ := by linarith
  · have := log_near_one hk0 hoff hlt
    rw [hk, Real.log_exp, abs_div, abs_of_pos hσ0, div_le_iff₀ hσ0] at this
    rw [abs_sub_comm, mul_comm]
    exact this

/-- by how much misfits of one (mol/kg) can move the amount of alkalinity found: two points, `p` and `q`,
tell alkalinity and EMF0 apart -/
noncomputable def Spec.alkGain (x K : String → ℝ) (c g M E least : ℝ) (p q : ℝ × ℝ × ℝ) : ℝ :=
  (p.1 + M) * (1 + (1 + (mixture x K p.1 M c g).buffering least) * readAcidity E p
    * (((p.1 + M) + (q.1 + M)) / acidExcess x K c g M E least p q))

/-- **C136**: solving a titration with hydrochloric or sulfuric acid (one temperature; the true alkalinity `A`,
molinity `c` and EMF0 `E` fit every point used up to `η`) with `k` times the true molinity gives `k` times
the true alkalinity, up to the gain times: the misfits, what does not follow the molinity, and how far the
optimiser is from the minimum. -/
theorem C136_solve (w : World) (f : String) (S : Flt) (kw : Dict Val) (x K : String → ℝ)
    (c k n g M : ℝ) (pts : List (ℝ × ℝ × ℝ)) (h : EmfRun w f S kw x K (k * c) n g M pts) (hk : 0 < k)
    {τ : ℝ} (hmin : LsNearMin τ w.ls) (sr : SolveEmf) (T : List Flt)
    (hr : files_solve w f (fin (k * c)) S kw = .ok (.emf sr T)) (A E A' E' t least η B : ℝ)
    (hx : sr.opt_result.x = (fin A', fin E')) (hl0 : 0 < least)
    (hdata : ∀ p ∈ mask sr.used pts, p.2.2 = t ∧ least ≤ readAcidity E p ∧ least ≤ k * readAcidity E p ∧
      |pointMisfit x K c n g M A E p| ≤ η)
    (hB : ∀ p ∈ mask sr.used pts, leftover x K c g M E k p ≤ B)
    (p q : ℝ × ℝ × ℝ) (hp : p ∈ mask sr.used pts) (hq : q ∈ mask sr.used pts)
    (hl' : least ≤ readAcidity E' p) (hmore : 0 < acidExcess x K (k * c) g M E least p q) :
    sr.alkalinity = fin (1e6 * A') ∧ sr.emf0 = fin E' ∧
    |A' - k * A| * M ≤ alkGain x K (k * c) g M E least p q
      * ((1 + Real.sqrt (mask sr.used pts).length) * (k * η + |k - 1| * B) + τ) := by
  have hM := h.mass
  have hcg : 0 ≤ c * g := nonneg_of_mul_nonneg_right (by rw [← mul_assoc]; exact h.acid) hk
  have hrd : ∀ p ∈ mask sr.used pts, readAcidity (shiftedEmf0 E t k) p = k * readAcidity E p := by
    intro p hp
    rw [← (hdata p hp).1]
    exact read_shifted (h.temps p (mask_subset _ _ hp)) hk
  have hmis : ∀ p ∈ mask sr.used pts,
      |pointMisfit x K (k * c) n g M (k * A) (shiftedEmf0 E t k) p| ≤ k * η + |k - 1| * B := by
    intro p hp
    obtain ⟨-, h1, h2, h3⟩ := hdata p hp
    have hm := h.masses p (mask_subset _ _ hp)
    have hpos : 0 < p.1 + M := by linarith
    have hv : (mixture x K p.1 M 0 0).Valid := mixture_valid hM hm (by simp)
      (fun k hk => (h.sample.contents k hk).2) (fun k hk => (h.sample.constants k hk).2)
    have hlo := (mix_leftover (E := E) hM hm hcg hv hk).trans
      (mul_le_mul_of_nonneg_left (hB p hp) (abs_nonneg _))
    unfold pointMisfit at h3 ⊢
    rw [hrd p hp]
    have e : (mixture x K p.1 M (k * c) g).alk 3 (k * readAcidity E p) - (k * A * M - p.1 * (k * c) * n) / (p.1 + M)
        = k * ((mixture x K p.1 M c g).alk 3 (readAcidity E p) - (A * M - p.1 * c * n) / (p.1 + M))
        + ((mixture x K p.1 M (k * c) g).alk 3 (k * readAcidity E p)
          - k * (mixture x K p.1 M c g).alk 3 (readAcidity E p)) := by
      field_simp
      ring
    rw [e]
    refine (abs_add_le _ _).trans (add_le_add ?_ hlo)
    rw [abs_mul, abs_of_pos hk]
    exact mul_le_mul_of_nonneg_left h3 hk.le
  have hex : acidExcess x K (k * c) g M (shiftedEmf0 E t k) least p q = k * acidExcess x K (k * c) g M E least p q := by
    unfold acidExcess
    rw [hrd p hp, hrd q hq]
    ring
  obtain ⟨r1, r2, r3, -⟩ := C136_misfit w f S kw x K (k * c) n g M pts h hmin sr T hr (k * A)
    (shiftedEmf0 E t k) A' E' _ hx hmis p q hp hq (by rw [(hdata p hp).1, (hdata q hq).1]) least _ hl0
    (by rw [hrd p hp]; exact (hdata p hp).2.2.1) hl' rfl (by rw [hex]; exact mul_pos hk hmore)
  refine ⟨r1, r2, r3.trans (le_of_eq ?_)⟩
  unfold acidityOff alkGain
  rw [hex, hrd p hp]
  have := hmore.ne'
  field_simp

theorem alkGain_nonneg {x K : String → ℝ} {c M E least : ℝ} {p q : ℝ × ℝ × ℝ} (hM : 0 < M) (hp : 0 ≤ p.1)
    (hq : 0 ≤ q.1) (hv : (mixture x K p.1 M c g).Valid) (hl : 0 < least)
    (hmore : 0 < acidExcess x K c g M E least p q) : 0 ≤ alkGain x K c g M E least p q := by
  have hB := buffering_nonneg hv hl
  have hr : 0 < readAcidity E p := Real.exp_pos _
  unfold alkGain
  positivity

/-- **C136**: what an error in the molinity costs a sample -/
theorem C136_sample (w : World) (f : String) (S : Flt) (kw : Dict Val) (x K : String → ℝ)
    (c k n g M : ℝ) (pts : List (ℝ × ℝ × ℝ)) (h : EmfRun w f S kw x K (k * c) n g M pts) (hk : 0 < k)
    {τ : ℝ} (hmin : LsNearMin τ w.ls) (sr : SolveEmf) (T : List Flt)
    (hr : files_solve w f (fin (k * c)) S kw = .ok (.emf sr T)) (A E A' E' t least η B : ℝ)
    (hx : sr.opt_result.x = (fin A', fin E')) (hl0 : 0 < least)
    (hdata : ∀ p ∈ mask sr.used pts, p.2.2 = t ∧ least ≤ readAcidity E p ∧ least ≤ k * readAcidity E p ∧
      |pointMisfit x K c n g M A E p| ≤ η)
    (hB : ∀ p ∈ mask sr.used pts, leftover x K c g M E k p ≤ B)
    (p q : ℝ × ℝ × ℝ) (hp : p ∈ mask sr.used pts) (hq : q ∈ mask sr.used pts)
    (hl' : least ≤ readAcidity E' p) (hmore : 0 < acidExcess x K (k * c) g M E least p q) (W N : ℝ)
    (hW : W = alkGain x K (k * c) g M E least p q) (hN : N = 1 + Real.sqrt (mask sr.used pts).length) :
    |A' - A| * M ≤ |k - 1| * (|A| * M + W * (N * (B + η))) + W * (N * η + τ) := by
  obtain ⟨-, -, h3⟩ := C136_solve w f S kw x K c k n g M pts h hk hmin sr T hr A E A' E' t least η B hx hl0
    hdata hB p q hp hq hl' hmore
  rw [← hW, ← hN] at h3
  have hM := h.mass
  have hW0 : 0 ≤ W := by
    rw [hW]
    exact alkGain_nonneg hM (h.masses p (mask_subset _ _ hp)) (h.masses q (mask_subset _ _ hq))
      (mixture_valid hM (h.masses p (mask_subset _ _ hp)) h.acid
        (fun k hk => (h.sample.contents k hk).2) (fun k hk => (h.sample.constants k hk).2)) hl0 hmore
  have hN0 : 0 ≤ N := by rw [hN]; positivity
  have hη0 : 0 ≤ η := (abs_nonneg _).trans (hdata p hp).2.2.2
  have hkk : k * η ≤ η + |k - 1| * η := by
    have := mul_le_mul_of_nonneg_right (le_abs_self (k - 1)) hη0
    linarith
  have h4 : W * (N * (k * η + |k - 1| * B) + τ) ≤ W * (N * ((η + |k - 1| * η) + |k - 1| * B) + τ) := by
    gcongr
  have h5 : |A' - A| ≤ |A' - k * A| + |k - 1| * |A| := by
    rw [← abs_mul, show A' - A = (A' - k * A) + (k - 1) * A by ring]
    exact abs_add_le _ _
  have h6 := mul_le_mul_of_nonneg_right h5 hM.le
  linarith

/-- **C136**: an EMF-mode calibration of a titration with hydrochloric or sulfuric acid (of molinity `c`; data fitted
up to `η` by the true values) against the value `cert` that stops at a residual `ρ` finds a molinity `c'`
that is off by no more than: residual, error of the certified value, and gain times misfits and how far
the optimiser is from the minimum; relative to the alkalinity, less what is left of other bases. -/
theorem C136_calibrated (w : World) (f : String) (S : Flt) (kw : Dict Val) (x K : String → ℝ)
    (c c' n g M cert : ℝ) (pts : List (ℝ × ℝ × ℝ)) (h : EmfRun w f S kw x K c' n g M pts) (hc : 0 < c) (hc' : 0 < c')
    {τ : ℝ} (hmin : LsNearMin τ w.ls) (A E t least η B : ℝ)
    (hreg : Regular w f S kw) (hgl : kw.get? "gran_logic" = none) (res : LsqResult Flt)
    (hcal : files_calibrate w f (fin cert) S kw = .ok res) (hxc : res.x = fin c')
    (sr : SolveEmf) (T : List Flt) (hr : files_solve w f (fin c') S kw = .ok (.emf sr T)) (A' E' : ℝ)
    (hx : sr.opt_result.x = (fin A', fin E')) (hl0 : 0 < least)
    (hdata : ∀ p ∈ mask sr.used pts, p.2.2 = t ∧ least ≤ readAcidity E p ∧ least ≤ c' / c * readAcidity E p ∧
      |pointMisfit x K c n g M A E p| ≤ η)
    (hB : ∀ p ∈ mask sr.used pts, leftover x K c g M E (c' / c) p ≤ B)
    (p q : ℝ × ℝ × ℝ) (hp : p ∈ mask sr.used pts) (hq : q ∈ mask sr.used pts)
    (hl' : least ≤ readAcidity E' p) (hmore : 0 < acidExcess x K c' g M E least p q) (W N : ℝ)
    (hW : W = alkGain x K c' g M E least p q) (hN : N = 1 + Real.sqrt (mask sr.used pts).length) :
    ∃ ρ, res.fun_ = [fin ρ] ∧
      |c' - c| * (|A| * M - W * (N * (B + η)))
        ≤ c * (|ρ + (cert - 1e6 * A)| / 1e6 * M + W * (N * η + τ)) := by
  have hkc : c' / c * c = c' := div_mul_cancel₀ _ hc.ne'
  have hk : 0 < c' / c := div_pos hc' hc
  obtain ⟨r1, r2, h3⟩ := C136_solve w f S kw x K c (c' / c) n g M pts (by rw [hkc]; exact h) hk hmin sr T
    (by rw [hkc]; exact hr) A E A' E' t least η B hx hl0 hdata hB p q hp hq hl' (by rw [hkc]; exact hmore)
  obtain ⟨sr', hsr', hfun⟩ := calibrate_residual w f (fin cert) S kw res hreg hgl hcal
  rw [hxc, hr] at hsr'
  cases hsr'
  refine ⟨1e6 * A' - cert, by rw [hfun]; simp only [SolveRes.alkalinity, r1, sub_fin], ?_⟩
  rw [hkc, ← hW, ← hN] at h3
  have hM := h.mass
  have hW0 : 0 ≤ W := by
    rw [hW]
    exact alkGain_nonneg hM (h.masses p (mask_subset _ _ hp)) (h.masses q (mask_subset _ _ hq))
      (mixture_valid hM (h.masses p (mask_subset _ _ hp)) h.acid
        (fun k hk => (h.sample.contents k hk).2) (fun k hk => (h.sample.constants k hk).2)) hl0 hmore
  have hN0 : 0 ≤ N := by rw [hN]; positivity
  have hη0 : 0 ≤ η := (abs_nonneg _).trans (hdata p hp).2.2.2
  set k := c' / c with hkd
  have hkk : k * η ≤ η + |k - 1| * η := by
    have := mul_le_mul_of_nonneg_right (le_abs_self (k - 1)) hη0
    linarith
  have h4 : W * (N * (k * η + |k - 1| * B) + τ) ≤ W * (N * ((η + |k - 1| * η) + |k - 1| * B) + τ) := by
    gcongr
  have h5 : |k - 1| * |A| ≤ |A' - A| + |A' - k * A| := by
    rw [← abs_mul, show (k - 1) * A = (A' - A) - (A' - k * A) by ring]
    exact abs_sub _ _
  have h6 := mul_le_mul_of_nonneg_right h5 hM.le
  have e1 : |1e6 * A' - cert + (cert - 1e6 * A)| / 1e6 = |A' - A| := by
    rw [show 1e6 * A' - cert + (cert - 1e6 * A) = 1e6 * (A' - A) by ring, abs_mul]
    norm_num
  have e2 : |c' - c| = c * |k - 1| := by
    rw [← abs_of_pos hc, ← abs_mul, abs_of_pos hc, mul_sub, mul_one, mul_comm c k, hkc]
  rw [e1, e2, mul_assoc]
  refine mul_le_mul_of_nonneg_left ?_ hc.le
  linarith

/-! ## Data sets -/

/-- **Specification**: the row is an EMF titration with hydrochloric or sulfuric acid (as `ExactEmf`), but the true
alkalinity `A`, molinity `c` and EMF0 `E` fit its points up to misfits of `η` mol/kg only. -/
structure Spec.NearEmf (w : World) (kw : Dict Val) (cols : List String) (r : Row) (A c E η : ℝ) (f : String)
    (S : Flt) (x K : String → ℝ) (n g M t : ℝ) (pts : List (ℝ × ℝ × ℝ)) : Prop where
  file : HasFile cols r f S
  run : ∃ st, SettingsOf keys_solve w kw cols r st ∧ EmfRun w f S st x K c n g M pts
  positive : 0 < c
  fits : ∀ p ∈ pts, p.2.2 = t ∧ |pointMisfit x K c n g M A E p| ≤ η

/-- **Specification**: two of the points used by a solve with molinity `k c` tell alkalinity and EMF0 apart
with a gain of at most `W`; at the points used at most `B` is left of other bases; `N` is one more than the
root of their number, or larger -/
def Spec.Resolved (x K : String → ℝ) (c g E M : ℝ) (pts : List (ℝ × ℝ × ℝ)) (sr : SolveEmf)
    (k B W N : ℝ) : Prop :=
  ∃ least p q, ToldApart x K c g E M pts sr k least p q ∧ (∀ y ∈ mask sr.used pts, leftover x K c g M E k y ≤ B) ∧
    alkGain x K (k * c) g M E least p q ≤ W ∧ 1 + Real.sqrt (mask sr.used pts).length ≤ N

/-- **Specification**: the row can be solved with every molinity within `κ` of `c` -/
def Spec.SolvableNear (w : World) (kw : Dict Val) (cols : List String) (r : Row) (c κ E : ℝ) (f : String)
    (S : Flt) (x K : String → ℝ) (g M : ℝ) (pts : List (ℝ × ℝ × ℝ)) (B W N : ℝ) : Prop :=
  ∀ st, SettingsOf keys_solve w kw cols r st → ∀ c' : ℝ, |c' - c| ≤ κ → ∃ sr T,
    files_solve w f (fin c') S st = .ok (.emf sr T) ∧ Resolved x K c g E M pts sr (c' / c) B W N

/-- **Specification**: what a calibration of the row needs, and that it ends, at a positive molinity, with a
residual of at most `δ` µmol/kg -/
structure Spec.CalibratedNear (w : World) (kw : Dict Val) (cols : List String) (r : Row) (cert δ c E : ℝ)
    (f : String) (S : Flt) (x K : String → ℝ) (g M : ℝ) (pts : List (ℝ × ℝ × ℝ)) (B W N : ℝ) : Prop where
  certified : r "alkalinity_certified" = .num (fin cert)
  typed : ∃ st, SettingsOf keys_calibrate w kw cols r st ∧
    (∃ c0, argNum st "titrant_molinity_init" (fin 0.1) = .ok c0) ∧ (∃ o, emf_opts st = .ok o)
  small : ∀ st, SettingsOf keys_calibrate w kw cols r st → ∀ res,
    files_calibrate w f (fin cert) S st = .ok res → ∀ ρ, res.fun_ = [fin ρ] → |ρ| ≤ δ
  found : ∀ st, SettingsOf keys_calibrate w kw cols r st → ∀ res,
    files_calibrate w f (fin cert) S st = .ok res → ∃ c', res.x = fin c' ∧ 0 < c' ∧
      ∀ sr T, files_solve w f (fin c') S st = .ok (.emf sr T) → Resolved x K c g E M pts sr (c' / c) B W N

/-- **Specification**: the error of an alkalinity (µmol/kg) solved with a molinity that is off by `κ`, in a
titration of `M` kg with misfits of `η` and an optimiser that is within `τ` of the minimum -/
noncomputable def Spec.emfError (A c κ M η τ B W N : ℝ) : ℝ :=
  1e6 / M * (κ / c * (|A| * M + W * (N * (B + η))) + W * (N * η + τ))

/-- **Specification**: the error of a molinity calibrated with it against a value that is off by `e`, down to
a residual of `δ` -/
noncomputable def Spec.emfCalibrationError (A c M η τ B W N δ e : ℝ) : ℝ :=
  c * ((δ + e) / 1e6 * M + W * (N * η + τ)) / (|A| * M - W * (N * (B + η)))

theorem nearEmf_row {w : World} (hw : ByName w) {τ : ℝ} (hτ : 0 ≤ τ) (hmin : LsNearMin τ w.ls) {kw : Dict Val}
    {cols : List String} {r : Row} {A c E η κ B W N : ℝ} {f : String} {S : Flt} {x K : String → ℝ} {n g M t : ℝ}
    {pts : List (ℝ × ℝ × ℝ)} (h : NearEmf w kw cols r A c E η f S x K n g M t pts) (hη : 0 ≤ η) (hB : 0 ≤ B)
    (hs : SolvableNear w kw cols r c κ E f S x K g M pts B W N) (hκ : κ < c) :
    NearRow w kw cols r (1e6 * A) c κ (emfError A c κ M η τ B W N) := by
  obtain ⟨hf, ⟨st, hst, hrun⟩, hc, hfit⟩ := h
  refine ⟨f, S, hf, ?_, fun st' hst' c' hc' => ?_⟩
  · obtain ⟨-, kwb, hb, -⟩ := hst
    exact ⟨kwb, hb⟩
  obtain ⟨sr, T, hsr, least, p, q, ht, hleft, hW, hN⟩ := hs st' hst' c' hc'
  obtain ⟨A', E', hx, hl'⟩ := ht.found
  have hc0 : 0 < c' := by have := (abs_le.mp hc').1; linarith
  have hkc : c' / c * c = c' := div_mul_cancel₀ _ hc.ne'
  have hk : 0 < c' / c := div_pos hc0 hc
  have hrun' := (hst.agree hst' (fun _ h _ => h) (fun _ h _ => h)).emfRun hw hst'.1 hrun (c' := c' / c * c)
    (by rw [hkc]; exact mul_nonneg hc0.le (nonneg_of_mul_nonneg_right hrun.acid hc))
  have hdata : ∀ y ∈ mask sr.used pts, y.2.2 = t ∧ least ≤ readAcidity E y ∧ least ≤ c' / c * readAcidity E y ∧
      |pointMisfit x K c n g M A E y| ≤ η := fun y hy =>
    ⟨(hfit y (mask_subset _ _ hy)).1, (ht.acid y hy).1, (ht.acid y hy).2, (hfit y (mask_subset _ _ hy)).2⟩
  obtain ⟨r1, -, -⟩ := C136_solve w f S st' x K c (c' / c) n g M pts hrun' hk hmin sr T (by rw [hkc]; exact hsr)
    A E A' E' t least η B hx ht.least_pos hdata hleft p q ht.first ht.second hl' ht.more
  have r3 := C136_sample w f S st' x K c (c' / c) n g M pts hrun' hk hmin sr T (by rw [hkc]; exact hsr)
    A E A' E' t least η B hx ht.least_pos hdata hleft p q ht.first ht.second hl' ht.more _ _ rfl rfl
  refine ⟨_, _, hsr, r1, ?_⟩
  have hM := hrun.mass
  have hmp := hrun.masses p (mask_subset _ _ ht.first)
  have hmq := hrun.masses q (mask_subset _ _ ht.second)
  have hg0 : 0 ≤ alkGain x K (c' / c * c) g M E least p q := alkGain_nonneg hM hmp hmq
    (mixture_valid hM hmp hrun'.acid (fun k hk => (hrun.sample.contents k hk).2)
      (fun k hk => (hrun.sample.constants k hk).2)) ht.least_pos ht.more
  have hk1 : |c' / c - 1| ≤ κ / c := by
    rw [show c' / c - 1 = (c' - c) / c by field_simp, abs_div, abs_of_pos hc]
    exact div_le_div_of_nonneg_right hc' hc.le
  have hκ0 : 0 ≤ κ / c := (abs_nonneg _).trans hk1
  have hn0 : 0 ≤ 1 + Real.sqrt (mask sr.used pts).length := by positivity
  have hW0 : 0 ≤ W := hg0.trans hW
  have hN0 : 0 ≤ N := hn0.trans hN
  have r4 : |A' - A| * M ≤ κ / c * (|A| * M + W * (N * (B + η))) + W * (N * η + τ) := by
    refine r3.trans ?_
    gcongr
  unfold emfError
  rw [← mul_sub, abs_mul, abs_of_pos (by norm_num : (0 : ℝ) < 1e6), div_mul_eq_mul_div, le_div_iff₀ hM, mul_assoc]
  exact mul_le_mul_of_nonneg_left r4 (by norm_num)

theorem nearEmf_reference {w : World} (hw : ByName w) (ho : ReportsEvaluated w.opt) (ho' : FiniteTrials w.opt)
    {τ : ℝ} (hτ : 0 ≤ τ) (hmin : LsNearMin τ w.ls) {kw : Dict Val}
    {cols : List String} {r : Row} {A c E η B W N cert δ : ℝ} {f : String} {S : Flt} {x K : String → ℝ} {n g M t : ℝ}
    {pts : List (ℝ × ℝ × ℝ)} (h : NearEmf w kw cols r A c E η f S x K n g M t pts) (hη : 0 ≤ η) (hB : 0 ≤ B)
    (hc : CalibratedNear w kw cols r cert δ c E f S x K g M pts B W N)
    (hpos : W * (N * (B + η)) < |A| * M) :
    NearReference w kw cols r c (emfCalibrationError A c M η τ B W N δ |cert - 1e6 * A|) := by
  obtain ⟨hf, ⟨st, hst, hrun⟩, hc0, hfit⟩ := h
  refine ⟨f, S, cert, hf, ?_, hc.certified, fun st' hst' res hres => ?_⟩
  · obtain ⟨-, kwb, hb, -⟩ := hst
    exact ⟨kwb, hb⟩
  obtain ⟨sc, hsc, hi0, hopts⟩ := hc.typed
  obtain ⟨c', hx, hc', hside⟩ := hc.found st' hst' res hres
  have hrun' := (hst.agree hst' (fun _ h _ => h) calibrate_keys).emfRun hw hst'.1 hrun (c' := c')
    (mul_nonneg hc'.le (nonneg_of_mul_nonneg_right hrun.acid hc0))
  have hsame := hsc.same hst'
  have hreg : Regular w f S st' := emfRun_regular ho ho' hrun' (by rw [← hsame.argNum]; exact hi0)
    (by rw [← emf_opts_congr hsame]; exact hopts)
  have hgl : st'.get? "gran_logic" = none := by
    obtain ⟨-, kwb, -, hget⟩ := hst'
    rw [hget, if_neg (by decide)]
  obtain ⟨sr, hsr, -⟩ := calibrate_residual w f _ S st' res hreg hgl hres
  rw [hx] at hsr
  obtain ⟨s, rfl, -⟩ := C112_estimates w f S st' x K c' n g M pts hrun' _ hsr
  obtain ⟨least, p, q, ht, hleft, hW, hN⟩ := hside s _ hsr
  obtain ⟨A', E', hx', hl'⟩ := ht.found
  have hmore := ht.more
  rw [div_mul_cancel₀ _ hc0.ne'] at hmore hW
  have hdata : ∀ y ∈ mask s.used pts, y.2.2 = t ∧ least ≤ readAcidity E y ∧ least ≤ c' / c * readAcidity E y ∧
      |pointMisfit x K c n g M A E y| ≤ η := fun y hy =>
    ⟨(hfit y (mask_subset _ _ hy)).1, (ht.acid y hy).1, (ht.acid y hy).2, (hfit y (mask_subset _ _ hy)).2⟩
  obtain ⟨ρ, hρ, hmain⟩ := C136_calibrated w f S st' x K c c' n g M cert pts hrun' hc0 hc' hmin A E t least η B hreg
    hgl res hres hx s _ hsr A' E' hx' ht.least_pos hdata hleft p q ht.first ht.second hl' hmore _ _ rfl rfl
  have hsmall := hc.small st' hst' res hres ρ hρ
  refine ⟨c', hx, ?_⟩
  have hM := hrun.mass
  have hmp := hrun.masses p (mask_subset _ _ ht.first)
  have hmq := hrun.masses q (mask_subset _ _ ht.second)
  have hg0 : 0 ≤ alkGain x K c' g M E least p q := alkGain_nonneg hM hmp hmq
    (mixture_valid hM hmp hrun'.acid (fun k hk => (hrun.sample.contents k hk).2)
      (fun k hk => (hrun.sample.constants k hk).2)) ht.least_pos hmore
  have hn0 : 0 ≤ 1 + Real.sqrt (mask s.used pts).length := by positivity
  have hW0 : 0 ≤ W := hg0.trans hW
  have hN0 : 0 ≤ N := hn0.trans hN
  unfold emfCalibrationError
  rw [le_div_iff₀ (by linarith)]
  have habs : |ρ + (cert - 1e6 * A)| ≤ δ + |cert - 1e6 * A| :=
    (abs_add_le _ _).trans (add_le_add hsmall le_rfl)
  calc |c' - c| * (|A| * M - W * (N * (B + η)))
      ≤ |c' - c| * (|A| * M - alkGain x K c' g M E least p q
          * ((1 + Real.sqrt (mask s.used pts).length) * (B + η))) := by gcongr
    _ ≤ _ := hmain
    _ ≤ _ := by gcongr

/-- **C136**: a data set of EMF titrations with hydrochloric or sulfuric acid whose points are fitted by the true values up
to a misfit, with references whose certified values are not quite true and whose calibrations stop at a
residual, and an optimiser that gets within `τ` of the minimum.  If the errors of the references' calibrations
(`emfCalibrationError`) are at most `κ`, every row of a batch that has a reference gets a molinity within `κ` of
the truth, and an alkalinity within `emfError` of the truth. -/
theorem C136_dataset (w : World) (hw : ByName w) (ho : ReportsEvaluated w.opt) (ho' : FiniteTrials w.opt)
    {τ : ℝ} (hτ : 0 ≤ τ) (hmin : LsNearMin τ w.ls)
    (kw : Dict Val) (df df' : DF) (hkw : kw.keys.Nodup)
    (h : dataset_calibrate w kw df = (.ok (), df'))
    (hl : ∀ r ∈ df'.rows, Label (r "analysis_batch")) (c κ : Val → ℝ)
    (href : List.Forall₂ (fun r r' => IsReference r' → ∃ A E η B W N cert δ f S x K n g M t pts,
      NearEmf w kw df.cols r A (c (r' "analysis_batch")) E η f S x K n g M t pts ∧ 0 ≤ η ∧ 0 ≤ B ∧
      CalibratedNear w kw df.cols r cert δ (c (r' "analysis_batch")) E f S x K g M pts B W N ∧
      W * (N * (B + η)) < |A| * M ∧
      emfCalibrationError A (c (r' "analysis_batch")) M η τ B W N δ |cert - 1e6 * A| ≤ κ (r' "analysis_batch"))
      df.rows df'.rows) :
    List.Forall₂ (fun r r' =>
      (∃ q ∈ df'.rows, IsReference q ∧ q "analysis_batch" = r' "analysis_batch") →
      (∃ c', r' "titrant_molinity" = .num (fin c') ∧
        |c' - c (r' "analysis_batch")| ≤ κ (r' "analysis_batch")) ∧
      ∀ A E η B W N f S x K n g M t pts,
        NearEmf w kw df.cols r A (c (r' "analysis_batch")) E η f S x K n g M t pts → 0 ≤ η → 0 ≤ B →
        SolvableNear w kw df.cols r (c (r' "analysis_batch")) (κ (r' "analysis_batch")) E f S x K g M pts B W N →
        κ (r' "analysis_batch") < c (r' "analysis_batch") →
        ∃ a, r' "alkalinity" = .num (fin a) ∧
          |a - 1e6 * A| ≤ emfError A (c (r' "analysis_batch")) (κ (r' "analysis_batch")) M η τ B W N ∧
          ∀ y, r "alkalinity_certified" = .num (fin y) → r' "alkalinity_offset" = .num (fin (a - y)))
      df.rows df'.rows := by
  have := C121_dataset w kw df df' hkw h hl c κ (href.imp fun r r' hr hi => by
    obtain ⟨A, E, η, B, W, N, cert, δ, f, S, x, K, n, g, M, t, pts, h1, h2, h3, h4, h5, h6⟩ := hr hi
    obtain ⟨f', S', cert', q1, q2, q3, q4⟩ := nearEmf_reference hw ho ho' hτ hmin h1 h2 h3 h4 h5
    exact ⟨f', S', cert', q1, q2, q3, fun st hst res hres => by
      obtain ⟨c', z1, z2⟩ := q4 st hst res hres
      exact ⟨c', z1, z2.trans h6⟩⟩)
  exact this.imp fun r r' hr hq => ⟨(hr hq).1, fun A E η B W N f S x K n g M t pts hx hη hB hs hκ =>
    (hr hq).2 _ _ (nearEmf_row hw hτ hmin hx hη hB hs hκ)⟩

end Calk
