import Verif.Lemmas.RoundedEmf
import Verif.Props.Rounding
import Verif.Props.EmfErrors

/-! # Rounding in EMF-mode solves (C133) -/

namespace Calk
open Flt Spec

/-! ## exact arithmetic gives the exact model -/

theorem exact_lsqfun (c : Flt) (tm emf T : List Flt) (M : Flt) (totals ks : Dict NpVal) (n : Flt) :
    lsqfun_solve_emfF exactArith c tm emf T M totals ks n = lsqfun_solve_emf c tm emf T M totals ks n := by
  funext x
  unfold lsqfun_solve_emfF lsqfun_solve_emf alkalinity_arrF alkalinity_arr
  simp only [exact_alkalinity, exact_from]
  rfl

theorem exact_solve_false (ls : LsFun (Flt × Flt)) (c : Flt) (tm emf T : List Flt) (M : Flt)
    (totals ks : Dict NpVal) (o : EmfOpts) :
    solve_emfF exactArith ls (fun logic => gran_guesses tm emf T M c o.titrant_normality logic) c tm emf T M
      totals ks o false = solve_emf ls c tm emf T M totals ks o false := by
  rw [solve_emfF, solve_emf]
  simp only [exact_lsqfun]
  unfold alkalinity_arrF alkalinity_arr
  simp only [exact_alkalinity, exact_from]
  rfl

/-- double solving is a solve followed by a solve from its result -/
theorem solve_emfF_true_eq {F : Arith} {ls : LsFun (Flt × Flt)} {gran : String → Py GranGuesses} {c M : Flt}
    {tm emf T : List Flt} {totals ks : Dict NpVal} {o : EmfOpts} :
    solve_emfF F ls gran c tm emf T M totals ks o true =
      (do
        let sr ← solve_emfF F ls gran c tm emf T M totals ks o false
        solve_emfF F ls gran c tm emf T M totals ks
          { alkalinity_init := some sr.alkalinity, emf0_init := some sr.emf0,
            pH_min := o.pH_min, pH_max := o.pH_max, titrant_normality := o.titrant_normality }
          false) := by
  rw [solve_emfF, solve_emfF.eq_1 F ls gran c tm emf T M totals ks o false]
  simp only [bind_assoc, pure_bind]

/-- C133.  Without rounding the floating-point version of the code is the exact model. -/
theorem C133_exact (ls : LsFun (Flt × Flt)) (c : Flt) (tm emf T : List Flt) (M : Flt)
    (totals ks : Dict NpVal) (o : EmfOpts) (double : Bool) :
    solve_emfF exactArith ls (fun logic => gran_guesses tm emf T M c o.titrant_normality logic) c tm emf T M
      totals ks o double = solve_emf ls c tm emf T M totals ks o double := by
  cases double with
  | false => exact exact_solve_false ls c tm emf T M totals ks o
  | true =>
    have h2 := fun sr1 : SolveEmf => exact_solve_false ls c tm emf T M totals ks
      { alkalinity_init := some sr1.alkalinity, emf0_init := some sr1.emf0,
        pH_min := o.pH_min, pH_max := o.pH_max, titrant_normality := o.titrant_normality }
    simp only at h2
    rw [solve_emf_true_eq, solve_emfF_true_eq, exact_solve_false]
    congr 1
    funext sr1
    exact h2 sr1

/-! ## what the result of a rounded solve is made of -/

theorem solve_emfF_last {F : Arith} {ls : LsFun (Flt × Flt)} {gran : String → Py GranGuesses} {c M : Flt}
    {tm emf T : List Flt} {totals ks : Dict NpVal} {o : EmfOpts} {double : Bool} {sr : SolveEmf}
    (h : solve_emfF F ls gran c tm emf T M totals ks o double = .ok sr) :
    ∃ o' : EmfOpts, o'.titrant_normality = o.titrant_normality ∧
      solve_emfF F ls gran c tm emf T M totals ks o' false = .ok sr := by
  cases double with
  | false => exact ⟨o, rfl, h⟩
  | true =>
    rw [solve_emfF_true_eq, bind_ok_iff] at h
    obtain ⟨sr1, -, h⟩ := h
    let o' : EmfOpts :=
      { alkalinity_init := some sr1.alkalinity, emf0_init := some sr1.emf0,
        pH_min := o.pH_min, pH_max := o.pH_max, titrant_normality := o.titrant_normality }
    exact ⟨o', rfl, h⟩

theorem solve_emfF_parts {F : Arith} {ls : LsFun (Flt × Flt)} {gran : String → Py GranGuesses} {c M : Flt}
    {tm emf T : List Flt} {totals ks : Dict NpVal} {o : EmfOpts} {double : Bool} {sr : SolveEmf}
    (hl : emf.length = T.length) (hg : ∀ s g, gran s = .ok g → g.pH.length = emf.length)
    (h : solve_emfF F ls gran c tm emf T M totals ks o double = .ok sr) :
    ∃ tu ku start, sr.used.length = emf.length ∧ maskDict sr.used totals = .ok tu ∧
      maskDict sr.used ks = .ok ku ∧
      ls (lsqfun_solve_emfF F c (mask sr.used tm) (mask sr.used emf) (mask sr.used T) M tu ku
        o.titrant_normality) start = .ok sr.opt_result ∧
      sr.alkalinity = F.mul sr.opt_result.x.1 (fin 1e6) ∧ sr.emf0 = sr.opt_result.x.2 := by
  obtain ⟨o', hn, h⟩ := solve_emfF_last h
  rw [← hn]
  rw [solve_emfF] at h
  simp only [bind_ok_iff] at h
  obtain ⟨g, hgo, _, -, tu, htu, ku, hku, opt, hopt, a, -, h⟩ := h
  simp only [pure_ok, Except.ok.injEq] at h
  subst h
  refine ⟨tu, ku, _, ?_, htu, hku, hopt, rfl, rfl⟩
  simp only [pH_used, List.length_map]
  cases o'.emf0_init with
  | none => exact hg _ _ hgo
  | some e => simp [emf_to_pH_arrF, hl]

/-! ## double precision -/

theorem log_ten_le : Real.log 10 ≤ 2.3105 := by
  have h : Real.log 1000 ≤ Real.log 1024 := Real.log_le_log (by norm_num) (by norm_num)
  rw [show (1000:ℝ) = 10 ^ 3 by norm_num, show (1024:ℝ) = 2 ^ 10 by norm_num, Real.log_pow, Real.log_pow] at h
  have := Real.log_two_lt_d9
  norm_num at h this ⊢
  linarith

theorem round_pow_le {u : ℝ} (hu1 : u < 1) {N : ℕ} {B : ℝ} (hB : 0 ≤ B)
    (h : 1 ≤ (1 + B) * (1 - N * u)) : (1 / (1 - u)) ^ N - 1 ≤ B := by
  have hp : 0 < 1 - u := by linarith
  have h1 : 1 - N * u ≤ (1 - u) ^ N := by
    have := one_add_mul_le_pow (a := -u) (by linarith) N
    rw [sub_eq_add_neg 1 u]; linarith
  have h2 : 1 ≤ (1 + B) * (1 - u) ^ N := h.trans (mul_le_mul_of_nonneg_left h1 (by linarith))
  rw [div_pow, one_pow]
  have : 1 / (1 - u) ^ N ≤ 1 + B := by rw [div_le_iff₀ (by positivity)]; exact h2
  linarith

/-- the misfits of a solution's points, computed in double precision -/
theorem misfits_double {F : Arith} {e : ℕ} (hF : AccurateExp F (2 ^ (-53 : ℤ)) e) (he : e ≤ 4)
    {totals ks : Dict NpVal} {pts : List (ℝ × ℝ × ℝ)} {c n M A E : ℝ}
    (hne : pts ≠ []) (hM : 0 < M) (hm : ∀ p ∈ pts, 0 ≤ p.1) (hT : ∀ p ∈ pts, 0 ≤ p.2.2)
    (hv : ValidRows totals ks pts.length) (hk : HasKsN totals ks 3)
    (hft : dictFits pts.length totals = true) (hfk : dictFits pts.length ks = true)
    (hside : RoundSide F ks pts.length) (hpH : ∀ p ∈ pts, |readPH E p| ≤ 14) :
    ∃ vs : List ℝ, lsqfun_solve_emfF F (fin c) (pts.map fun p => fin p.1) (pts.map fun p => fin p.2.1)
        (pts.map fun p => fin p.2.2) (fin M) totals ks (fin n) (fin A, fin E) = .ok (vs.map fin) ∧
      List.Forall₂ (fun v (pi : (ℝ × ℝ × ℝ) × ℕ) =>
        |v - solMisfit (Sol.of (rowAt totals pi.2) (rowAt ks pi.2)) c n M A E pi.1|
          ≤ 4.5e-13 * solMisfitSize (Sol.of (rowAt totals pi.2) (rowAt ks pi.2)) c n M A E pi.1)
        vs pts.zipIdx := by
  have hl := log_ten_le
  have hl0 : (0:ℝ) < Real.log 10 := Real.log_pos (by norm_num)
  have hb : ∀ p ∈ pts, |(p.2.1 - E) / (8.3144621 * (p.2.2 + 273.15) / 96.4853365)| ≤ 32.35 := by
    intro p hp
    have h1 := hpH p hp
    have e1 : (p.2.1 - E) / (8.3144621 * (p.2.2 + 273.15) / 96.4853365) = -(readPH E p * Real.log 10) := by
      unfold readPH readAcidity
      rw [Real.logb, Real.log_exp]
      field_simp
    rw [e1, abs_neg, abs_mul, abs_of_pos hl0]
    calc _ ≤ 14 * 2.3105 := mul_le_mul h1 hl hl0.le (by norm_num)
      _ ≤ 32.35 := by norm_num
  obtain ⟨vs, h1, h2⟩ := lsqfun_emfF_near (hF.mono he) (c := c) (n := n) (A := A) (k₁ := 260) (k₂ := 130)
    hne hM hm hT hv hk hft hfk hside hb (by norm_num) (by norm_num)
  have hc : (1 / (1 - (2:ℝ) ^ (-53 : ℤ))) ^ (termDepth (4 + 130 + (4 + 260)) + 18) - 1 ≤ 4.5e-13 :=
    round_pow_le (by norm_num) (by norm_num) (by norm_num [termDepth])
  obtain ⟨ws, rfl, hws⟩ : ∃ ws : List ℝ, vs = ws.map fin ∧ List.Forall₂ (fun v (pi : (ℝ × ℝ × ℝ) × ℕ) =>
        |v - solMisfit (Sol.of (rowAt totals pi.2) (rowAt ks pi.2)) c n M A E pi.1|
          ≤ 4.5e-13 * solMisfitSize (Sol.of (rowAt totals pi.2) (rowAt ks pi.2)) c n M A E pi.1)
        ws pts.zipIdx := by
    clear h1
    generalize pts.zipIdx = l at h2 ⊢
    induction h2 with
    | nil => exact ⟨[], rfl, .nil⟩
    | cons ha _ ih =>
      obtain ⟨ws, rfl, hws⟩ := ih
      obtain ⟨y, rfl, hy⟩ := ha
      exact ⟨y :: ws, rfl, .cons (hy.err.trans (mul_le_mul_of_nonneg_right hc hy.nonneg)) hws⟩
  exact ⟨ws, h1, hws⟩

theorem mask_zipIdx {α : Type} {used : List Bool} {xs : List α} (h : used.length = xs.length) :
    mask used xs.zipIdx = List.zip (mask used xs) (maskIdx used) := by
  rw [List.zipIdx_eq_zip_range', List.zip_eq_zipWith, mask_zipWith, List.zip_eq_zipWith, maskIdx, h,
    List.range_eq_range']

/-- the same for the points used -/
theorem misfits_used {F : Arith} {e : ℕ} (hF : AccurateExp F (2 ^ (-53 : ℤ)) e) (he : e ≤ 4)
    {totals ks tu ku : Dict NpVal} {pts : List (ℝ × ℝ × ℝ)} {used : List Bool} {c n M A E : ℝ}
    (hne : mask used pts ≠ []) (hlen : used.length = pts.length)
    (hM : 0 < M) (hm : ∀ p ∈ mask used pts, 0 ≤ p.1) (hT : ∀ p ∈ mask used pts, 0 ≤ p.2.2)
    (hv : ValidRows totals ks pts.length) (hk : HasKsN totals ks 3)
    (hft : dictFits pts.length totals = true) (hfk : dictFits pts.length ks = true)
    (htu : maskDict used totals = .ok tu) (hku : maskDict used ks = .ok ku)
    (hside : RoundSide F ks pts.length) (hpH : ∀ p ∈ mask used pts, |readPH E p| ≤ 14) :
    ∃ vs : List ℝ, lsqfun_solve_emfF F (fin c) (mask used (pts.map fun p => fin p.1))
        (mask used (pts.map fun p => fin p.2.1)) (mask used (pts.map fun p => fin p.2.2)) (fin M) tu ku (fin n)
        (fin A, fin E) = .ok (vs.map fin) ∧
      List.Forall₂ (fun v (pi : (ℝ × ℝ × ℝ) × ℕ) =>
        |v - solMisfit (Sol.of (rowAt totals pi.2) (rowAt ks pi.2)) c n M A E pi.1|
          ≤ 4.5e-13 * solMisfitSize (Sol.of (rowAt totals pi.2) (rowAt ks pi.2)) c n M A E pi.1)
        vs (mask used pts.zipIdx) := by
  rw [← hlen] at hft hfk
  rw [maskDict_eq hft] at htu
  rw [maskDict_eq hfk] at hku
  cases htu
  cases hku
  have hidx : ∀ i ∈ maskIdx used, i < used.length := fun i hi => maskIdx_lt hi
  have hml : (mask used pts).length = (maskIdx used).length := by
    unfold maskIdx
    exact mask_length_eq (by simp [hlen])
  have h0 : used.length = 0 → maskIdx used = [] := by
    intro h; rw [List.length_eq_zero_iff.mp h]; rfl
  have hrow : ∀ d : Dict NpVal, dictFits used.length d = true → ∀ j (hj : j < (maskIdx used).length),
      rowAt (reindexD (maskIdx used) d) j = rowAt d (maskIdx used)[j] :=
    fun d hd j hj => rowAt_reindex hd hj hidx
  have hv' : ValidRows (reindexD (maskIdx used) totals) (reindexD (maskIdx used) ks) (mask used pts).length := by
    intro j hj
    rw [hml] at hj
    rw [hrow _ hft j hj, hrow _ hfk j hj]
    exact hv _ (by rw [← hlen]; exact hidx _ (List.getElem_mem hj))
  have hs' : RoundSide F (reindexD (maskIdx used) ks) (mask used pts).length := by
    intro j hj
    rw [hml] at hj
    rw [hrow _ hfk j hj]
    exact hside _ (by rw [← hlen]; exact hidx _ (List.getElem_mem hj))
  obtain ⟨vs, h1, h2⟩ := misfits_double hF he (c := c) (n := n) (A := A) hne hM hm hT hv'
    (hasKsN_reindex.mpr hk) (by rw [hml]; exact reindexD_fits hft h0)
    (by rw [hml]; exact reindexD_fits hfk h0) hs' hpH
  refine ⟨vs, by rw [mask_map, mask_map, mask_map]; exact h1, ?_⟩
  rw [mask_zipIdx hlen]
  rw [List.forall₂_iff_get] at h2 ⊢
  have hvl : vs.length = (mask used pts).length := by simpa using h2.1
  refine ⟨by simp [hvl, hml], fun j hj hj' => ?_⟩
  have hj2 : j < (maskIdx used).length := by omega
  have := h2.2 j hj (by simpa [hvl] using hj)
  simp only [List.get_eq_getElem, List.getElem_zipIdx, Nat.zero_add, List.getElem_zip] at this ⊢
  rwa [hrow _ hft j hj2, hrow _ hfk j hj2] at this

/-! ## the result -/

/-- the optimiser finds the minimum of the sum of squares up to `τ`: no other trial has a root of the
sum of squares that is smaller by more -/
def LsNearMin (τ : ℝ) (ls : LsFun (Flt × Flt)) : Prop :=
  ∀ f x0 r, ls f x0 = .ok r → ∀ x (ρ : List ℝ), f x = .ok (ρ.map fin) →
    ∃ res : List ℝ, r.fun_ = res.map fin ∧
      Real.sqrt (res.map (· ^ 2)).sum ≤ Real.sqrt (ρ.map (· ^ 2)).sum + τ

/-- by how much the second point's acid exceeds that of the first, with its buffering -/
noncomputable def Spec.solExcess (s : Sol) (M E lo : ℝ) (p q : ℝ × ℝ × ℝ) : ℝ :=
  (q.1 + M) * readAcidity E q - (1 + s.buffering lo) * ((p.1 + M) * readAcidity E p)

/-- how far the acidities that are read can be off, relatively, for misfits of `ε` -/
noncomputable def Spec.solOff (s : Sol) (M E lo ε : ℝ) (p q : ℝ × ℝ × ℝ) : ℝ :=
  ((p.1 + M) + (q.1 + M)) * ε / solExcess s M E lo p q

/-- Two points that are nearly fitted by two values each of alkalinity and EMF0. -/
theorem two_points_near {s₁ s₂ : Sol} (hs₁ : s₁.Valid) (hs₂ : s₂.Valid) {c n M A E A' E' lo ε : ℝ}
    {p q : ℝ × ℝ × ℝ} (hM : 0 < M) (hmp : 0 ≤ p.1) (hmq : 0 ≤ q.1) (hT : -273.15 < p.2.2)
    (hTT : p.2.2 = q.2.2) (hlo : 0 < lo) (hl : lo ≤ readAcidity E p) (hl' : lo ≤ readAcidity E' p)
    (e₁ : |solMisfit s₁ c n M A' E' p - solMisfit s₁ c n M A E p| ≤ ε)
    (e₂ : |solMisfit s₂ c n M A' E' q - solMisfit s₂ c n M A E q| ≤ ε)
    (hmore : 0 < solExcess s₁ M E lo p q) :
    |A' - A| * M ≤ (p.1 + M) * (ε + (1 + s₁.buffering lo) * readAcidity E p * solOff s₁ M E lo ε p q) ∧
    (solOff s₁ M E lo ε p q < 1 →
      |E' - E| ≤ 8.3144621 * (p.2.2 + 273.15) / 96.4853365 *
        (solOff s₁ M E lo ε p q / (1 - solOff s₁ M E lo ε p q))) := by
  set σ := 8.3144621 * (p.2.2 + 273.15) / 96.4853365 with hσ
  have hσ0 : 0 < σ := by
    have : 0 < p.2.2 + 273.15 := by linarith
    rw [hσ]; positivity
  set k := Real.exp ((E - E') / σ) with hk
  have hk0 : 0 < k := Real.exp_pos _
  have hrp : readAcidity E' p = k * readAcidity E p := readAcidity_ratio E E' p
  have hrq : readAcidity E' q = k * readAcidity E q := by
    have := readAcidity_ratio E E' q
    rw [← hTT] at this
    exact this
  have hdiff : ∀ (s : Sol) (y : ℝ × ℝ × ℝ), 0 < y.1 + M → readAcidity E' y = k * readAcidity E y →
      |solMisfit s c n M A' E' y - solMisfit s c n M A E y| ≤ ε →
      |(s.alk 3 (k * readAcidity E y) - s.alk 3 (readAcidity E y)) * (y.1 + M) - (A' - A) * M|
        ≤ (y.1 + M) * ε := by
    intro s y hw hyr hy
    have e : (s.alk 3 (k * readAcidity E y) - s.alk 3 (readAcidity E y)) * (y.1 + M) - (A' - A) * M
        = (y.1 + M) * (solMisfit s c n M A' E' y - solMisfit s c n M A E y) := by
      have h1 : solMisfit s c n M A' E' y
          = s.alk 3 (readAcidity E' y) - (A' * M - y.1 * c * n) / (y.1 + M) := rfl
      have h2 : solMisfit s c n M A E y
          = s.alk 3 (readAcidity E y) - (A * M - y.1 * c * n) / (y.1 + M) := rfl
      rw [h1, h2, hyr]
      field_simp
      ring
    rw [e, abs_mul, abs_of_pos hw]
    exact mul_le_mul_of_nonneg_left hy hw.le
  have hwp : 0 < p.1 + M := by linarith
  have hwq : 0 < q.1 + M := by linarith
  have hap : 0 < readAcidity E p := Real.exp_pos _
  have haq : 0 < readAcidity E q := Real.exp_pos _
  obtain ⟨c1, c2⟩ := pair_stable hs₁ hs₂ hwp hwq hap haq hk0 hlo hl
    (by rw [← hrp]; exact hl') (hdiff s₁ p hwp hrp e₁) (hdiff s₂ q hwq hrq e₂)
  have hoff : |k - 1| ≤ solOff s₁ M E lo ε p q := by
    unfold solOff
    rw [le_div_iff₀ hmore]
    exact c1
  have hB := buffering_nonneg hs₁ hlo
  refine ⟨?_, fun hlt => ?_⟩
  · rw [abs_mul, abs_of_pos hM] at c2
    have := mul_le_mul_of_nonneg_left hoff (show 0 ≤ (1 + s₁.buffering lo)
      * ((p.1 + M) * readAcidity E p) by positivity)
    calc _ ≤ _ := c2
      _ ≤ _ := by linarith
  · have := log_near_one hk0 hoff hlt
    rw [hk, Real.log_exp, abs_div, abs_of_pos hσ0, div_le_iff₀ hσ0] at this
    rw [abs_sub_comm, mul_comm]
    exact this

section
variable {F : Arith} {e : ℕ} (hF : AccurateExp F (2 ^ (-53 : ℤ)) e) (he : e ≤ 4)
include hF he

/-- C133.  The residuals that an EMF solve reports are the misfits at the alkalinity and EMF0 that it
reports, to within 4.5e-13 of the size of the terms. -/
theorem C133_residuals {ls : LsFun (Flt × Flt)} (hls : LsSound ls) {gran : String → Py GranGuesses}
    {c n M : ℝ} {pts : List (ℝ × ℝ × ℝ)} {totals ks : Dict NpVal} {o : EmfOpts} {double : Bool}
    (ho : o.titrant_normality = fin n) (hM : 0 < M) (hm : ∀ p ∈ pts, 0 ≤ p.1) (hT : ∀ p ∈ pts, 0 ≤ p.2.2)
    (hv : ValidRows totals ks pts.length) (hk : HasKsN totals ks 3)
    (hft : dictFits pts.length totals = true) (hfk : dictFits pts.length ks = true)
    (hside : RoundSide F ks pts.length) (hg : ∀ s g, gran s = .ok g → g.pH.length = pts.length)
    {sr : SolveEmf} (hr : solve_emfF F ls gran (fin c) (pts.map fun p => fin p.1)
      (pts.map fun p => fin p.2.1) (pts.map fun p => fin p.2.2) (fin M) totals ks o double = .ok sr)
    {A' E' : ℝ} (hx : sr.opt_result.x = (fin A', fin E')) (hne : true ∈ sr.used)
    (hpH : ∀ p ∈ mask sr.used pts, |readPH E' p| ≤ 14) :
    ∃ res : List ℝ, sr.opt_result.fun_ = res.map fin ∧
      List.Forall₂ (fun v (pi : (ℝ × ℝ × ℝ) × ℕ) =>
        |v - solMisfit (Sol.of (rowAt totals pi.2) (rowAt ks pi.2)) c n M A' E' pi.1|
          ≤ 4.5e-13 * solMisfitSize (Sol.of (rowAt totals pi.2) (rowAt ks pi.2)) c n M A' E' pi.1)
        res (mask sr.used pts.zipIdx) := by
  obtain ⟨tu, ku, start, hlen, htu, hku, hopt, -, -⟩ := solve_emfF_parts (by simp) (by simpa using hg) hr
  rw [List.length_map] at hlen
  have hsub : ∀ p ∈ mask sr.used pts, p ∈ pts := fun p hp => mem_of_mem_mask hp
  have hne' : mask sr.used pts ≠ [] := by
    obtain ⟨i, hi, hi'⟩ := List.getElem_of_mem hne
    exact List.ne_nil_of_mem (mem_mask.mpr ⟨i, hi, by omega, hi', rfl⟩)
  obtain ⟨vs, h1, h2⟩ := misfits_used hF he (c := c) (n := n) (A := A') (E := E') hne' hlen hM
    (fun p hp => hm p (hsub p hp)) (fun p hp => hT p (hsub p hp)) hv hk hft hfk htu hku hside hpH
  have h3 := hls _ _ _ hopt
  rw [hx, ho, h1] at h3
  exact ⟨vs, (Except.ok.inj h3).symm, h2⟩

/-- C133.  In double precision, with an optimiser that finds the minimum up to `τ`, an EMF solve of
data that the true alkalinity `A` and EMF0 `E` fit up to misfits of `η` is off by no more than the
bound: rounding adds 4.5e-13 of the size of the terms to the misfits. -/
theorem C133_rounding {ls : LsFun (Flt × Flt)} (hls : LsSound ls) {τ : ℝ} (hτ : LsNearMin τ ls)
    {gran : String → Py GranGuesses}
    {c n M : ℝ} {pts : List (ℝ × ℝ × ℝ)} {totals ks : Dict NpVal} {o : EmfOpts} {double : Bool}
    (ho : o.titrant_normality = fin n) (hM : 0 < M) (hm : ∀ p ∈ pts, 0 ≤ p.1) (hT : ∀ p ∈ pts, 0 ≤ p.2.2)
    (hv : ValidRows totals ks pts.length) (hk : HasKsN totals ks 3)
    (hft : dictFits pts.length totals = true) (hfk : dictFits pts.length ks = true)
    (hside : RoundSide F ks pts.length) (hg : ∀ s g, gran s = .ok g → g.pH.length = pts.length)
    {sr : SolveEmf} (hr : solve_emfF F ls gran (fin c) (pts.map fun p => fin p.1)
      (pts.map fun p => fin p.2.1) (pts.map fun p => fin p.2.2) (fin M) totals ks o double = .ok sr)
    {A E A' E' η σ : ℝ} (hx : sr.opt_result.x = (fin A', fin E'))
    (hpH : ∀ p ∈ mask sr.used pts, |readPH E p| ≤ 14 ∧ |readPH E' p| ≤ 14)
    (hη : ∀ pi ∈ mask sr.used pts.zipIdx,
      |solMisfit (Sol.of (rowAt totals pi.2) (rowAt ks pi.2)) c n M A E pi.1| ≤ η)
    (hσ : ∀ pi ∈ mask sr.used pts.zipIdx,
      solMisfitSize (Sol.of (rowAt totals pi.2) (rowAt ks pi.2)) c n M A E pi.1 ≤ σ ∧
      solMisfitSize (Sol.of (rowAt totals pi.2) (rowAt ks pi.2)) c n M A' E' pi.1 ≤ σ)
    {p q : ℝ × ℝ × ℝ} {i j : ℕ} (hp : (p, i) ∈ mask sr.used pts.zipIdx)
    (hq : (q, j) ∈ mask sr.used pts.zipIdx) (hTT : p.2.2 = q.2.2)
    {lo ε : ℝ} (hlo : 0 < lo) (hl : lo ≤ readAcidity E p) (hl' : lo ≤ readAcidity E' p)
    (hε : ε = (1 + Real.sqrt (mask sr.used pts).length) * (η + 4.5e-13 * σ) + τ)
    (hmore : 0 < solExcess (Sol.of (rowAt totals i) (rowAt ks i)) M E lo p q) :
    (∃ a, sr.alkalinity = fin a ∧ |a - 1e6 * A'| ≤ 2 ^ (-53 : ℤ) * |1e6 * A'|) ∧ sr.emf0 = fin E' ∧
    |A' - A| * M ≤ (p.1 + M) * (ε + (1 + (Sol.of (rowAt totals i) (rowAt ks i)).buffering lo)
      * readAcidity E p * solOff (Sol.of (rowAt totals i) (rowAt ks i)) M E lo ε p q) ∧
    (solOff (Sol.of (rowAt totals i) (rowAt ks i)) M E lo ε p q < 1 →
      |E' - E| ≤ 8.3144621 * (p.2.2 + 273.15) / 96.4853365 *
        (solOff (Sol.of (rowAt totals i) (rowAt ks i)) M E lo ε p q
          / (1 - solOff (Sol.of (rowAt totals i) (rowAt ks i)) M E lo ε p q))) := by
  obtain ⟨tu, ku, start, hlen, htu, hku, hopt, ha, hE⟩ := solve_emfF_parts (by simp) (by simpa using hg) hr
  rw [List.length_map] at hlen
  have hsub : ∀ p ∈ mask sr.used pts, p ∈ pts := fun p hp => mem_of_mem_mask hp
  have hused : true ∈ sr.used := true_mem_of_mask hp
  have hne' : mask sr.used pts ≠ [] := by
    obtain ⟨i, hi, hi'⟩ := List.getElem_of_mem hused
    exact List.ne_nil_of_mem (mem_mask.mpr ⟨i, hi, by omega, hi', rfl⟩)
  obtain ⟨vs, h1, h2⟩ := misfits_used hF he (c := c) (n := n) (A := A) (E := E) hne' hlen hM
    (fun p hp => hm p (hsub p hp)) (fun p hp => hT p (hsub p hp)) hv hk hft hfk htu hku hside
    (fun p hp => (hpH p hp).1)
  obtain ⟨res, r1, r2⟩ := C133_residuals hF he hls ho hM hm hT hv hk hft hfk hside hg hr hx hused
    (fun p hp => (hpH p hp).2)
  obtain ⟨res', r1', r3⟩ := hτ _ _ _ hopt (fin A, fin E) vs (by rw [ho]; exact h1)
  have : res' = res := by
    have := r1.symm.trans r1'
    exact (List.map_injective_iff.mpr (fun _ _ h => Flt.fin.inj h) this).symm
  subst this
  set S := fun pi : (ℝ × ℝ × ℝ) × ℕ => Sol.of (rowAt totals pi.2) (rowAt ks pi.2) with hS
  set N := (mask sr.used pts).length with hN
  have hNi : (mask sr.used pts.zipIdx).length = N := mask_length_eq (by simp)
  have hη0 : 0 ≤ η := (abs_nonneg _).trans (hη _ hp)
  have hval : ∀ pi ∈ mask sr.used pts.zipIdx, pi.1 ∈ pts ∧ (S pi).Valid := by
    intro pi hpi
    obtain ⟨k, hk1, hk2⟩ := List.getElem_of_mem (mem_of_mem_mask hpi)
    have hk3 : k < pts.length := by simpa using hk1
    rw [List.getElem_zipIdx] at hk2
    subst hk2
    simp only [Nat.zero_add, hS]
    exact ⟨List.getElem_mem hk3, Sol.of_valid (hv k hk3).1 (hv k hk3).2⟩
  have hσ0 : 0 ≤ σ := by
    obtain ⟨v, -, hv1⟩ := forall₂_mem h2.flip hp
    have h3 : 0 ≤ 4.5e-13 * solMisfitSize (S (p, i)) c n M A E p := (abs_nonneg _).trans hv1
    have := (hσ _ hp).1
    norm_num at h3
    linarith
  have hδ0 : 0 ≤ η + 4.5e-13 * σ := by positivity
  have hvs : ∀ v ∈ vs, |v| ≤ η + 4.5e-13 * σ := by
    intro v hv'
    obtain ⟨pi, hpi, hpv⟩ := forall₂_mem h2 hv'
    have h3 := hη pi hpi
    have h4 := (hσ pi hpi).1
    have h5 := abs_sub_abs_le_abs_sub v (solMisfit (S pi) c n M A E pi.1)
    have h6 : (4.5e-13 : ℝ) * solMisfitSize (S pi) c n M A E pi.1 ≤ 4.5e-13 * σ :=
      mul_le_mul_of_nonneg_left h4 (by norm_num)
    linarith
  have hvl : vs.length = N := by rw [h2.length_eq, hNi]
  have hroot : Real.sqrt (vs.map (· ^ 2)).sum ≤ Real.sqrt N * (η + 4.5e-13 * σ) := by
    rw [← Real.sqrt_sq hδ0, ← Real.sqrt_mul (by positivity)]
    apply Real.sqrt_le_sqrt
    have := sum_sq_le vs id hvs
    rw [hvl] at this
    simpa using this
  have hres : ∀ v ∈ res', |v| ≤ Real.sqrt N * (η + 4.5e-13 * σ) + τ := by
    intro v hv'
    have h3 : |v| ≤ Real.sqrt (res'.map (· ^ 2)).sum := by
      apply Real.abs_le_sqrt
      apply List.single_le_sum
      · intro y hy; obtain ⟨z, -, rfl⟩ := List.mem_map.mp hy; positivity
      · exact List.mem_map.mpr ⟨v, hv', rfl⟩
    linarith
  have hfit : ∀ pi ∈ mask sr.used pts.zipIdx,
      |solMisfit (S pi) c n M A' E' pi.1 - solMisfit (S pi) c n M A E pi.1| ≤ ε := by
    intro pi hpi
    obtain ⟨v, hv1, hv2⟩ := forall₂_mem r2.flip hpi
    have h3 := hres v hv1
    have h4 := hη pi hpi
    have h6 : (4.5e-13 : ℝ) * solMisfitSize (S pi) c n M A' E' pi.1 ≤ 4.5e-13 * σ :=
      mul_le_mul_of_nonneg_left (hσ pi hpi).2 (by norm_num)
    have hv2' : |v - solMisfit (S pi) c n M A' E' pi.1|
      ≤ 4.5e-13 * solMisfitSize (S pi) c n M A' E' pi.1 := hv2
    have h5 : |solMisfit (S pi) c n M A' E' pi.1| ≤ |v| + 4.5e-13 * σ := by
      have := abs_sub_abs_le_abs_sub (solMisfit (S pi) c n M A' E' pi.1) v
      rw [abs_sub_comm] at this
      linarith
    refine (abs_sub _ _).trans ?_
    rw [hε]
    linarith
  refine ⟨?_, by rw [hE, hx], ?_⟩
  · obtain ⟨y, hy, hyu⟩ := hF.rnd (A' * 1e6)
    refine ⟨y, by rw [ha, hx]; simpa [Arith.mul] using hy, ?_⟩
    rwa [mul_comm A' 1e6] at hyu
  · exact two_points_near (hval _ hp).2 (hval _ hq).2 hM (hm _ (hval _ hp).1) (hm _ (hval _ hq).1)
      (by have := hT _ (hval _ hp).1; linarith) hTT hlo hl hl' (hfit _ hp) (hfit _ hq) hmore

end

/-! ### A case: two points of a strong acid, in double precision -/

theorem double_accurateExp : AccurateExp double (2 ^ (-53 : ℤ)) 1 where
  toAccurate := double_accurate
  exp x := by
    refine ⟨round53 (Real.exp x), by simp [double, rnd53], ?_⟩
    refine (Rel.refl (Real.exp_pos _)).round (u := 2 ^ (-53 : ℤ)) ?_ ?_ (round53_close _) <;> norm_num
  log10 x hx := by
    refine ⟨round53 (Real.logb 10 x), by simp [double, rnd53, log10_fin _ hx], ?_⟩
    refine (Err.refl _).round (u := 2 ^ (-53 : ℤ)) ?_ ?_ ?_ (round53_close _) <;> norm_num

/-- an optimiser that goes to `x` if the root of the sum of squares there is at most `τ` -/
noncomputable def lsNear (τ : ℝ) (x : Flt × Flt) : LsFun (Flt × Flt) := fun f _ =>
  open Classical in
  if h : ∃ ρ : List ℝ, f x = .ok (ρ.map fin) ∧ Real.sqrt (ρ.map (· ^ 2)).sum ≤ τ then
    .ok { x := x, fun_ := h.choose.map fin }
  else .error .ValueError

theorem lsNear_contracts (τ : ℝ) (x : Flt × Flt) : LsSound (lsNear τ x) ∧ LsNearMin τ (lsNear τ x) := by
  constructor
  · intro f x0 r h
    unfold lsNear at h
    split at h
    next hex => cases h; exact hex.choose_spec.1
    next => cases h
  · intro f x0 r h y ρ _
    unfold lsNear at h
    split at h
    next hex =>
      cases h
      refine ⟨_, rfl, hex.choose_spec.2.trans ?_⟩
      have := Real.sqrt_nonneg (ρ.map (· ^ 2)).sum
      linarith
    next => cases h

/-- Acid of 1 mol/kg into 1 kg of sample, alkalinity 0.5 mol/kg: what is left of the acid. -/
noncomputable def reePts : List (ℝ × ℝ × ℝ) := [(1, nernst 400 25 0.25, 25), (2, nernst 400 25 0.5, 25)]

theorem ree_read : readAcidity 400 (1, nernst 400 25 0.25, 25) = 0.25 ∧
    readAcidity 400 (2, nernst 400 25 0.5, 25) = 0.5 :=
  ⟨read_nernst _ (by norm_num) (by norm_num), read_nernst _ (by norm_num) (by norm_num)⟩

theorem ree_alk (i : ℕ) (h : ℝ) : (Sol.of (rowAt [] i) (rowAt [] i)).alk 3 h = -h ∧
    (Sol.of (rowAt [] i) (rowAt [] i)).size h = h ∧ (Sol.of (rowAt [] i) (rowAt [] i)).buffering h = 0 := by
  refine ⟨?_, ?_, ?_⟩
  · simp [Sol.of, Sol.alk, rval, rowAt, Dict.mapKV, Dict.get?, carbAlk, base, acid, phosAlk, extraAlk]
  · simp [Sol.of, Sol.size, rval, rowAt, Dict.mapKV, Dict.get?, carbAlk, base, acid]
  · simp [Sol.of, Sol.buffering, rval, rowAt, Dict.mapKV, Dict.get?]

/-- A Gran estimate that puts both points in the window. -/
noncomputable def reeGran : GranGuesses :=
  { ga := { alkalinity := fin 0.5, gfunc := [], used := [], intercept_x := fin 0.5,
            lr := { slope := fin 1, intercept := fin 0, rvalue := fin 1 }, warnFew := false, warnR := false },
    emf0 := fin 400, emf0s := [], pH := [fin 0.6, fin 0.3] }

theorem ree_valid (N : ℕ) : ValidRows [] [] N := by
  intro i _
  constructor <;> intro k v hv <;> simp [rowAt, Dict.mapKV, Dict.get?] at hv

theorem ree_has : HasKsN [] [] 3 := by
  intro tk _ h
  simp [Dict.has, Dict.get?] at h

theorem ree_side (N : ℕ) : RoundSide double [] N := by
  intro i _ k _ K hK
  simp [rowAt, Dict.mapKV, Dict.get?] at hK

theorem ree_pH : ∀ p ∈ reePts, |readPH 400 p| ≤ 14 := by
  have hb : ∀ h : ℝ, 1e-14 ≤ h → h ≤ 1 → |-Real.logb 10 h| ≤ 14 := by
    intro h h1 h2
    have h0 : 0 < h := lt_of_lt_of_le (by norm_num) h1
    have a1 : Real.logb 10 h ≤ 0 := Real.logb_nonpos (by norm_num) h0.le h2
    have a2 : -14 ≤ Real.logb 10 h := by
      rw [Real.le_logb_iff_rpow_le (by norm_num) h0]
      refine le_trans ?_ h1
      rw [show (-14:ℝ) = ((-14 : ℤ) : ℝ) by norm_num, Real.rpow_intCast]
      norm_num
    rw [abs_neg, abs_of_nonpos a1]
    linarith
  intro p hp
  simp only [reePts, List.mem_cons, List.not_mem_nil, or_false] at hp
  rcases hp with rfl | rfl
  · rw [readPH, ree_read.1]; exact hb _ (by norm_num) (by norm_num)
  · rw [readPH, ree_read.2]; exact hb _ (by norm_num) (by norm_num)

/-- misfits and sizes for the true EMF0 and an alkalinity within 1e-13 of the true one -/
theorem ree_fit (i : ℕ) (A : ℝ) (h0 : 0.5 ≤ A) (hA : A ≤ 0.5000000000001) : ∀ p ∈ reePts,
    |solMisfit (Sol.of (rowAt [] i) (rowAt [] i)) 1 1 1 A 400 p| ≤ (A - 0.5) / 2 ∧
    0 ≤ solMisfitSize (Sol.of (rowAt [] i) (rowAt [] i)) 1 1 1 A 400 p ∧
    solMisfitSize (Sol.of (rowAt [] i) (rowAt [] i)) 1 1 1 A 400 p ≤ 1.34 := by
  intro p hp
  have e1 : solMisfit (Sol.of (rowAt [] i) (rowAt [] i)) 1 1 1 A 400 p
      = -readAcidity 400 p - (A * 1 - p.1 * 1 * 1) / (p.1 + 1) := by
    rw [← (ree_alk i _).1]; rfl
  have e2 : solMisfitSize (Sol.of (rowAt [] i) (rowAt [] i)) 1 1 1 A 400 p
      = readAcidity 400 p + (|A| * 1 + |p.1 * 1 * 1|) / (p.1 + 1) := by
    have := (ree_alk i (readAcidity 400 p)).2.1
    rw [← this]; simp only [this]; rw [← this]; rfl
  rw [e1, e2]
  simp only [reePts, List.mem_cons, List.not_mem_nil, or_false] at hp
  rcases hp with rfl | rfl
  · rw [ree_read.1, abs_of_nonneg (by linarith : (0:ℝ) ≤ A)]
    refine ⟨?_, by norm_num; linarith, by norm_num; linarith⟩
    rw [abs_le]; constructor <;> norm_num <;> linarith
  · rw [ree_read.2, abs_of_nonneg (by linarith : (0:ℝ) ≤ A)]
    refine ⟨?_, by norm_num; linarith, by norm_num; linarith⟩
    rw [abs_le]; constructor <;> norm_num <;> linarith

theorem ree_solve : ∃ sr, solve_emfF double (lsNear 1e-12 (fin 0.5000000000001, fin 400)) (fun _ => .ok reeGran)
      (fin 1) (reePts.map fun p => fin p.1) (reePts.map fun p => fin p.2.1) (reePts.map fun p => fin p.2.2)
      (fin 1) [] [] { pH_min := fin 0, pH_max := fin 1 } false = .ok sr ∧
    sr.opt_result.x = (fin 0.5000000000001, fin 400) ∧ sr.used = [true, true] := by
  have hu : pH_used reeGran.pH (fin 0) (fin 1) = [true, true] := by
    simp [pH_used, reeGran]; norm_num
  have hm : ∀ p ∈ reePts, 0 ≤ p.1 := by
    intro p hp; simp only [reePts, List.mem_cons, List.not_mem_nil, or_false] at hp
    rcases hp with rfl | rfl <;> norm_num
  have hT : ∀ p ∈ reePts, 0 ≤ p.2.2 := by
    intro p hp; simp only [reePts, List.mem_cons, List.not_mem_nil, or_false] at hp
    rcases hp with rfl | rfl <;> norm_num
  obtain ⟨vs, h1, h2⟩ := misfits_double double_accurateExp (by norm_num) (totals := []) (ks := []) (pts := reePts)
    (c := 1) (n := 1) (M := 1) (A := 0.5000000000001) (E := 400) (by simp [reePts]) (by norm_num) hm hT
    (ree_valid _) ree_has (by simp [dictFits]) (by simp [dictFits]) (ree_side _) ree_pH
  have hv : ∀ v ∈ vs, |v| ≤ 7e-13 := by
    intro v hv
    obtain ⟨pi, hpi, hpv⟩ := forall₂_mem h2 hv
    have hp : pi.1 ∈ reePts := by
      obtain ⟨k, hk1, hk2⟩ := List.getElem_of_mem hpi
      rw [List.getElem_zipIdx] at hk2
      subst hk2
      exact List.getElem_mem _
    obtain ⟨f1, -, f3⟩ := ree_fit pi.2 0.5000000000001 (by norm_num) le_rfl pi.1 hp
    have h5 := abs_sub_abs_le_abs_sub v
      (solMisfit (Sol.of (rowAt [] pi.2) (rowAt [] pi.2)) 1 1 1 0.5000000000001 400 pi.1)
    have h6 := mul_le_mul_of_nonneg_left f3 (by norm_num : (0:ℝ) ≤ 4.5e-13)
    norm_num at f1 f3 h5 h6 hpv ⊢
    linarith
  have hvl : vs.length = 2 := by rw [h2.length_eq]; simp [reePts]
  have hroot : Real.sqrt (vs.map (· ^ 2)).sum ≤ 1e-12 := by
    apply Real.sqrt_le_iff.mpr
    refine ⟨by norm_num, ?_⟩
    have := sum_sq_le vs id hv
    rw [hvl] at this
    simp only [id] at this
    refine this.trans ?_
    norm_num
  have hex : ∃ ρ : List ℝ, lsqfun_solve_emfF double (fin 1) (reePts.map fun p => fin p.1)
      (reePts.map fun p => fin p.2.1) (reePts.map fun p => fin p.2.2) (fin 1) [] [] (fin 1)
      (fin 0.5000000000001, fin 400) = .ok (ρ.map fin) ∧ Real.sqrt (ρ.map (· ^ 2)).sum ≤ 1e-12 := ⟨vs, h1, hroot⟩
  obtain ⟨as, ha, -⟩ := alkalinity_emfF_near (double_accurateExp.mono (by norm_num : 1 ≤ 4)) (E := 400)
    (totals := []) (ks := []) (pts := reePts) (b := 32.35) (k₁ := 260) (k₂ := 130) (by simp [reePts]) hT
    (ree_valid _) ree_has (by simp [dictFits]) (by simp [dictFits]) (ree_side _)
    (fun p hp => by
      have hl := log_ten_le
      have hl0 : (0:ℝ) < Real.log 10 := Real.log_pos (by norm_num)
      have e1 : (p.2.1 - 400) / (8.3144621 * (p.2.2 + 273.15) / 96.4853365) = -(readPH 400 p * Real.log 10) := by
        unfold readPH readAcidity
        rw [Real.logb, Real.log_exp]
        field_simp
      rw [e1, abs_neg, abs_mul, abs_of_pos hl0]
      calc _ ≤ 14 * 2.3105 := mul_le_mul (ree_pH p hp) hl hl0.le (by norm_num)
        _ ≤ 32.35 := by norm_num) (by norm_num) (by norm_num)
  have hls : lsNear 1e-12 (fin 0.5000000000001, fin 400) (lsqfun_solve_emfF double (fin 1)
      (reePts.map fun p => fin p.1) (reePts.map fun p => fin p.2.1) (reePts.map fun p => fin p.2.2) (fin 1) []
      [] (fin 1)) (fin 0.5, fin 400)
      = .ok { x := (fin 0.5000000000001, fin 400), fun_ := hex.choose.map fin } := by
    unfold lsNear
    rw [dif_pos hex]
  have hmask : ∀ f : (ℝ × ℝ × ℝ) → Flt, mask [true, true] (reePts.map f) = reePts.map f := fun f => rfl
  have hfalse : pyAssert ((fin 0).lt (fin 1)) = .ok () := by simp [pyAssert]
  rw [solve_emfF]
  simp only [bind_ok, hfalse]
  change ∃ sr, (maskDict (pH_used reeGran.pH (fin 0) (fin 1)) [] >>= _) = _ ∧ _
  rw [hu]
  have hmd : maskDict [true, true] [] = .ok [] := rfl
  rw [hmd]
  simp only [bind_ok, hu, hmd, hmask]
  change ∃ sr, (lsNear 1e-12 (fin 0.5000000000001, fin 400) (lsqfun_solve_emfF double (fin 1)
      (reePts.map fun p => fin p.1) (reePts.map fun p => fin p.2.1) (reePts.map fun p => fin p.2.2) (fin 1) []
      [] (fin 1)) (fin 0.5, fin 400) >>= _) = _ ∧ _
  rw [hls]
  simp only [bind_ok, ha]
  exact ⟨_, rfl, rfl, rfl⟩

/-- All hypotheses of `C133_rounding` are met; the optimiser stopped 1e-13 from the true alkalinity. -/
example : ∃ (sr : SolveEmf) (a : ℝ), solve_emfF double (lsNear 1e-12 (fin 0.5000000000001, fin 400))
      (fun _ => .ok reeGran) (fin 1) (reePts.map fun p => fin p.1) (reePts.map fun p => fin p.2.1)
      (reePts.map fun p => fin p.2.2) (fin 1) [] [] { pH_min := fin 0, pH_max := fin 1 } false = .ok sr ∧
    sr.alkalinity = fin a ∧ |a - 1e6 * 0.5000000000001| ≤ 2 ^ (-53 : ℤ) * |1e6 * 0.5000000000001| ∧
    sr.emf0 = fin 400 ∧
    |(0.5000000000001 : ℝ) - 0.5| * 1 ≤ (1 + 1) * (((1 + Real.sqrt 2) * (0 + 4.5e-13 * 1.34) + 1e-12)
      + (1 + 0) * 0.25 * ((((1:ℝ) + 1) + (2 + 1)) * ((1 + Real.sqrt 2) * (0 + 4.5e-13 * 1.34) + 1e-12)
        / ((2 + 1) * 0.5 - (1 + 0) * ((1 + 1) * 0.25)))) := by
  obtain ⟨sr, h, hx, hu⟩ := ree_solve
  have hm : ∀ p ∈ reePts, 0 ≤ p.1 := by
    intro p hp; simp only [reePts, List.mem_cons, List.not_mem_nil, or_false] at hp
    rcases hp with rfl | rfl <;> norm_num
  have hT : ∀ p ∈ reePts, 0 ≤ p.2.2 := by
    intro p hp; simp only [reePts, List.mem_cons, List.not_mem_nil, or_false] at hp
    rcases hp with rfl | rfl <;> norm_num
  have hmask : mask sr.used reePts = reePts := by rw [hu]; rfl
  have hmask' : mask sr.used reePts.zipIdx = reePts.zipIdx := by rw [hu]; rfl
  have hmem : ∀ pi ∈ mask sr.used reePts.zipIdx, pi.1 ∈ reePts := by
    intro pi hpi
    rw [hmask'] at hpi
    obtain ⟨k, hk1, hk2⟩ := List.getElem_of_mem hpi
    rw [List.getElem_zipIdx] at hk2
    subst hk2
    exact List.getElem_mem _
  have hex : ∀ ε, solExcess (Sol.of (rowAt [] 0) (rowAt [] 0)) 1 400 ε (1, nernst 400 25 0.25, 25)
      (2, nernst 400 25 0.5, 25) = (2 + 1) * 0.5 - (1 + 0) * ((1 + 1) * 0.25) := by
    intro ε
    rw [solExcess, (ree_alk 0 ε).2.2, ree_read.1, ree_read.2]
  have main := C133_rounding double_accurateExp (by norm_num) (lsNear_contracts 1e-12 (fin 0.5000000000001, fin 400)).1
    (lsNear_contracts 1e-12 (fin 0.5000000000001, fin 400)).2 (gran := fun _ => .ok reeGran) (n := 1)
    (o := { pH_min := fin 0, pH_max := fin 1 }) rfl (by norm_num) hm hT
    (ree_valid _) ree_has (by simp [dictFits]) (by simp [dictFits]) (ree_side _)
    (by intro s g hg; cases hg; rfl) h (A := 0.5) (E := 400) (η := 0) (σ := 1.34) hx
    (by rw [hmask]; exact fun p hp => ⟨ree_pH p hp, ree_pH p hp⟩)
    (by
      intro pi hpi
      have := (ree_fit pi.2 0.5 le_rfl (by norm_num) _ (hmem _ hpi)).1
      simpa using this)
    (fun pi hpi => ⟨(ree_fit pi.2 0.5 le_rfl (by norm_num) _ (hmem _ hpi)).2.2,
      (ree_fit pi.2 0.5000000000001 (by norm_num) le_rfl _ (hmem _ hpi)).2.2⟩)
    (p := (1, nernst 400 25 0.25, 25)) (q := (2, nernst 400 25 0.5, 25)) (i := 0) (j := 1)
    (by rw [hmask']; simp [reePts]) (by rw [hmask']; simp [reePts]) rfl (lo := 0.1) (by norm_num)
    (by rw [ree_read.1]; norm_num) (by rw [ree_read.1]; norm_num) rfl
    (by rw [hex]; norm_num)
  obtain ⟨⟨a, ha1, ha2⟩, hE, hA, -⟩ := main
  refine ⟨sr, a, h, ha1, ha2, hE, ?_⟩
  rw [solOff, hex, hmask, (ree_alk 0 _).2.2, ree_read.1] at hA
  have hlen : ((reePts.length : ℕ) : ℝ) = 2 := by simp [reePts]
  rw [hlen] at hA
  exact hA

end Calk
