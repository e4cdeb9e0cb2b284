import Verif.Props.RoundingEmf
import Verif.Model.Files

/-! C135: which points are used, in floating-point arithmetic.

The window is applied to a pH that has been computed: from the EMF, or in `pH_adjust` mode from an
EMF that was itself computed from the measured pH.  Points that are not within rounding of an edge
are treated as without rounding; points on an edge need not be. -/

namespace Calk
open Flt Spec

/-- The arithmetic is accurate, and so are exponentials, logarithms and natural logarithms. -/
structure AccurateLog (F : Arith) (u : ℝ) (e : ℕ) : Prop extends AccurateExp F u e where
  log : ∀ x : ℝ, 0 < x → ∃ y : ℝ, F.log (fin x) = fin y ∧
    Err (1 / (1 - u)) e |Real.log x| y (Real.log x)

theorem AccurateLog.mono {F : Arith} {u : ℝ} {e l : ℕ} (hF : AccurateLog F u e) (h : e ≤ l) :
    AccurateLog F u l where
  toAccurateExp := hF.toAccurateExp.mono h
  log x hx := by
    obtain ⟨y, h1, h2⟩ := hF.log x hx
    exact ⟨y, h1, h2.mono hF.one_le h le_rfl⟩

theorem double_accurateLog : AccurateLog double (2 ^ (-53 : ℤ)) 1 where
  toAccurateExp := double_accurateExp
  log x hx := by
    refine ⟨round53 (Real.log x), by simp [double, rnd53, log_fin _ hx], ?_⟩
    refine (Err.refl _).round (u := 2 ^ (-53 : ℤ)) ?_ ?_ ?_ (round53_close _) <;> norm_num

theorem log_ten_ge : (2:ℝ) ≤ Real.log 10 := by
  have h : Real.log 8 ≤ Real.log 10 := Real.log_le_log (by norm_num) (by norm_num)
  rw [show (8:ℝ) = 2 ^ 3 by norm_num, Real.log_pow] at h
  have := Real.log_two_gt_d9
  norm_num at h this ⊢
  linarith

section
variable {F : Arith} {e : ℕ}

/-- reading a pH from an electrode -/
theorem read_near (hF : AccurateExp F (2 ^ (-53 : ℤ)) 4) {E v t : ℝ} (ht : 0 ≤ t)
    (hb : |(v - E) / (8.3144621 * (t + 273.15) / 96.4853365)| ≤ 32.35) :
    ∃ p, emf_to_pHF F (fin v) (fin E) (fin t) = fin p ∧
      |p + (v - E) / (8.3144621 * (t + 273.15) / 96.4853365) / Real.log 10| ≤ 2.5e-14 := by
  obtain ⟨y, hy, hyr⟩ := emf_to_hF_near hF ht (k₁ := 260) hb (by norm_num)
  have hy0 := hyr.pos' hF.one_le
  obtain ⟨z, hz, hzr⟩ := hF.log10 y hy0
  have hl10 := log_ten_ge
  have hly := log_rel hF.one_le hyr
  rw [Real.log_exp] at hly
  set s := (v - E) / (8.3144621 * (t + 273.15) / 96.4853365) with hs
  have hq : ((4 + 260 : ℕ) : ℝ) * (1 / (1 - 2 ^ (-53 : ℤ)) - 1) ≤ 3e-14 := by norm_num
  have hly' : |Real.log y - s| ≤ 3e-14 := hly.trans hq
  have hb' : |Real.log y| ≤ 32.36 := by
    have := abs_sub_abs_le_abs_sub (Real.log y) s
    norm_num at this hb hly' ⊢; linarith
  have e1 := hzr.err
  rw [Real.logb, abs_div, abs_of_pos (by linarith : (0:ℝ) < Real.log 10)] at e1
  have hq2 : (1 / (1 - (2:ℝ) ^ (-53 : ℤ))) ^ 4 - 1 ≤ 4.5e-16 := by norm_num
  have e2 : |z - Real.log y / Real.log 10| ≤ 1 / 1e14 := by
    refine e1.trans ?_
    have : |Real.log y| / Real.log 10 ≤ 16.18 := by
      rw [div_le_iff₀ (by linarith)]; norm_num at hb' ⊢; linarith
    calc _ ≤ 4.5e-16 * (16.18 : ℝ) := mul_le_mul hq2 this (by positivity) (by norm_num)
      _ ≤ _ := by norm_num
  have e3 : |Real.log y / Real.log 10 - s / Real.log 10| ≤ 1.5e-14 := by
    rw [← sub_div, abs_div, abs_of_pos (by linarith : (0:ℝ) < Real.log 10), div_le_iff₀ (by linarith)]
    norm_num at hly' ⊢; linarith
  refine ⟨-z, ?_, ?_⟩
  · simp only [emf_to_pHF, hy, hz, neg_fin]
  · rw [show -z + s / Real.log 10 = -((z - Real.log y / Real.log 10)
      + (Real.log y / Real.log 10 - s / Real.log 10)) by ring, abs_neg]
    refine (abs_add_le _ _).trans ?_
    norm_num at e2 e3 ⊢; linarith

/-- an EMF made from a pH -/
theorem pH_to_emfF_near (hF : AccurateLog F (2 ^ (-53 : ℤ)) 4) {p t : ℝ} (ht : 0 ≤ t)
    (hp : |p| ≤ 14) :
    ∃ v, pH_to_emfF F (fin p) (fin 0) (fin t) = fin v ∧
      |(v - 0) / (8.3144621 * (t + 273.15) / 96.4853365) + p * Real.log 10| ≤ 4.5e-14 := by
  obtain ⟨h, hh, hr⟩ := hF.pow10 (-p)
  have hh0 := hr.pos' hF.one_le
  obtain ⟨z, hz, hze⟩ := hF.log h hh0
  have hl := log_ten_le
  have hl10 := log_ten_ge
  have hlh := log_rel hF.one_le hr
  rw [Real.log_rpow (by norm_num)] at hlh
  have hq : ((4 : ℕ) : ℝ) * (1 / (1 - 2 ^ (-53 : ℤ)) - 1) ≤ 5e-16 := by norm_num
  have hlh' : |Real.log h - -p * Real.log 10| ≤ 5e-16 := hlh.trans hq
  have hpl : |(-p) * Real.log 10| ≤ 32.347 := by
    rw [abs_mul, abs_neg, abs_of_pos (by linarith : (0:ℝ) < Real.log 10)]
    calc _ ≤ 14 * (2.3105 : ℝ) := mul_le_mul hp hl (by linarith) (by norm_num)
      _ = _ := by norm_num
  have hb : |Real.log h| ≤ 32.348 := by
    have := abs_sub_abs_le_abs_sub (Real.log h) (-p * Real.log 10)
    norm_num at this hpl hlh' ⊢; linarith
  have hK : FRel (1 / (1 - 2 ^ (-53 : ℤ))) 2 (F.add (fin t) (F.rnd (fin absolute_zero))) (t + 273.15) :=
    hF.frel_add_nonneg ht (hF.frel_rnd (by norm_num [absolute_zero]))
  have hR : FRel (1 / (1 - 2 ^ (-53 : ℤ))) 1 (F.rnd (fin ideal_gas)) 8.3144621 :=
    hF.frel_rnd (by norm_num [ideal_gas])
  have hf : FRel (1 / (1 - 2 ^ (-53 : ℤ))) 1 (F.rnd (fin faraday)) 96.4853365 :=
    hF.frel_rnd (by norm_num [faraday])
  have g := hF.ferr_div (hF.ferr_mul (hF.ferr_mul ⟨z, hz, hze⟩ (hF.frel_err hR)) (hF.frel_err hK)) hf
  obtain ⟨s, hs, hse⟩ := g
  obtain ⟨v, hv, hvu⟩ := hF.rnd s
  have hve := hse.round hF.one_le hF.u0 hF.inv hvu
  refine ⟨v, ?_, ?_⟩
  · simp only [pH_to_emfF, h_to_emfF, neg_fin, hh, hs]
    simp only [Arith.add, add_fin, zero_add, hv]
  · have hpos : (0:ℝ) < 8.3144621 * (t + 273.15) / 96.4853365 := by positivity
    have h1 := hve.err
    have e1 : Real.log h * 8.3144621 * (t + 273.15) / 96.4853365
        = Real.log h * (8.3144621 * (t + 273.15) / 96.4853365) := by ring
    have e2 : |Real.log h| * 8.3144621 * (t + 273.15) / 96.4853365
        = |Real.log h| * (8.3144621 * (t + 273.15) / 96.4853365) := by ring
    rw [e1, e2] at h1
    set κ := 8.3144621 * (t + 273.15) / 96.4853365 with hκ
    have h2 : |v / κ - Real.log h| ≤ 4.4e-14 := by
      have : v / κ - Real.log h = (v - Real.log h * κ) / κ := by field_simp
      rw [this, abs_div, abs_of_pos hpos, div_le_iff₀ hpos]
      refine h1.trans ?_
      rw [← mul_assoc]
      refine mul_le_mul_of_nonneg_right ?_ hpos.le
      calc _ ≤ 1.34e-15 * (32.348 : ℝ) := mul_le_mul (by norm_num) hb (abs_nonneg _) (by norm_num)
        _ ≤ _ := by norm_num
    rw [sub_zero, show v / κ + p * Real.log 10 = (v / κ - Real.log h)
      + (Real.log h - -p * Real.log 10) by ring]
    refine (abs_add_le _ _).trans ?_
    norm_num at h2 hlh' ⊢; linarith

/-- Whether a point at `x` is used agrees with the window from `lo` to `hi`, except that a point closer
than `δ` to an edge may or may not be used. -/
def Spec.WindowUpTo (δ lo hi : ℝ) (b : Bool) (x : ℝ) : Prop :=
  (lo + δ ≤ x ∧ x ≤ hi - δ → b = true) ∧ (b = true → lo - δ ≤ x ∧ x ≤ hi + δ)

theorem used_upTo {δ lo hi x p : ℝ} (h : |p - x| ≤ δ) :
    WindowUpTo δ lo hi ((fin lo).le (fin p) && (fin p).le (fin hi)) x := by
  obtain ⟨h1, h2⟩ := abs_le.mp h
  constructor
  · rintro ⟨h3, h4⟩
    simp only [le_fin, Bool.and_eq_true, decide_eq_true_eq]
    constructor <;> linarith
  · simp only [le_fin, Bool.and_eq_true, decide_eq_true_eq]
    rintro ⟨h3, h4⟩
    constructor <;> linarith

/-- which points are used in one pass -/
theorem solve_emfF_used {ls : LsFun (Flt × Flt)} {gran : String → Py GranGuesses} {c M E : Flt}
    {tm emf T : List Flt} {totals ks : Dict NpVal} {o : EmfOpts} {sr : SolveEmf}
    (hE : o.emf0_init = some E)
    (h : solve_emfF F ls gran c tm emf T M totals ks o false = .ok sr) :
    sr.used = pH_used (emf_to_pH_arrF F emf E T) o.pH_min o.pH_max := by
  rw [solve_emfF] at h
  simp only [bind_ok_iff] at h
  obtain ⟨g, hgo, _, -, tu, htu, ku, hku, opt, hopt, a, -, h⟩ := h
  simp only [pure_ok, Except.ok.injEq] at h
  subst h
  simp only [hE]

theorem pH_exponent {E : ℝ} {p : ℝ × ℝ × ℝ} (h : |readPH E p| ≤ 14) :
    |(p.2.1 - E) / (8.3144621 * (p.2.2 + 273.15) / 96.4853365)| ≤ 32.35 := by
  have hl := log_ten_le
  have hl0 : (0:ℝ) < Real.log 10 := Real.log_pos (by norm_num)
  have e1 : (p.2.1 - E) / (8.3144621 * (p.2.2 + 273.15) / 96.4853365) = -(readPH E p * Real.log 10) := by
    unfold readPH readAcidity
    rw [Real.logb, Real.log_exp]
    field_simp
  rw [e1, abs_neg, abs_mul, abs_of_pos hl0]
  calc _ ≤ 14 * (2.3105 : ℝ) := mul_le_mul h hl hl0.le (by norm_num)
    _ ≤ 32.35 := by norm_num

/-- C135.  Without rounding the floating-point conversion is the exact one. -/
theorem C135_exact (pH emf0 T : Flt) : pH_to_emfF exactArith pH emf0 T = pH_to_emf pH emf0 T := rfl

/-- C135.  In double precision a pH read from an electrode is right to 2.5e-14. -/
theorem C135_reading (hF : AccurateExp F (2 ^ (-53 : ℤ)) e) (he : e ≤ 4) {E : ℝ} {p : ℝ × ℝ × ℝ}
    (ht : 0 ≤ p.2.2) (hp : |readPH E p| ≤ 14) :
    ∃ x, emf_to_pHF F (fin p.2.1) (fin E) (fin p.2.2) = fin x ∧ |x - readPH E p| ≤ 2.5e-14 := by
  obtain ⟨x, hx, h⟩ := read_near (hF.mono he) ht (pH_exponent hp)
  refine ⟨x, hx, ?_⟩
  rw [show readPH E p = -((p.2.1 - E) / (8.3144621 * (p.2.2 + 273.15) / 96.4853365) / Real.log 10) by
    unfold readPH readAcidity; rw [Real.logb, Real.log_exp], sub_neg_eq_add]
  exact h

/-- C135.  In double precision the EMF made from a pH, read with EMF0 = 0, is that pH to 5e-14. -/
theorem C135_round_trip (hF : AccurateLog F (2 ^ (-53 : ℤ)) e) (he : e ≤ 4) {p t : ℝ} (ht : 0 ≤ t)
    (hp : |p| ≤ 14) :
    ∃ x, emf_to_pHF F (pH_to_emfF F (fin p) (fin 0) (fin t)) (fin 0) (fin t) = fin x ∧
      |x - p| ≤ 5e-14 := by
  have hF4 := hF.mono he
  have hl := log_ten_le
  have hl10 := log_ten_ge
  obtain ⟨v, hv, h1⟩ := pH_to_emfF_near hF4 ht hp
  have hpl : |p * Real.log 10| ≤ 32.347 := by
    rw [abs_mul, abs_of_pos (by linarith : (0:ℝ) < Real.log 10)]
    calc _ ≤ 14 * (2.3105 : ℝ) := mul_le_mul hp hl (by linarith) (by norm_num)
      _ = _ := by norm_num
  set s := (v - 0) / (8.3144621 * (t + 273.15) / 96.4853365) with hs
  have hb : |s| ≤ 32.35 := by
    have := abs_sub (s + p * Real.log 10) (p * Real.log 10)
    rw [add_sub_cancel_right] at this
    norm_num at this h1 hpl ⊢; linarith
  obtain ⟨x, hx, h2⟩ := read_near hF4.toAccurateExp ht hb
  refine ⟨x, by rw [hv, hx], ?_⟩
  have h3 : |(s + p * Real.log 10) / Real.log 10| ≤ 2.25e-14 := by
    rw [abs_div, abs_of_pos (by linarith : (0:ℝ) < Real.log 10), div_le_iff₀ (by linarith)]
    norm_num at h1 ⊢; linarith
  have e1 : x - p = (x + s / Real.log 10) - (s + p * Real.log 10) / Real.log 10 := by
    have : Real.log 10 ≠ 0 := by linarith
    field_simp; ring
  rw [e1]
  refine (abs_sub _ _).trans ?_
  have h4 : |x + s / Real.log 10| ≤ 2.5e-14 := h2
  have := add_le_add h4 h3
  refine this.trans (by norm_num)

/-- C135.  One pass of an EMF solve with a given EMF0 `E`: the points used are those whose pH, read
with `E`, is in the window, but for points within 2.5e-14 of an edge. -/
theorem C135_window (hF : AccurateExp F (2 ^ (-53 : ℤ)) e) (he : e ≤ 4)
    {ls : LsFun (Flt × Flt)} {gran : String → Py GranGuesses} {c M : Flt} {pts : List (ℝ × ℝ × ℝ)}
    {totals ks : Dict NpVal} {o : EmfOpts} {E lo hi : ℝ} {sr : SolveEmf}
    (hE : o.emf0_init = some (fin E)) (hlo : o.pH_min = fin lo) (hhi : o.pH_max = fin hi)
    (hT : ∀ p ∈ pts, 0 ≤ p.2.2) (hpH : ∀ p ∈ pts, |readPH E p| ≤ 14)
    (hr : solve_emfF F ls gran c (pts.map fun p => fin p.1) (pts.map fun p => fin p.2.1)
      (pts.map fun p => fin p.2.2) M totals ks o false = .ok sr) :
    List.Forall₂ (fun b p => WindowUpTo 2.5e-14 lo hi b (readPH E p)) sr.used pts := by
  rw [solve_emfF_used hE hr, hlo, hhi]
  unfold pH_used emf_to_pH_arrF
  rw [List.zipWith_map_left, List.zipWith_map_right, List.zipWith_self, List.map_map,
    List.forall₂_map_left_iff]
  refine List.forall₂_same.mpr fun p hp => ?_
  obtain ⟨x, hx, h⟩ := C135_reading hF he (hT p hp) (hpH p hp)
  simp only [Function.comp, hx]
  exact used_upTo h

/-- C135.  A solve in two passes: the points used are those in the window when read with the EMF0
that the first pass found, again but for points within 2.5e-14 of an edge. -/
theorem C135_double (hF : AccurateExp F (2 ^ (-53 : ℤ)) e) (he : e ≤ 4)
    {ls : LsFun (Flt × Flt)} {gran : String → Py GranGuesses} {c M : Flt} {pts : List (ℝ × ℝ × ℝ)}
    {totals ks : Dict NpVal} {o : EmfOpts} {lo hi : ℝ} {sr : SolveEmf}
    (hlo : o.pH_min = fin lo) (hhi : o.pH_max = fin hi) (hT : ∀ p ∈ pts, 0 ≤ p.2.2)
    (hr : solve_emfF F ls gran c (pts.map fun p => fin p.1) (pts.map fun p => fin p.2.1)
      (pts.map fun p => fin p.2.2) M totals ks o true = .ok sr) :
    ∃ first, solve_emfF F ls gran c (pts.map fun p => fin p.1) (pts.map fun p => fin p.2.1)
        (pts.map fun p => fin p.2.2) M totals ks o false = .ok first ∧
      ∀ E : ℝ, first.emf0 = fin E → (∀ p ∈ pts, |readPH E p| ≤ 14) →
        List.Forall₂ (fun b p => WindowUpTo 2.5e-14 lo hi b (readPH E p)) sr.used pts := by
  rw [solve_emfF_true_eq, bind_ok_iff] at hr
  obtain ⟨first, h1, h2⟩ := hr
  refine ⟨first, h1, fun E hE hpH => C135_window (o := ⟨some first.alkalinity, some first.emf0, _, o.pH_min, o.pH_max,
    o.titrant_normality⟩) hF he ?_ hlo hhi hT hpH h2⟩
  rw [hE]

/-- C135.  In `pH_adjust` mode, where the EMFs are made from the measured pH and read back with
EMF0 = 0, one pass uses the points whose measured pH is in the window, but for points within 5e-14
of an edge. -/
theorem C135_adjust (hF : AccurateLog F (2 ^ (-53 : ℤ)) e) (he : e ≤ 4)
    {ls : LsFun (Flt × Flt)} {gran : String → Py GranGuesses} {c M : Flt} {tm : List Flt}
    {pts : List (ℝ × ℝ)} {totals ks : Dict NpVal} {o : EmfOpts} {lo hi : ℝ} {sr : SolveEmf}
    (hE : o.emf0_init = some (fin 0)) (hlo : o.pH_min = fin lo) (hhi : o.pH_max = fin hi)
    (hT : ∀ p ∈ pts, 0 ≤ p.2) (hpH : ∀ p ∈ pts, |p.1| ≤ 14)
    (hr : solve_emfF F ls gran c tm
      (pH_to_emf_arrF F (pts.map fun p => fin p.1) (pts.map fun p => fin p.2))
      (pts.map fun p => fin p.2) M totals ks o false = .ok sr) :
    List.Forall₂ (fun b p => WindowUpTo 5e-14 lo hi b p.1) sr.used pts := by
  rw [solve_emfF_used hE hr, hlo, hhi]
  have e1 : pH_to_emf_arrF F (pts.map fun p => fin p.1) (pts.map fun p => fin p.2)
      = pts.map fun p => pH_to_emfF F (fin p.1) (fin 0) (fin p.2) := by
    unfold pH_to_emf_arrF
    rw [List.zipWith_map_left, List.zipWith_map_right, List.zipWith_self]
  rw [e1]
  unfold pH_used emf_to_pH_arrF
  rw [List.zipWith_map_left, List.zipWith_map_right, List.zipWith_self, List.map_map,
    List.forall₂_map_left_iff]
  refine List.forall₂_same.mpr fun p hp => ?_
  obtain ⟨x, hx, h⟩ := C135_round_trip hF he (hT p hp) (hpH p hp)
  simp only [Function.comp, hx]
  exact used_upTo h

theorem upTo_same {α : Type} {δ lo hi : ℝ} {used : List Bool} {pts : List α} {x : α → ℝ}
    (h : List.Forall₂ (fun b p => WindowUpTo δ lo hi b (x p)) used pts)
    (hoff : ∀ p ∈ pts, δ < |x p - lo| ∧ δ < |x p - hi|) :
    used = pts.map fun p => decide (lo ≤ x p) && decide (x p ≤ hi) := by
  induction h with
  | nil => rfl
  | @cons b p bs ps hb hbs ih =>
    rw [List.map_cons, ← ih fun q hq => hoff q (List.mem_cons_of_mem _ hq)]
    congr 1
    obtain ⟨h1, h2⟩ := hoff p (by simp)
    rw [Bool.eq_iff_iff, Bool.and_eq_true, decide_eq_true_eq, decide_eq_true_eq]
    constructor
    · intro ht
      obtain ⟨h3, h4⟩ := hb.2 ht
      rw [lt_abs] at h1 h2
      constructor
      · rcases h1 with h1 | h1 <;> linarith [abs_nonneg (x p - lo)]
      · rcases h2 with h2 | h2 <;> linarith
    · rintro ⟨h3, h4⟩
      refine hb.1 ⟨?_, ?_⟩
      · rw [abs_of_nonneg (by linarith)] at h1; linarith
      · rw [abs_of_nonpos (by linarith)] at h2; linarith

/-- C135.  So with no measured pH within 5e-14 of an edge of the window, rounding does not change
which points are used. -/
theorem C135_same (hF : AccurateLog F (2 ^ (-53 : ℤ)) e) (he : e ≤ 4)
    {ls : LsFun (Flt × Flt)} {gran : String → Py GranGuesses} {c M : Flt} {tm : List Flt}
    {pts : List (ℝ × ℝ)} {totals ks : Dict NpVal} {o : EmfOpts} {lo hi : ℝ} {sr : SolveEmf}
    (hE : o.emf0_init = some (fin 0)) (hlo : o.pH_min = fin lo) (hhi : o.pH_max = fin hi)
    (hT : ∀ p ∈ pts, 0 ≤ p.2) (hpH : ∀ p ∈ pts, |p.1| ≤ 14)
    (hoff : ∀ p ∈ pts, 5e-14 < |p.1 - lo| ∧ 5e-14 < |p.1 - hi|)
    (hr : solve_emfF F ls gran c tm
      (pH_to_emf_arrF F (pts.map fun p => fin p.1) (pts.map fun p => fin p.2))
      (pts.map fun p => fin p.2) M totals ks o false = .ok sr) :
    sr.used = pts.map fun p => decide (lo ≤ p.1) && decide (p.1 ≤ hi) :=
  upTo_same (C135_adjust hF he hE hlo hhi hT hpH hr) hoff

end

/-! ### Points on an edge -/

/-- exact arithmetic but for logarithms to base ten, which are too small by one rounding -/
noncomputable def shaved : Arith where
  rnd := id
  pow10 := Flt.pow10
  exp := Flt.exp
  pow := fpow
  log := Flt.log
  log10 x := Flt.log10 x * fin (1 - 2 ^ (-53 : ℤ))
  sqrt := Flt.sqrt
  sum | [] => fin 0 | x :: xs => xs.foldl (· + ·) x

theorem shaved_sums (xs l : List Flt) (a : Flt) (hl : l ≠ []) (h : Sums shaved l a) :
    Sums shaved (l ++ xs) (xs.foldl (· + ·) a) := by
  induction xs generalizing l a with
  | nil => simpa using h
  | cons x xs ih =>
    have := ih (l ++ [x]) (a + x) (by simp) (.node hl (by simp) (List.Perm.refl _) h (.one x))
    simpa using this

theorem shaved_accurate : AccurateLog shaved (2 ^ (-53 : ℤ)) 1 where
  u0 := by positivity
  u1 := by norm_num
  rnd x := ⟨x, rfl, by simp⟩
  pow10 x := ⟨(10:ℝ) ^ x, by simp [shaved], (Rel.refl (by positivity)).mono (by norm_num) (by norm_num)⟩
  pow x hx n := ⟨x ^ n, by simp [shaved], (Rel.refl (by positivity)).mono (by norm_num) (by norm_num)⟩
  sum xs := by
    cases xs with
    | nil => exact .nil
    | cons x xs => simpa [shaved] using shaved_sums xs [x] x (by simp) (.one x)
  exp x := ⟨Real.exp x, by simp [shaved], (Rel.refl (Real.exp_pos _)).mono (by norm_num) (by norm_num)⟩
  log10 x hx := by
    refine ⟨Real.logb 10 x * (1 - 2 ^ (-53 : ℤ)), by simp [shaved, log10_fin _ hx], le_rfl, ?_⟩
    rw [mul_sub, mul_one, sub_sub_cancel_left, abs_neg, abs_mul, mul_comm]
    exact mul_le_mul_of_nonneg_right (by norm_num [abs_le]) (abs_nonneg _)
  log x hx := ⟨Real.log x, by simp [shaved, log_fin _ hx],
    (Err.refl _).mono (by norm_num) (by norm_num) le_rfl⟩

/-- without salts there is always an alkalinity -/
theorem alkalinity_arrF_nil (F : Arith) (ps : List Flt) : ∃ vs, alkalinity_arrF F ps [] [] 3 = .ok vs := by
  have h1 : ∀ p, ∃ a, alkalinityF F p [] [] 3 = .ok a := fun p => ⟨_, rfl⟩
  have h2 : ∀ i (ps : List Flt), ∃ vs, alkalinity_fromF F [] [] 3 i ps = .ok vs := by
    intro i ps
    induction ps generalizing i with
    | nil => exact ⟨_, rfl⟩
    | cons p ps ih =>
      obtain ⟨a, ha⟩ := h1 p
      obtain ⟨vs, hvs⟩ := ih (i + 1)
      have ha' : alkalinityF F p (rowAt [] i) (rowAt [] i) 3 = .ok a := ha
      exact ⟨a :: vs, by simp only [alkalinity_fromF, ha', hvs, bind_ok, pure_ok]⟩
  obtain ⟨a, ha⟩ := h1 (fin 7)
  have ha' : alkalinityF F (fin 7) (rowAt [] 0) (rowAt [] 0) 3 = .ok a := ha
  obtain ⟨vs, hvs⟩ := h2 0 ps
  exact ⟨vs, by simp only [alkalinity_arrF, ha', bind_ok, dictFits, List.all_nil]; exact hvs⟩

/-- ... and a solve with an optimiser that stays where it is -/
theorem stay_solves (F : Arith) (g : GranGuesses) (c M : Flt) (tm emf T : List Flt) (o : EmfOpts)
    (ho : o.pH_min.lt o.pH_max = true) :
    ∃ sr, solve_emfF F lsStay (fun _ => .ok g) c tm emf T M [] [] o false = .ok sr := by
  have hmd : ∀ u, maskDict u [] = .ok [] := fun _ => rfl
  have ha : pyAssert (o.pH_min.lt o.pH_max) = .ok () := by rw [ho]; rfl
  have hl : ∀ tm emf T x, ∃ r, lsqfun_solve_emfF F c tm emf T M [] [] o.titrant_normality x = .ok r := by
    intro tm emf T x
    obtain ⟨vs, hvs⟩ := alkalinity_arrF_nil F (emf_to_pH_arrF F emf x.2 T)
    exact ⟨_, by simp only [lsqfun_solve_emfF, hvs, bind_ok]; rfl⟩
  have hls : ∀ tm emf T x, ∃ r, lsStay (lsqfun_solve_emfF F c tm emf T M [] [] o.titrant_normality) x = .ok r := by
    intro tm emf T x
    obtain ⟨r, hr⟩ := hl tm emf T x
    exact ⟨_, by simp only [lsStay, hr, bind_ok]; rfl⟩
  rw [solve_emfF]
  simp only [bind_ok, ha, hmd]
  obtain ⟨r, hr⟩ := hls _ _ _ _
  rw [hr]
  simp only [bind_ok]
  obtain ⟨vs, hvs⟩ := alkalinity_arrF_nil F (emf_to_pH_arrF F emf r.x.2 T)
  rw [hvs]
  exact ⟨_, rfl⟩

theorem shaved_trip (p : ℝ) : emf_to_pHF shaved (pH_to_emfF shaved (fin p) (fin 0) (fin 25)) (fin 0) (fin 25)
    = fin (p * (1 - 2 ^ (-53 : ℤ))) := by
  have hl : (0:ℝ) < Real.log 10 := Real.log_pos (by norm_num)
  have h : (0:ℝ) < (10:ℝ) ^ (-p) := by positivity
  have e1 : pH_to_emfF shaved (fin p) (fin 0) (fin 25)
      = fin (-p * Real.log 10 * 8.3144621 * (25 + 273.15) / 96.4853365) := by
    simp only [pH_to_emfF, h_to_emfF, shaved, Arith.add, Arith.mul, Arith.div, id, neg_fin, pow10_fin, log_fin _ h,
      Real.log_rpow (by norm_num : (0:ℝ) < 10), absolute_zero, ideal_gas, faraday, add_fin, mul_fin, zero_add]
    rw [div_fin _ _ (by norm_num), add_fin, zero_add]
  have e2 : emf_to_hF shaved (fin (-p * Real.log 10 * 8.3144621 * (25 + 273.15) / 96.4853365)) (fin 0) (fin 25)
      = fin ((10:ℝ) ^ (-p)) := by
    simp only [emf_to_hF, shaved, Arith.add, Arith.sub, Arith.mul, Arith.div, id, absolute_zero, ideal_gas, faraday,
      add_fin, mul_fin, sub_fin]
    rw [div_fin _ _ (by norm_num), exp_fin, Real.rpow_def_of_pos (by norm_num)]
    congr 2
    field_simp
    ring
  rw [e1, emf_to_pHF, e2]
  simp only [shaved, log10_fin _ h, mul_fin, neg_fin]
  rw [Real.logb_rpow (by norm_num) (by norm_num)]
  congr 1; ring

/-- C135.  A point exactly on an edge need not be used: there is an arithmetic as accurate as double
precision in which a measured pH of 3 is dropped from the window from 3 to 4; without rounding it
is used. -/
theorem C135_edge : ∃ F : Arith, AccurateLog F (2 ^ (-53 : ℤ)) 1 ∧ ∃ (ls : LsFun (Flt × Flt)) (g : GranGuesses)
    (o : EmfOpts) (sr ex : SolveEmf), LsSound ls ∧ o.emf0_init = some (fin 0) ∧ o.pH_min = fin 3 ∧ o.pH_max = fin 4 ∧
    solve_emfF F ls (fun _ => .ok g) (fin 0.1) [fin 0.01, fin 0.02]
      (pH_to_emf_arrF F [fin 3, fin 3.5] [fin 25, fin 25]) [fin 25, fin 25] (fin 0.2) [] [] o false = .ok sr ∧
    sr.used = [false, true] ∧
    solve_emfF exactArith ls (fun _ => .ok g) (fin 0.1) [fin 0.01, fin 0.02]
      (pH_to_emf_arrF exactArith [fin 3, fin 3.5] [fin 25, fin 25]) [fin 25, fin 25] (fin 0.2) [] [] o false
      = .ok ex ∧ ex.used = [true, true] := by
  let o : EmfOpts := { emf0_init := some (fin 0) , alkalinity_init := some (fin 2300) }
  have ho : o.pH_min.lt o.pH_max = true := by
    show (fin 3).lt (fin 4) = true
    simp; norm_num
  obtain ⟨sr, hsr⟩ := stay_solves shaved reeGran (fin 0.1) (fin 0.2) [fin 0.01, fin 0.02]
    (pH_to_emf_arrF shaved [fin 3, fin 3.5] [fin 25, fin 25]) [fin 25, fin 25] o ho
  obtain ⟨ex, hex⟩ := stay_solves exactArith reeGran (fin 0.1) (fin 0.2) [fin 0.01, fin 0.02]
    (pH_to_emf_arrF exactArith [fin 3, fin 3.5] [fin 25, fin 25]) [fin 25, fin 25] o ho
  refine ⟨shaved, shaved_accurate, lsStay, reeGran, o, sr, ex, lsStay_sound, rfl, rfl, rfl, hsr, ?_, hex, ?_⟩
  · rw [solve_emfF_used rfl hsr]
    simp only [pH_used, emf_to_pH_arrF, pH_to_emf_arrF, List.zipWith_cons_cons, List.zipWith_nil_left, List.map_cons,
      List.map_nil, shaved_trip, o, le_fin]
    norm_num
  · rw [solve_emfF_used rfl hex]
    have e : ∀ p : ℝ, emf_to_pHF exactArith (pH_to_emfF exactArith (fin p) (fin 0) (fin 25)) (fin 0) (fin 25)
        = fin p := fun p => C01_pH_emf_pH p 0 25 (by norm_num)
    simp only [pH_used, emf_to_pH_arrF, pH_to_emf_arrF, List.zipWith_cons_cons, List.zipWith_nil_left, List.map_cons,
      List.map_nil, e, o, le_fin]
    norm_num

/-! ### Cases in double precision -/

/-- `C135_same` (and so `C135_adjust`, `C135_round_trip`): of measured pH 2.5 and 3.5 the second is used. -/
example : ∃ sr, solve_emfF double lsStay (fun _ => .ok reeGran) (fin 0.1) [fin 0.01, fin 0.02]
      (pH_to_emf_arrF double [fin 2.5, fin 3.5] [fin 25, fin 20]) [fin 25, fin 20] (fin 0.2) [] []
      { emf0_init := some (fin 0) } false = .ok sr ∧ sr.used = [false, true] := by
  obtain ⟨sr, hsr⟩ := stay_solves double reeGran (fin 0.1) (fin 0.2) [fin 0.01, fin 0.02]
    (pH_to_emf_arrF double [fin 2.5, fin 3.5] [fin 25, fin 20]) [fin 25, fin 20] { emf0_init := some (fin 0) }
    (by show (fin 3).lt (fin 4) = true; simp; norm_num)
  refine ⟨sr, hsr, ?_⟩
  have h := C135_same double_accurateLog (by norm_num) (pts := [(2.5, 25), (3.5, 20)]) (lo := 3) (hi := 4)
    rfl rfl rfl (by simp) (by
      intro p hp
      simp only [List.mem_cons, List.not_mem_nil, or_false] at hp
      rcases hp with rfl | rfl <;> norm_num [abs_le]) (by
      intro p hp
      simp only [List.mem_cons, List.not_mem_nil, or_false] at hp
      rcases hp with rfl | rfl <;> norm_num [lt_abs]) hsr
  rw [h]
  norm_num

/-- `C135_double` (and so `C135_window`, `C135_reading`): of EMFs -100 and -200 mV at EMF0 = 0 only the
second, which is around pH 3.4, is used. -/
example : ∃ sr, solve_emfF double lsStay (fun _ => .ok reeGran) (fin 0.1) [fin 0.01, fin 0.02]
      [fin (-100), fin (-200)] [fin 25, fin 25] (fin 0.2) [] []
      { emf0_init := some (fin 0) } true = .ok sr ∧ sr.used = [false, true] := by
  have ho : (fin 3).lt (fin 4) = true := by simp; norm_num
  obtain ⟨s1, h1⟩ := stay_solves double reeGran (fin 0.1) (fin 0.2) [fin 0.01, fin 0.02]
    [fin (-100), fin (-200)] [fin 25, fin 25] { emf0_init := some (fin 0) } ho
  obtain ⟨sr, h2⟩ := stay_solves double reeGran (fin 0.1) (fin 0.2) [fin 0.01, fin 0.02]
    [fin (-100), fin (-200)] [fin 25, fin 25] { alkalinity_init := some s1.alkalinity, emf0_init := some s1.emf0 } ho
  have h12 : solve_emfF double lsStay (fun _ => .ok reeGran) (fin 0.1) [fin 0.01, fin 0.02]
      [fin (-100), fin (-200)] [fin 25, fin 25] (fin 0.2) [] []
      { emf0_init := some (fin 0) } true = .ok sr := by
    rw [solve_emfF_true_eq, h1]
    exact h2
  refine ⟨sr, h12, ?_⟩
  have hl := log_ten_le
  have hl10 := log_ten_ge
  have hpH : ∀ p ∈ [((0.01:ℝ), (-100:ℝ), (25:ℝ)), (0.02, -200, 25)], |readPH 0 p| ≤ 14 := by
    intro p hp
    simp only [List.mem_cons, List.not_mem_nil, or_false] at hp
    rw [readPH_eq, abs_div, abs_of_pos (a := _ * Real.log 10) (by
      rcases hp with rfl | rfl <;> positivity)]
    rcases hp with rfl | rfl <;> (rw [div_le_iff₀ (by positivity)]; norm_num; linarith)
  obtain ⟨first, hf, h⟩ := C135_double double_accurateExp (by norm_num) (lo := 3) (hi := 4)
    (pts := [((0.01:ℝ), (-100:ℝ), (25:ℝ)), (0.02, -200, 25)]) (o := { emf0_init := some (fin 0) }) rfl rfl
    (by simp) h12
  have hE : first.emf0 = fin 0 := by
    rw [solve_emfF] at hf
    simp only [bind_ok_iff] at hf
    obtain ⟨g, hgo, _, -, tu, htu, ku, hku, opt, hopt, a, -, hf⟩ := hf
    simp only [pure_ok, Except.ok.injEq] at hf
    subst hf
    simp only [lsStay, bind_ok_iff, pure_ok, Except.ok.injEq] at hopt
    obtain ⟨r, -, rfl⟩ := hopt
    rfl
  have hv : ∀ v : ℝ, readPH 0 (v, -100, 25) ≤ 2 ∧ 3.3 ≤ readPH 0 (v, -200, 25) ∧ readPH 0 (v, -200, 25) ≤ 3.9 := by
    intro v
    simp only [readPH_eq]
    refine ⟨?_, ?_, ?_⟩
    · rw [div_le_iff₀ (by positivity)]; norm_num; linarith
    · rw [le_div_iff₀ (by positivity)]; norm_num at hl ⊢; linarith
    · rw [div_le_iff₀ (by positivity)]; norm_num; linarith
  obtain ⟨a1, -, -⟩ := hv 0.01
  obtain ⟨-, a2, a3⟩ := hv 0.02
  have hs := upTo_same (x := readPH 0) (h 0 hE hpH) (by
    intro p hp
    simp only [List.mem_cons, List.not_mem_nil, or_false] at hp
    rcases hp with rfl | rfl
    · constructor <;> rw [lt_abs] <;> right <;> norm_num at a1 ⊢ <;> linarith
    · constructor <;> rw [lt_abs]
      · left; norm_num at a2 ⊢; linarith
      · right; norm_num at a3 ⊢; linarith)
  rw [hs]
  simp only [List.map_cons, List.map_nil]
  have b1 : ¬ (3:ℝ) ≤ readPH 0 (0.01, -100, 25) := by norm_num at a1 ⊢; linarith
  have b2 : (3:ℝ) ≤ readPH 0 (0.02, -200, 25) := by norm_num at a2 ⊢; linarith
  have b3 : readPH 0 (0.02, -200, 25) ≤ 4 := by norm_num at a3 ⊢; linarith
  rw [decide_eq_false b1, decide_eq_true b2, decide_eq_true b3]
  rfl

end Calk
