import Verif.Props.AdjustCalibrate

/-!
# Property C142: data sets of several modes whose titrations are not exact

C121 (pH mode) and C136 (EMF mode) bound what inexact titrations do to a data set.  Here the same for `ph_gran` and
`ph_adjust` rows, and for data sets whose rows are in different modes.
-/

namespace Calk
open Flt Spec

/-! ## Gran mode -/

theorem line_between {d e xp xq D x₀ : ℝ} (hne : xp ≠ xq) (hp : |d * xp + e| ≤ D) (hq : |d * xq + e| ≤ D) :
    |d * x₀ + e| * |xp - xq| ≤ D * (|x₀ - xp| + |x₀ - xq|) ∧ |d| * |xp - xq| ≤ 2 * D := by
  constructor
  · rw [← abs_mul, show (d * x₀ + e) * (xp - xq) = (d * xp + e) * (x₀ - xq) - (d * xq + e) * (x₀ - xp) by ring]
    refine (abs_sub _ _).trans ?_
    rw [abs_mul, abs_mul, mul_add]
    have h1 := mul_le_mul_of_nonneg_right hp (abs_nonneg (x₀ - xq))
    have h2 := mul_le_mul_of_nonneg_right hq (abs_nonneg (x₀ - xp))
    linarith
  · rw [← abs_mul, show d * (xp - xq) = (d * xp + e) - (d * xq + e) by ring]
    exact (abs_sub _ _).trans (by linarith)

theorem term_le_sum {α : Type} (f : α → ℝ) (hf : ∀ y, 0 ≤ f y) {l : List α} {p : α} (hp : p ∈ l) :
    f p ≤ (l.map f).sum := by
  induction l with
  | nil => cases hp
  | cons y l ih =>
    have h0 : 0 ≤ (l.map f).sum := List.sum_nonneg (by
      intro z hz
      obtain ⟨y', -, rfl⟩ := List.mem_map.mp hz
      exact hf y')
    simp only [List.map_cons, List.sum_cons]
    rcases List.mem_cons.mp hp with rfl | hp
    · linarith
    · linarith [ih hp, hf y]

/-- a line that fits points best is, at each of them, as close to another line as the misfits of that one allow -/
theorem best_line_near {l : List (ℝ × ℝ)} {a b a₀ b₀ η : ℝ} (h : BestLine l a b)
    (hη : ∀ p ∈ l, |p.2 - a₀ * p.1 - b₀| ≤ η) {p : ℝ × ℝ} (hp : p ∈ l) :
    |(a - a₀) * p.1 + (b - b₀)| ≤ (1 + Real.sqrt l.length) * η := by
  have hη0 : 0 ≤ η := (abs_nonneg _).trans (hη p hp)
  have h1 : lineMisfit l a₀ b₀ ≤ l.length * η ^ 2 := by
    unfold lineMisfit
    clear h hp p
    induction l with
    | nil => simp
    | cons y l ih =>
      have e1 := ih fun q hq => hη q (List.mem_cons_of_mem _ hq)
      have e2 : (y.2 - a₀ * y.1 - b₀) ^ 2 ≤ η ^ 2 := sq_le_sq' (by linarith [(abs_le.mp (hη y (by simp))).1])
        (abs_le.mp (hη y (by simp))).2
      simp only [List.map_cons, List.sum_cons, List.length_cons, Nat.cast_add, Nat.cast_one]
      linarith
  have h2 : (p.2 - a * p.1 - b) ^ 2 ≤ lineMisfit l a b :=
    term_le_sum (fun p : ℝ × ℝ => (p.2 - a * p.1 - b) ^ 2) (fun _ => sq_nonneg _) hp
  have h3 : |p.2 - a * p.1 - b| ≤ Real.sqrt l.length * η := by
    rw [← Real.sqrt_sq hη0, ← Real.sqrt_mul (by positivity)]
    exact Real.abs_le_sqrt ((h2.trans (h _ _)).trans h1)
  rw [show (a - a₀) * p.1 + (b - b₀) = (p.2 - a₀ * p.1 - b₀) - (p.2 - a * p.1 - b) by ring]
  refine (abs_sub _ _).trans ?_
  linarith [hη p hp]

/-- **C142**: solving in `ph_gran` mode a file whose points in the window satisfy the strong-acid balance for the
alkalinity `A` up to `η` moles gives the alkalinity up to: the gain from two of those points to the equivalence point
`A M / (c n)`, times one plus the root of their number, times `η`; relative to the slope that is surely there. -/
theorem C142_gran (w : World) (f : String) (S : Flt) (kw : Dict Val) (A c n lo hi M η : ℝ)
    (pts : List (ℝ × ℝ)) (h : GranRun w f S kw n lo hi M pts) (hcn : 0 < c * n)
    (hid : ∀ p ∈ pts, lo ≤ p.2 → p.2 ≤ hi → |(p.1 + M) * (10 : ℝ) ^ (-p.2) - (p.1 * c * n - A * M)| ≤ η)
    (p q : ℝ × ℝ) (hp : p ∈ granPlot M lo hi pts) (hq : q ∈ granPlot M lo hi pts) (D : ℝ)
    (hD : D = (1 + Real.sqrt (granPlot M lo hi pts).length) * η) (hsteep : 2 * D < c * n * |p.1 - q.1|)
    (sr : SolveRes) (hs : files_solve w f (fin c) S kw = .ok sr) :
    ∃ A', sr.alkalinity = fin (1e6 * A') ∧
      |A' - A| * M * (c * n * |p.1 - q.1| - 2 * D)
        ≤ c * n * D * (|A * M / (c * n) - p.1| + |A * M / (c * n) - q.1|) := by
  have hfit : ∀ y ∈ granPlot M lo hi pts, |y.2 - (c * n) * y.1 - (-(A * M))| ≤ η := by
    intro y hy
    obtain ⟨z, hz, rfl⟩ := List.mem_map.mp hy
    obtain ⟨hz, hw⟩ := List.mem_filter.mp hz
    simp only [Bool.and_eq_true, decide_eq_true_eq] at hw
    have := hid z hz hw.1 hw.2
    rwa [show (z.1 + M) * (10 : ℝ) ^ (-z.2) - (z.1 * c * n - A * M)
      = (z.1 + M) * (10 : ℝ) ^ (-z.2) - c * n * z.1 - -(A * M) by ring] at this
  have hη0 : 0 ≤ η := (abs_nonneg _).trans (hfit p hp)
  have hD0 : 0 ≤ D := by rw [hD]; positivity
  have hne : p.1 ≠ q.1 := by
    intro h
    rw [h, sub_self, abs_zero, mul_zero] at hsteep
    linarith
  obtain ⟨a, b, hbest, -⟩ := C116_one_line M lo hi pts ⟨p, hp, q, hq, hne⟩
  have h1 := best_line_near hbest hfit hp
  have h2 := best_line_near hbest hfit hq
  rw [← hD] at h1 h2
  obtain ⟨h3, h4⟩ := line_between (x₀ := A * M / (c * n)) hne h1 h2
  have hΔ : 0 < |p.1 - q.1| := abs_pos.mpr (sub_ne_zero.mpr hne)
  have ha : (c * n * |p.1 - q.1| - 2 * D) ≤ a * |p.1 - q.1| := by
    have : (c * n - a) * |p.1 - q.1| ≤ |a - c * n| * |p.1 - q.1| :=
      mul_le_mul_of_nonneg_right (by rw [abs_sub_comm]; exact le_abs_self _) hΔ.le
    linarith
  have ha0 : 0 < a := by
    by_contra hc
    have := mul_nonpos_of_nonpos_of_nonneg (not_lt.mp hc) hΔ.le
    linarith
  obtain ⟨hr, -⟩ := C116_line w f S kw c n lo hi M pts h ⟨p, hp, q, hq, hne⟩ a b hbest ha0.ne' sr hs
  have hM := h.mass
  refine ⟨-b / a * c * n / M, by rw [hr]; congr 1; ring, ?_⟩
  have key : (-b / a * c * n / M - A) * M * a
      = -(c * n) * ((a - c * n) * (A * M / (c * n)) + (b - -(A * M))) := by
    have hc' : c ≠ 0 := left_ne_zero_of_mul hcn.ne'
    have hn' : n ≠ 0 := right_ne_zero_of_mul hcn.ne'
    field_simp
    ring
  have key' : |-b / a * c * n / M - A| * M * a
      = c * n * |(a - c * n) * (A * M / (c * n)) + (b - -(A * M))| := by
    have := congrArg _root_.abs key
    rwa [abs_mul, abs_mul, abs_of_pos hM, abs_of_pos ha0, abs_mul, abs_neg, abs_of_pos hcn] at this
  calc |-b / a * c * n / M - A| * M * (c * n * |p.1 - q.1| - 2 * D)
      ≤ |-b / a * c * n / M - A| * M * (a * |p.1 - q.1|) := by gcongr
    _ = c * n * (|(a - c * n) * (A * M / (c * n)) + (b - -(A * M))| * |p.1 - q.1|) := by
        rw [← mul_assoc, key', mul_assoc]
    _ ≤ c * n * (D * (|A * M / (c * n) - p.1| + |A * M / (c * n) - q.1|)) := by gcongr
    _ = _ := by ring

/-- **Specification**: the row is a titration in `ph_gran` mode, with nothing but protons in its acid, of molinity
`c`; the alkalinity it is solved for is `s` times the molinity, and within `e` of `A` µmol/kg with the true one. -/
structure Spec.TitrationGran (w : World) (kw : Dict Val) (cols : List String) (r : Row) (A c e s : ℝ) (f : String)
    (S : Flt) : Prop where
  file : HasFile cols r f S
  run : ∃ (st : Dict Val) (n lo hi M a b : ℝ) (pts : List (ℝ × ℝ)),
    SettingsOf keys_solve w kw cols r st ∧ GranRun w f S st n lo hi M pts ∧
    (∀ k ∈ keys_titrant_totals, st.get? k = none) ∧
    (∃ p ∈ granPlot M lo hi pts, ∃ q ∈ granPlot M lo hi pts, p.1 ≠ q.1) ∧
    BestLine (granPlot M lo hi pts) a b ∧ a ≠ 0 ∧ s = 1e6 * (-b / a) * n / M
  close : |s * c - A| ≤ e

theorem titrationGran_row {w : World} (hw : ByName w) {kw : Dict Val} {cols : List String} {r : Row}
    {A c e s κ : ℝ} {f : String} {S : Flt} (h : TitrationGran w kw cols r A c e s f S) :
    NearRow w kw cols r A c κ (e + |s| * κ) := by
  obtain ⟨hf, ⟨st, n, lo, hi, M, a, b, pts, hst, hrun, htt, h2, hbest, ha, hs⟩, hclose⟩ := h
  refine ⟨f, S, hf, ?_, fun st' hst' c' hc' => ?_⟩
  · obtain ⟨-, kwb, hb, -⟩ := hst
    exact ⟨kwb, hb⟩
  have hag := hst.agree hst' (fun _ h _ => h) (fun _ h _ => h)
  have htt' : ∀ k ∈ keys_titrant_totals, st'.get? k = none := fun k hk => by
    have : ∀ k ∈ keys_titrant_totals, k ∈ keys_solve ∧ k ≠ "gran_logic" := by decide
    rw [← hag k (this k hk).1 (this k hk).2, htt k hk]
  have hrun' := hag.granRun hw hrun
  obtain ⟨sr, hsr⟩ := C116_succeeds w f S (fin c') st' n lo hi M pts hrun' h2 (htt' _ (by decide))
    (htt' _ (by decide)) (htt' _ (by decide))
  obtain ⟨hr, -⟩ := C116_line w f S st' c' n lo hi M pts hrun' h2 a b hbest ha sr hsr
  refine ⟨sr, s * c', hsr, by rw [hr, hs]; congr 1; ring, ?_⟩
  rw [show s * c' - A = (s * c - A) + s * (c' - c) by ring]
  refine (abs_add_le _ _).trans (add_le_add hclose ?_)
  rw [abs_mul]
  exact mul_le_mul_of_nonneg_left hc' (abs_nonneg _)

theorem titrationGran_reference {w : World} (hw : ByName w) (ho : ReportsEvaluated w.opt) {kw : Dict Val}
    {cols : List String} {r : Row} {A c e s τ : ℝ} {f : String} {S : Flt}
    (h : TitrationGran w kw cols r A c e s f S) (hs0 : 0 < s) (hc : CalibratedTo w kw cols r A τ f S 0) :
    NearReference w kw cols r c ((e + τ) / s) := by
  obtain ⟨hf, ⟨st, n, lo, hi, M, a, b, pts, hst, hrun, htt, h2, hbest, ha, hs⟩, hclose⟩ := h
  refine ⟨f, S, A, hf, ?_, hc.certified, fun st' hst' res hres => ?_⟩
  · obtain ⟨-, kwb, hb, -⟩ := hst
    exact ⟨kwb, hb⟩
  obtain ⟨sc, hsc, hc0, hopts, hT⟩ := hc.typed
  obtain ⟨c', hx, -⟩ := hc.found st' hst' res hres
  have hag := hst.agree hst' (fun _ h _ => h) calibrate_keys
  have htt' : ∀ k ∈ keys_titrant_totals, st'.get? k = none := fun k hk => by
    have : ∀ k ∈ keys_titrant_totals, k ∈ keys_solve ∧ k ≠ "gran_logic" := by decide
    rw [← hag k (this k hk).1 (this k hk).2, htt k hk]
  have hrun' := hag.granRun hw hrun
  have hsame := hsc.same hst'
  have hreg : Regular w f S st' := granRun_regular ho hrun' hst'.1 htt' (by rw [← hsame.argNum]; exact hc0)
    (by rw [← emf_opts_congr hsame]; exact hopts)
    (by rw [← (hsc.agree hst' calibrate_keys calibrate_keys).load hw]; exact hT)
  have hgl : st'.get? "gran_logic" = none := by
    obtain ⟨-, kwb, -, hget⟩ := hst'
    rw [hget, if_neg (by decide)]
  obtain ⟨sr, hsr, hfun⟩ := calibrate_residual w f _ S st' res hreg hgl hres
  rw [hx] at hsr
  obtain ⟨hr, -⟩ := C116_line w f S st' c' n lo hi M pts hrun' h2 a b hbest ha sr hsr
  have hr' : sr.alkalinity = fin (s * c') := by rw [hr, hs]; congr 1; ring
  rw [hr', sub_fin] at hfun
  have hsmall := hc.small st' hst' res hres _ hfun
  refine ⟨c', hx, ?_⟩
  rw [le_div_iff₀ hs0, ← abs_of_pos hs0, ← abs_mul,
    show (c' - c) * s = (s * c' - A) - (s * c - A) by ring]
  refine (abs_sub _ _).trans ?_
  linarith

/-! ## `ph_adjust` mode -/

/-- **Specification**: the row is a titration in `ph_adjust` mode (as `ExactAdjust`), but the true alkalinity `A`,
molinity `c` and electrode error `E` fit its points up to misfits of `η` mol/kg only. -/
structure Spec.NearAdjust (w : World) (kw : Dict Val) (cols : List String) (r : Row) (A c E η : ℝ) (f : String)
    (S : Flt) (x K : String → ℝ) (n g M t : ℝ) (pts : List (ℝ × ℝ × ℝ)) : Prop where
  file : HasFile cols r f S
  run : ∃ st, SettingsOf keys_solve w kw cols r st ∧ AdjustRun w f S st x K c n g M pts
  positive : 0 < c
  fits : ∀ p ∈ pts, p.2.2 = t ∧ |adjustMisfit x K c n g M A E p| ≤ η

theorem AdjustRun.fits {w : World} {f : String} {S : Flt} {kw : Dict Val} {x K : String → ℝ}
    {c n g M : ℝ} {pts : List (ℝ × ℝ × ℝ)} (h : AdjustRun w f S kw x K c n g M pts) {A c₀ E t η : ℝ}
    (hfit : ∀ p ∈ pts, p.2.2 = t ∧ |adjustMisfit x K c₀ n g M A E p| ≤ η) :
    ∀ p ∈ pts.map zeroEmf, p.2.2 = t ∧ |pointMisfit x K c₀ n g M A E p| ≤ η := by
  intro p hp
  obtain ⟨y, hy, rfl⟩ := List.mem_map.mp hp
  rw [adjustMisfit_eq (h.temps y hy)]
  exact hfit y hy

theorem nearAdjust_row {w : World} (hw : ByName w) {τ : ℝ} (hτ : 0 ≤ τ) (hmin : LsNearMin τ w.ls) {kw : Dict Val}
    {cols : List String} {r : Row} {A c E η κ B W N : ℝ} {f : String} {S : Flt} {x K : String → ℝ} {n g M t : ℝ}
    {pts : List (ℝ × ℝ × ℝ)} (h : NearAdjust w kw cols r A c E η f S x K n g M t pts) (hη : 0 ≤ η) (hB : 0 ≤ B)
    (hs : SolvableNear w kw cols r c κ E f S x K g M (pts.map zeroEmf) B W N) (hκ : κ < c) :
    NearRow w kw cols r (1e6 * A) c κ (emfError A c κ M η τ B W N) := by
  obtain ⟨hf, ⟨st, hst, hrun⟩, hc, hfit⟩ := h
  refine ⟨f, S, hf, ?_, fun st' hst' c' hc' => ?_⟩
  · obtain ⟨-, kwb, hb, -⟩ := hst
    exact ⟨kwb, hb⟩
  obtain ⟨sr, T, hsr, least, p, q, ht, hleft, hW, hN⟩ := hs st' hst' c' hc'
  obtain ⟨A', E', hx, hl'⟩ := ht.found
  have hc0 : 0 < c' := by have := (abs_le.mp hc').1; linarith
  have hkc : c' / c * c = c' := div_mul_cancel₀ _ hc.ne'
  have hk : 0 < c' / c := div_pos hc0 hc
  have hrun' := (hst.agree hst' (fun _ h _ => h) (fun _ h _ => h)).adjustRun hw hst'.1 hrun (c' := c' / c * c)
    (by rw [hkc]; exact mul_nonneg hc0.le (nonneg_of_mul_nonneg_right hrun.acid hc))
  have hfit' := hrun'.fits hfit
  have hdata : ∀ y ∈ mask sr.used (pts.map zeroEmf), y.2.2 = t ∧ least ≤ readAcidity E y ∧
      least ≤ c' / c * readAcidity E y ∧ |pointMisfit x K c n g M A E y| ≤ η := fun y hy =>
    ⟨(hfit' y (mask_subset _ _ hy)).1, (ht.acid y hy).1, (ht.acid y hy).2, (hfit' y (mask_subset _ _ hy)).2⟩
  have hsr' := hsr
  rw [← hkc, hrun'.same] at hsr'
  obtain ⟨r1, -, -⟩ := C136_solve _ f S _ x K c (c' / c) n g M _ hrun'.emf hk hmin sr T hsr'
    A E A' E' t least η B hx ht.least_pos hdata hleft p q ht.first ht.second hl' ht.more
  have r3 := C136_sample _ f S _ x K c (c' / c) n g M _ hrun'.emf hk hmin sr T hsr'
    A E A' E' t least η B hx ht.least_pos hdata hleft p q ht.first ht.second hl' ht.more _ _ rfl rfl
  refine ⟨_, _, hsr, r1, ?_⟩
  have hM := hrun.mass
  have hmp := hrun'.emf.masses p (mask_subset _ _ ht.first)
  have hmq := hrun'.emf.masses q (mask_subset _ _ ht.second)
  have hg0 : 0 ≤ alkGain x K (c' / c * c) g M E least p q := alkGain_nonneg hM hmp hmq
    (mixture_valid hM hmp hrun'.acid (fun k hk => (hrun.sample.contents k hk).2)
      (fun k hk => (hrun.sample.constants k hk).2)) ht.least_pos ht.more
  have hk1 : |c' / c - 1| ≤ κ / c := by
    rw [show c' / c - 1 = (c' - c) / c by field_simp, abs_div, abs_of_pos hc]
    exact div_le_div_of_nonneg_right hc' hc.le
  have hκ0 : 0 ≤ κ / c := (abs_nonneg _).trans hk1
  have hn0 : 0 ≤ 1 + Real.sqrt (mask sr.used (pts.map zeroEmf)).length := by positivity
  have hW0 : 0 ≤ W := hg0.trans hW
  have hN0 : 0 ≤ N := hn0.trans hN
  have r4 : |A' - A| * M ≤ κ / c * (|A| * M + W * (N * (B + η))) + W * (N * η + τ) := by
    refine r3.trans ?_
    gcongr
  unfold emfError
  rw [← mul_sub, abs_mul, abs_of_pos (by norm_num : (0 : ℝ) < 1e6), div_mul_eq_mul_div, le_div_iff₀ hM, mul_assoc]
  exact mul_le_mul_of_nonneg_left r4 (by norm_num)

theorem nearAdjust_reference {w : World} (hw : ByName w) (ho : ReportsEvaluated w.opt) (ho' : FiniteTrials w.opt)
    {τ : ℝ} (hτ : 0 ≤ τ) (hmin : LsNearMin τ w.ls) {kw : Dict Val}
    {cols : List String} {r : Row} {A c E η B W N cert δ : ℝ} {f : String} {S : Flt} {x K : String → ℝ} {n g M t : ℝ}
    {pts : List (ℝ × ℝ × ℝ)} (h : NearAdjust w kw cols r A c E η f S x K n g M t pts) (hη : 0 ≤ η) (hB : 0 ≤ B)
    (hc : CalibratedNear w kw cols r cert δ c E f S x K g M (pts.map zeroEmf) B W N)
    (hpos : W * (N * (B + η)) < |A| * M) :
    NearReference w kw cols r c (emfCalibrationError A c M η τ B W N δ |cert - 1e6 * A|) := by
  obtain ⟨hf, ⟨st, hst, hrun⟩, hc0, hfit⟩ := h
  refine ⟨f, S, cert, hf, ?_, hc.certified, fun st' hst' res hres => ?_⟩
  · obtain ⟨-, kwb, hb, -⟩ := hst
    exact ⟨kwb, hb⟩
  obtain ⟨sc, hsc, hi0, hopts⟩ := hc.typed
  obtain ⟨c', hx, hc', hside⟩ := hc.found st' hst' res hres
  have hrun' := (hst.agree hst' (fun _ h _ => h) calibrate_keys).adjustRun hw hst'.1 hrun (c' := c')
    (mul_nonneg hc'.le (nonneg_of_mul_nonneg_right hrun.acid hc0))
  have hsame := hsc.same hst'
  have hreg := hrun'.regular ho ho' (by rw [← hsame.argNum]; exact hi0)
    (by rw [← emf_opts_congr hsame]; exact hopts)
  have hgl : (asEmf st').get? "gran_logic" = none := by
    rw [asEmf_get? st' (by decide) (by decide)]
    obtain ⟨-, kwb, -, hget⟩ := hst'
    rw [hget, if_neg (by decide)]
  have hsmall := hc.small st' hst' res hres
  rw [hrun'.same_calibrate] at hres
  obtain ⟨sr, hsr, -⟩ := calibrate_residual _ f _ S _ res hreg hgl hres
  rw [hx] at hsr
  obtain ⟨s, rfl, -⟩ := C112_estimates _ f S _ x K c' n g M _ hrun'.emf _ hsr
  obtain ⟨least, p, q, ht, hleft, hW, hN⟩ := hside s _ (by rw [hrun'.same]; exact hsr)
  obtain ⟨A', E', hx', hl'⟩ := ht.found
  have hmore := ht.more
  rw [div_mul_cancel₀ _ hc0.ne'] at hmore hW
  have hfit' := hrun'.fits hfit
  have hdata : ∀ y ∈ mask s.used (pts.map zeroEmf), y.2.2 = t ∧ least ≤ readAcidity E y ∧
      least ≤ c' / c * readAcidity E y ∧ |pointMisfit x K c n g M A E y| ≤ η := fun y hy =>
    ⟨(hfit' y (mask_subset _ _ hy)).1, (ht.acid y hy).1, (ht.acid y hy).2, (hfit' y (mask_subset _ _ hy)).2⟩
  obtain ⟨ρ, hρ, hmain⟩ := C136_calibrated _ f S _ x K c c' n g M cert _ hrun'.emf hc0 hc' hmin A E t least η B hreg
    hgl res hres hx s _ hsr A' E' hx' ht.least_pos hdata hleft p q ht.first ht.second hl' hmore _ _ rfl rfl
  have hsmall := hsmall ρ hρ
  refine ⟨c', hx, ?_⟩
  have hM := hrun.mass
  have hmp := hrun'.emf.masses p (mask_subset _ _ ht.first)
  have hmq := hrun'.emf.masses q (mask_subset _ _ ht.second)
  have hg0 : 0 ≤ alkGain x K c' g M E least p q := alkGain_nonneg hM hmp hmq
    (mixture_valid hM hmp hrun'.acid (fun k hk => (hrun.sample.contents k hk).2)
      (fun k hk => (hrun.sample.constants k hk).2)) ht.least_pos hmore
  have hn0 : 0 ≤ 1 + Real.sqrt (mask s.used (pts.map zeroEmf)).length := by positivity
  have hW0 : 0 ≤ W := hg0.trans hW
  have hN0 : 0 ≤ N := hn0.trans hN
  unfold emfCalibrationError
  rw [le_div_iff₀ (by linarith)]
  have habs : |ρ + (cert - 1e6 * A)| ≤ δ + |cert - 1e6 * A| :=
    (abs_add_le _ _).trans (add_le_add hsmall le_rfl)
  calc |c' - c| * (|A| * M - W * (N * (B + η)))
      ≤ |c' - c| * (|A| * M - alkGain x K c' g M E least p q
          * ((1 + Real.sqrt (mask s.used (pts.map zeroEmf)).length) * (B + η))) := by gcongr
    _ ≤ _ := hmain
    _ ≤ _ := by gcongr

/-! ## Data sets -/

/-- **Specification**: the row is a titration, in any of the four modes, of a sample of alkalinity `A` µmol/kg with
acid of molinity `c`, that can be solved with every molinity within `κ` (in the modes that fit, by an optimiser that gets within `τ` of the
minimum); the last argument bounds the error -/
inductive Spec.NearTitration (w : World) (kw : Dict Val) (cols : List String) (r : Row) (c κ : ℝ) :
    ℝ → ℝ → Prop
  | emf {A E η B W N τ : ℝ} {f S x K n g M t pts} (hτ : 0 ≤ τ) (hmin : LsNearMin τ w.ls)
      (h : NearEmf w kw cols r A c E η f S x K n g M t pts) (hη : 0 ≤ η)
      (hB : 0 ≤ B) (hs : SolvableNear w kw cols r c κ E f S x K g M pts B W N) (hκ : κ < c) :
      Spec.NearTitration w kw cols r c κ (1e6 * A) (emfError A c κ M η τ B W N)
  | adjust {A E η B W N τ : ℝ} {f S x K n g M t pts} (hτ : 0 ≤ τ) (hmin : LsNearMin τ w.ls)
      (h : NearAdjust w kw cols r A c E η f S x K n g M t pts)
      (hη : 0 ≤ η) (hB : 0 ≤ B) (hs : SolvableNear w kw cols r c κ E f S x K g M (pts.map zeroEmf) B W N)
      (hκ : κ < c) : Spec.NearTitration w kw cols r c κ (1e6 * A) (emfError A c κ M η τ B W N)
  | pH {A e s : ℝ} {f S g} (h : TitrationPH w kw cols r A c e s f S g) (hg : 0 ≤ g) (hκ : κ ≤ c) :
      Spec.NearTitration w kw cols r c κ A (e + |s| * κ)
  | gran {A e s : ℝ} {f S} (h : TitrationGran w kw cols r A c e s f S) :
      Spec.NearTitration w kw cols r c κ A (e + |s| * κ)

/-- **Specification**: the row is a titration, in any of the four modes, with acid of molinity `c`, of a reference that
was calibrated; the last argument bounds the error of the molinity -/
inductive Spec.NearCalibration (w : World) (kw : Dict Val) (cols : List String) (r : Row) (c : ℝ) : ℝ → Prop
  | emf {A E η B W N cert δ τ : ℝ} {f S x K n g M t pts} (hτ : 0 ≤ τ) (hmin : LsNearMin τ w.ls)
      (h : NearEmf w kw cols r A c E η f S x K n g M t pts)
      (hη : 0 ≤ η) (hB : 0 ≤ B) (hc : CalibratedNear w kw cols r cert δ c E f S x K g M pts B W N)
      (hpos : W * (N * (B + η)) < |A| * M) :
      Spec.NearCalibration w kw cols r c (emfCalibrationError A c M η τ B W N δ |cert - 1e6 * A|)
  | adjust {A E η B W N cert δ τ : ℝ} {f S x K n g M t pts} (hτ : 0 ≤ τ) (hmin : LsNearMin τ w.ls)
      (h : NearAdjust w kw cols r A c E η f S x K n g M t pts)
      (hη : 0 ≤ η) (hB : 0 ≤ B) (hc : CalibratedNear w kw cols r cert δ c E f S x K g M (pts.map zeroEmf) B W N)
      (hpos : W * (N * (B + η)) < |A| * M) :
      Spec.NearCalibration w kw cols r c (emfCalibrationError A c M η τ B W N δ |cert - 1e6 * A|)
  | pH {A e s δ : ℝ} {f S g} (h : TitrationPH w kw cols r A c e s f S g) (hs : 0 < s)
      (hc : CalibratedTo w kw cols r A δ f S g) : Spec.NearCalibration w kw cols r c ((e + δ) / s)
  | gran {A e s δ : ℝ} {f S} (h : TitrationGran w kw cols r A c e s f S) (hs : 0 < s)
      (hc : CalibratedTo w kw cols r A δ f S 0) : Spec.NearCalibration w kw cols r c ((e + δ) / s)

theorem nearReference_mono {w : World} {kw : Dict Val} {cols : List String} {r : Row} {c κ κ' : ℝ}
    (h : NearReference w kw cols r c κ) (hκ : κ ≤ κ') : NearReference w kw cols r c κ' := by
  obtain ⟨f, S, cert, h1, h2, h3, h4⟩ := h
  refine ⟨f, S, cert, h1, h2, h3, fun st hst res hres => ?_⟩
  obtain ⟨c', e1, e2⟩ := h4 st hst res hres
  exact ⟨c', e1, e2.trans hκ⟩

/-- **C142**: a data set whose rows are in different modes and none of whose titrations need be exact.  If the errors
of the calibrations of the references used, each in its own mode, are at most `κ`, every row of a batch that has one
gets a molinity within `κ` of the truth, and an alkalinity within the error of its own mode. -/
theorem C142_dataset (w : World) (hw : ByName w) (ho : ReportsEvaluated w.opt) (ho' : FiniteTrials w.opt)
    (kw : Dict Val) (df df' : DF) (hkw : kw.keys.Nodup)
    (h : dataset_calibrate w kw df = (.ok (), df'))
    (hl : ∀ r ∈ df'.rows, Label (r "analysis_batch")) (c κ : Val → ℝ)
    (href : List.Forall₂ (fun r r' => IsReference r' → ∃ err,
      NearCalibration w kw df.cols r (c (r' "analysis_batch")) err ∧ err ≤ κ (r' "analysis_batch"))
      df.rows df'.rows) :
    List.Forall₂ (fun r r' =>
      (∃ q ∈ df'.rows, IsReference q ∧ q "analysis_batch" = r' "analysis_batch") →
      (∃ c', r' "titrant_molinity" = .num (fin c') ∧
        |c' - c (r' "analysis_batch")| ≤ κ (r' "analysis_batch")) ∧
      ∀ A e, NearTitration w kw df.cols r (c (r' "analysis_batch")) (κ (r' "analysis_batch")) A e →
        ∃ a, r' "alkalinity" = .num (fin a) ∧ |a - A| ≤ e ∧
          ∀ y, r "alkalinity_certified" = .num (fin y) → r' "alkalinity_offset" = .num (fin (a - y)))
      df.rows df'.rows := by
  have := C121_dataset w kw df df' hkw h hl c κ (href.imp fun r r' hr hi => by
    obtain ⟨err, hx, herr⟩ := hr hi
    refine nearReference_mono ?_ herr
    cases hx with
    | emf hτ hmin h1 h2 h3 h4 h5 => exact nearEmf_reference hw ho ho' hτ hmin h1 h2 h3 h4 h5
    | adjust hτ hmin h1 h2 h3 h4 h5 => exact nearAdjust_reference hw ho ho' hτ hmin h1 h2 h3 h4 h5
    | pH h1 h2 h3 => exact titrationPH_reference hw ho ho' h1 h2 h3
    | gran h1 h2 h3 => exact titrationGran_reference hw ho h1 h2 h3)
  refine this.imp fun r r' hr hq => ⟨(hr hq).1, fun A e hx => (hr hq).2 A e ?_⟩
  cases hx with
  | emf hτ hmin h1 h2 h3 h4 h5 => exact nearEmf_row hw hτ hmin h1 h2 h3 h4 h5
  | adjust hτ hmin h1 h2 h3 h4 h5 => exact nearAdjust_row hw hτ hmin h1 h2 h3 h4 h5
  | pH h1 h2 h3 => exact titrationPH_row hw h1 h2 h3
  | gran h1 => exact titrationGran_row hw h1

/-! ### A case: a reference in Gran mode and a sample in pH mode

The file is that of C116, an ideal titration with 0.05 mol/kg of acid; the acid has 0.051 mol/kg, so the file is off
by 4 µmol/kg. -/

theorem mx_best : BestLine (granPlot 0.1 3 4 [(0.001, fgP), (0.002, fgQ)]) 0.05 (-2e-5) := by
  intro a' b'
  have h0 : lineMisfit (granPlot 0.1 3 4 [(0.001, fgP), (0.002, fgQ)]) 0.05 (-2e-5) = 0 := by
    unfold lineMisfit
    refine List.sum_eq_zero fun z hz => ?_
    obtain ⟨y, hy, rfl⟩ := List.mem_map.mp hz
    obtain ⟨u, hu, rfl⟩ := List.mem_map.mp hy
    obtain ⟨hu, hw⟩ := List.mem_filter.mp hu
    simp only [Bool.and_eq_true, decide_eq_true_eq] at hw
    have := fg_ideal u hu hw.1 hw.2
    simp only [this]
    ring
  rw [h0]
  exact List.sum_nonneg fun z hz => by
    obtain ⟨y, -, rfl⟩ := List.mem_map.mp hz
    exact sq_nonneg _

/-- every hypothesis of `C142_gran` is met: the true alkalinity is 201 µmol/kg, and the points are off by 1e-7 mol -/
example : ∃ A', |A' - 2.01e-4| ≤ 5e-5 ∧
    ∃ sr, files_solve (calWorld fgP fgQ) "a.dat" (fin 0.05) (fin 35) fgArgs = .ok sr ∧ sr.alkalinity = fin (1e6 * A') := by
  obtain ⟨sr, hs⟩ := C116_succeeds (calWorld fgP fgQ) "a.dat" (fin 35) (fin 0.05) fgArgs 1 3 4 0.1 _
    fg_run fg_two rfl rfl rfl
  have w1 := fg_window (3e-5 / 0.101) (by norm_num) (by norm_num)
  have w2 := fg_window (8e-5 / 0.102) (by norm_num) (by norm_num)
  have hlen : (granPlot 0.1 3 4 [(0.001, fgP), (0.002, fgQ)]).length ≤ 2 := by
    unfold granPlot
    rw [List.length_map]
    exact List.length_filter_le _ _
  have hsq : Real.sqrt (granPlot 0.1 3 4 [(0.001, fgP), (0.002, fgQ)]).length ≤ 2 := by
    rw [Real.sqrt_le_left (by norm_num)]
    have : ((granPlot 0.1 3 4 [(0.001, fgP), (0.002, fgQ)]).length : ℝ) ≤ 2 := by exact_mod_cast hlen
    linarith
  have hsq0 := Real.sqrt_nonneg ((granPlot 0.1 3 4 [(0.001, fgP), (0.002, fgQ)]).length : ℝ)
  obtain ⟨A', h1, h2⟩ := C142_gran (calWorld fgP fgQ) "a.dat" (fin 35) fgArgs 2.01e-4 0.05 1 3 4 0.1 1e-7 _ fg_run
    (by norm_num)
    (fun y hy h3 h4 => by
      rw [fg_ideal y hy h3 h4, show y.1 * 0.05 * 1 - 2e-4 * 0.1 - (y.1 * 0.05 * 1 - 2.01e-4 * 0.1) = 1e-7 by ring]
      norm_num)
    _ _ (List.mem_map.mpr ⟨(0.001, fgP), by simpa [fgP] using w1, rfl⟩)
    (List.mem_map.mpr ⟨(0.002, fgQ), by simpa [fgQ] using w2, rfl⟩) _ rfl
    (by
      rw [show |(0.001 : ℝ) - 0.002| = 0.001 by norm_num]
      linarith) sr hs
  refine ⟨A', ?_, sr, hs, h1⟩
  rw [show |(0.001 : ℝ) - 0.002| = 0.001 by norm_num,
    show |2.01e-4 * 0.1 / (0.05 * 1) - (0.001 : ℝ)| = 5.98e-4 by norm_num [abs_of_neg, abs_of_nonneg],
    show |2.01e-4 * 0.1 / (0.05 * 1) - (0.002 : ℝ)| = 1.598e-3 by norm_num [abs_of_neg, abs_of_nonneg]] at h2
  by_contra hc
  push Not at hc
  nlinarith

theorem mx_titration (cert : Flt) : TitrationGran (calWorld fgP fgQ) [] (cellCols fgArgs) (cellRow fgArgs cert) 200
    0.051 4 4000 "a.dat" (fin 35) where
  file := cell_file fgArgs cert (by rw [dg_keys]; decide)
  run := by
    refine ⟨dgSolve, 1, 3, 4, 0.1, 0.05, -2e-5, _, dg_solve_settings _ cert, dg_run, ?_, fg_two, mx_best,
      by norm_num, by norm_num⟩
    intro k hk
    simp only [keys_titrant_totals, List.mem_cons, List.not_mem_nil, or_false] at hk
    rcases hk with rfl | rfl | rfl <;> rfl
  close := by norm_num

theorem mx_calibrated : CalibratedTo (calWorld fgP fgQ) [] (cellCols fgArgs) (cellRow fgArgs (fin (1e6 * 2e-4))) 200 0
    "a.dat" (fin 35) 0 where
  certified := by
    show Val.num (fin (1e6 * 2e-4)) = _
    norm_num
  typed := dg_calibratable.typed
  small st hst res hres ρ hρ := by
    rw [show (200 : ℝ) = 1e6 * 2e-4 by norm_num, dg_calibrate _ hst] at hres
    rw [← Except.ok.inj hres] at hρ
    simp only [List.cons.injEq, fin_inj, and_true] at hρ
    rw [← hρ, abs_zero]
  found st hst res hres := by
    rw [show (200 : ℝ) = 1e6 * 2e-4 by norm_num, dg_calibrate _ hst] at hres
    rw [← Except.ok.inj hres]
    exact ⟨0.05, rfl, by norm_num⟩

/-- the settings of the sample: as those of the reference, but in pH mode -/
noncomputable def mxArgs : Dict Val :=
  [ ("solve_mode", .str "pH"), ("analyte_mass", .num (fin 0.1)), ("titrant_amount_unit", .str "kg"),
    ("titrant_molinity_init", .num (fin 0.05)) ] ++
  (("dic" :: (optionalContents ++ saltContents)).map fun k => (k, Val.num (fin (pContents k)))) ++
  allConstants.map fun k => (k, Val.num (fin (pConstants k)))

theorem mx_keys : mxArgs.keys = dgNames := rfl

noncomputable def mxSolve : Dict Val :=
  [ ("solve_mode", .str "pH"), ("analyte_mass", .num (fin 0.1)), ("titrant_amount_unit", .str "kg") ] ++
  (("dic" :: (optionalContents ++ saltContents)).map fun k => (k, Val.num (fin (pContents k)))) ++
  (allConstants.map fun k => (k, Val.num (fin (pConstants k)))) ++ [("opt_total_borate", .num (fin 1))]

theorem mx_settings (w : World) (cert : Flt) :
    SettingsOf keys_solve w [] (cellCols mxArgs) (cellRow mxArgs cert) mxSolve :=
  cell_settings w cert mxArgs (by rw [mx_keys]; decide)
    (by
      intro kv hkv
      simp only [mxArgs, List.mem_append, List.mem_cons, List.not_mem_nil, or_false, List.mem_map] at hkv
      rcases hkv with ((rfl | rfl | rfl | rfl) | ⟨k, -, rfl⟩) | ⟨k, -, rfl⟩ <;> rfl)
    (by rw [mx_keys]; decide) (by rw [mx_keys]; decide) (by rw [mx_keys]; decide) (by rw [mx_keys]; decide)
    keys_solve (by decide) (by decide)

theorem mx_load (p q : ℝ) : load (calWorld p q) "a.dat" (fin 35) mxSolve
    = load (calWorld p q) "a.dat" (fin 35) pArgs := by
  with_unfolding_all rfl

def mxRest : List String := ("dic" :: (optionalContents ++ saltContents)) ++ allConstants

theorem mx_get (k : String) (hk : k ∈ mxRest) : mxSolve.get? k = pArgs.get? k := by
  have h : ∀ k ∈ mxRest, mxSolve.get? k = pArgs.get? k := by
    have e : mxRest = ["dic"] ++ optionalContents ++ saltContents ++ allConstants := rfl
    intro k hk
    simp only [e, optionalContents, saltContents, allConstants, List.mem_append, List.mem_cons, List.not_mem_nil,
      or_false] at hk
    rcases hk with ((rfl | hk) | hk) | hk
    · rfl
    all_goals
      repeat' (rcases hk with rfl | hk)
      all_goals first | rfl | (subst hk; rfl)
  exact h k hk

theorem mx_run (p q : ℝ) : PHRun (calWorld p q) "a.dat" (fin 35) mxSolve pContents pConstants 0.051 1 0 3 4
    0.1 [0.001, 0.002] [p, q] :=
  let h := cal_run p q
  { loads := by rw [mx_load]; exact h.loads
    keepsTotals := h.keepsTotals, keepsKs := h.keepsKs
    nodup := (mx_settings (calWorld p q) nan).1
    mode := ⟨"pH", rfl, by decide⟩
    sample :=
      { contents := fun k hk => by
          rw [mx_get k (List.mem_append_left _ hk)]; exact h.sample.contents k hk
        constants := fun k hk => by
          rw [mx_get k (List.mem_append_right _ hk)]; exact h.sample.constants k hk
        scale := not_onTotalScale rfl }
    sulfate := .inr ⟨rfl, rfl⟩, no_phosphate := rfl, no_fluoride := rfl, normality := .inr ⟨rfl, rfl⟩
    pH_min := .inr ⟨rfl, rfl⟩, pH_max := .inr ⟨rfl, rfl⟩, window := h.window, lengths := h.lengths
    mass := h.mass, masses := h.masses, acid := by norm_num }

theorem mx_pH (cert : Flt) : ∃ A, TitrationPH (calWorld fgP fgQ) [] (cellCols mxArgs) (cellRow mxArgs cert) A 0.051 0
    (acidSlope pConstants 1 0 3 4 0.1 [0.001, 0.002] [fgP, fgQ]) "a.dat" (fin 35) 0 := by
  have w1 := fg_window (3e-5 / 0.101) (by norm_num) (by norm_num)
  have hin : ∃ p ∈ [fgP, fgQ], (3 : ℝ) ≤ p ∧ p ≤ 4 := ⟨fgP, by simp, w1⟩
  obtain ⟨r, T, est, h1, -, -, -, h2⟩ := C109_estimates (calWorld fgP fgQ) "a.dat" (fin 35) mxSolve pContents
    pConstants 0.051 1 0 3 4 0.1 [0.001, 0.002] [fgP, fgQ] (mx_run fgP fgQ) hin
  exact ⟨_, cell_file mxArgs cert (by rw [mx_keys]; decide), mxSolve, pContents, pConstants, 1, 3, 4, 0.1, _, _,
    mx_settings _ cert, mx_run fgP fgQ, rfl, hin, _, _, h1, h2, by rw [sub_self, abs_zero]⟩

theorem mx_slope : |acidSlope pConstants 1 0 3 4 0.1 [0.001, 0.002] [fgP, fgQ]| ≤ 2e4 := by
  obtain ⟨h1, h2⟩ := C121_slope (K := pConstants) (n := 1) (g := 0) (lo := 3) (hi := 4) (M := 0.1)
    (tm := [0.001, 0.002]) (pH := [fgP, fgQ]) (by norm_num) le_rfl (by norm_num [pConstants])
    (by intro m hm; simp only [List.mem_cons, List.not_mem_nil, or_false] at hm
        rcases hm with rfl | rfl <;> norm_num) rfl
  have w1 := fg_window (3e-5 / 0.101) (by norm_num) (by norm_num)
  have w2 := fg_window (8e-5 / 0.102) (by norm_num) (by norm_num)
  have hw : ∀ p q : ℝ, 3 ≤ p ∧ p ≤ 4 → 3 ≤ q ∧ q ≤ 4 → windowMean 3 4 [p, q] [0.001, 0.002] = 0.0015 := by
    intro p q hp hq
    unfold windowMean
    simp [hp.1, hp.2, hq.1, hq.2]
    norm_num
  rw [hw fgP fgQ w1 w2] at h1 h2
  rw [abs_of_nonneg (le_trans (by norm_num) h1)]
  exact h2.trans (by norm_num)

theorem mx_frame : ∃ (df' : DF) (r1 r2 : Row), dataset_calibrate (calWorld fgP fgQ) []
      ⟨cellCols fgArgs, [cellRow fgArgs (fin (1e6 * 2e-4)), cellRow mxArgs nan]⟩ = (.ok (), df') ∧
    df'.rows = [r1, r2] ∧ (∀ r ∈ df'.rows, r "analysis_batch" = .num (fin 0)) ∧
    IsReference r1 ∧ ¬ IsReference r2 := by
  have hnot : ∀ k, k ∉ ["file_name", "salinity", "alkalinity_certified"] → k ∉ fgArgs.keys →
      k ∉ cellCols fgArgs := fun k h1 h2 h => (List.mem_append.mp h).elim h1 h2
  have hbatch := hnot "analysis_batch" (by decide) (by rw [dg_keys]; decide)
  have hrg := hnot "reference_good" (by decide) (by rw [dg_keys]; decide)
  obtain ⟨df', h⟩ := c41_calibrate_finishes (calWorld fgP fgQ) []
    ⟨cellCols fgArgs, [cellRow fgArgs (fin (1e6 * 2e-4)), cellRow mxArgs nan]⟩ g_ignored
    (by simp [cellCols]) (.inl (List.mem_append_right _ (by rw [dg_keys]; decide))) (by simp [cellCols])
    (by simp [cellCols])
    (by
      intro r hr
      rcases List.mem_cons.mp hr with rfl | hr
      · exact .inr ⟨fin (1e6 * 2e-4), rfl⟩
      · rw [List.mem_singleton.mp hr]; exact .inl rfl)
    (fun h => absurd h hbatch) (fun h => absurd h hrg)
  have hcal := C97_calibrate _ [] _ df' h
  have hdef := C97_defaults _ [] _ df' h
  have hrows := calibrate_rows h
  obtain ⟨r1, r2, hr⟩ : ∃ r1 r2, df'.rows = [r1, r2] := by
    have := hrows.length_eq
    match hd : df'.rows, this with
    | [r1, r2], _ => exact ⟨r1, r2, rfl⟩
  rw [hr] at hcal hdef hrows
  simp only [List.forall₂_cons, List.Forall₂.nil, and_true] at hcal hdef hrows
  have hb : "read_dat_method" ∉ fgArgs.keys := by rw [dg_keys]; decide
  have hhere1 : r1 "titrant_molinity_here" = .num (fin 0.05) := by
    have hf := cell_file fgArgs (fin (1e6 * 2e-4)) (by rw [dg_keys]; decide)
    obtain ⟨st, hn, hget, hok, -⟩ := hcal.1 "a.dat" (fin (1e6 * 2e-4)) (fin 35) []
      hf.column hf.name rfl (by simp) hf.salinity hf.good (cell_backcompat _ _ hb)
    exact hok _ (dg_calibrate _ ⟨hn (by decide), [], cell_backcompat _ _ hb, hget⟩)
  have hhere2 : r2 "titrant_molinity_here" = .num nan := by
    obtain ⟨x, s, hcr⟩ := hrows.2
    have hx := hcr.here
    have e : prepRow (calWorld fgP fgQ) (cellCols fgArgs) (cellRow mxArgs nan) "alkalinity_certified" = .num nan :=
      prepRow_other (by decide)
    unfold calibrate_row at hx
    rw [if_neg (by rw [e]; simp [Val.isNull, Flt.isNaN])] at hx
    rw [hcr.here']
    exact (Except.ok.inj hx).symm
  refine ⟨df', r1, r2, h, hr, ?_, ?_, ?_⟩
  · intro r hr'
    rw [hr] at hr'
    simp only [List.mem_cons, List.not_mem_nil, or_false] at hr'
    rcases hr' with rfl | rfl
    · exact hdef.1.1.trans (if_neg hbatch)
    · exact hdef.2.1.trans (if_neg hbatch)
  · exact ⟨(hdef.1.2.trans (if_neg hrg)).trans (by rw [hhere1]; rfl), by rw [hhere1]; rfl⟩
  · intro hi
    have := hi.2
    rw [hhere2] at this
    simp [Val.isNull, Flt.isNaN] at this

/-- every hypothesis of `C142_dataset` is met: the molinity is found within 0.001 mol/kg, and the alkalinity of the
sample within 20 µmol/kg of what a solve with the true molinity gives -/
example : ∃ (df' : DF) (r1 r2 : Row) (c a A : ℝ), dataset_calibrate (calWorld fgP fgQ) []
      ⟨cellCols fgArgs, [cellRow fgArgs (fin (1e6 * 2e-4)), cellRow mxArgs nan]⟩ = (.ok (), df') ∧
    df'.rows = [r1, r2] ∧ r2 "titrant_molinity" = .num (fin c) ∧ |c - 0.051| ≤ 0.001 ∧
    r2 "alkalinity" = .num (fin a) ∧ |a - A| ≤ 20 := by
  obtain ⟨df', r1, r2, h, hr, hb, h1, h2⟩ := mx_frame
  obtain ⟨A, hA⟩ := mx_pH nan
  have hmain := C142_dataset (calWorld fgP fgQ) (dt_byName fgP fgQ) lsqOnce_reports lsqOnce_finite [] _ df'
    (by decide) h (fun r hr => by rw [hb r hr]; exact .inr ⟨_, rfl, by simp⟩) (fun _ => 0.051) (fun _ => 0.001)
  rw [hr] at hmain hb
  simp only [List.forall₂_cons, List.Forall₂.nil, and_true] at hmain
  obtain ⟨-, g2⟩ := hmain
    ⟨fun _ => ⟨_, .gran (mx_titration _) (by norm_num) mx_calibrated, by norm_num⟩, fun hi => absurd hi h2⟩
  obtain ⟨⟨c, hc, hcc⟩, g2⟩ := g2 ⟨r1, by simp, h1, by rw [hb r1 (by simp), hb r2 (by simp)]⟩
  obtain ⟨a, ha, hae, -⟩ := g2 _ _ (.pH hA le_rfl (by norm_num))
  refine ⟨df', r1, r2, c, a, A, h, hr, hc, hcc, ha, hae.trans ?_⟩
  have := mx_slope
  linarith

end Calk
