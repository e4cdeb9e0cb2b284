import Verif.Lemmas.RoundedAlk
import Verif.Lemmas.Text
import Mathlib.Data.Int.Log
import Mathlib.Algebra.Order.Ring.Pow

/-! # Rounding in pH-mode alkalinity (C127) -/

namespace Calk
open Flt Spec

/-! ## exact arithmetic gives the exact model -/

theorem exact_terms (c : Dict Flt) : alk_termsF exactArith c = alk_terms c := by
  induction c with
  | nil => rfl
  | cons kv c ih =>
    obtain ⟨k, v⟩ := kv
    simp only [alk_termsF, alk_terms, ih]
    rfl

theorem exact_alkalinity (p : Flt) (totals ks : Dict Flt) (scale : ℕ) :
    alkalinityF exactArith p totals ks scale = alkalinity p totals ks scale := by
  unfold alkalinityF alkalinity
  simp only [exact_terms]
  rfl

theorem exact_from (totals ks : Dict NpVal) (scale : ℕ) (pH : List Flt) (i : ℕ) :
    alkalinity_fromF exactArith totals ks scale i pH = alkalinity_from totals ks scale i pH := by
  induction pH generalizing i with
  | nil => rfl
  | cons p ps ih => simp only [alkalinity_fromF, alkalinity_from, exact_alkalinity, ih]

/-- C127.  Without rounding the floating-point version of the code is the exact model. -/
theorem C127_exact (c : Flt) (tm pH : List Flt) (M : Flt) (totals ks : Dict NpVal) (o : PHOpts) :
    solve_pHF exactArith c tm pH M totals ks o = solve_pH c tm pH M totals ks o := by
  unfold solve_pHF solve_pH alkalinity_arrF alkalinity_arr
  simp only [exact_alkalinity, exact_from]
  rfl

/-! ## what rounding can do -/

theorem forall₂_mask {α β : Type} {R : α → β → Prop} (W : List Bool) {xs : List α} {ys : List β}
    (h : List.Forall₂ R xs ys) : List.Forall₂ R (mask W xs) (mask W ys) := by
  induction h generalizing W with
  | nil => simp
  | cons h1 h2 ih =>
    cases W with
    | nil => simp
    | cons b W =>
      cases b with
      | true => rw [mask_cons_true, mask_cons_true]; exact .cons h1 (ih W)
      | false => rw [mask_cons_false, mask_cons_false]; exact ih W

/-- The rounded logarithm puts the constants of the two additional acids on the same side of the
zero level of protons as the exact one does. -/
def RoundSide (F : Arith) (ks : Dict NpVal) (n : ℕ) : Prop :=
  ∀ i < n, ∀ k ∈ ["k_alpha", "k_beta"], ∀ K : ℝ, (rowAt ks i).get? k = some (fin K) →
    (-(F.log10 (fin K))).le (fin zlp) = (-(Flt.log10 (fin K))).le (fin zlp)

/-- Size of the terms that make up the alkalinity estimate at a point (µmol/kg): everything counted
positively. -/
noncomputable def pointSize (c n M s m : ℝ) : ℝ := 1e6 * (s * (m + M) + |m * c * n|) / M

/-- sizes at the points of a titration -/
noncomputable def sizesAll (c : ℝ) (tm pH : List ℝ) (M : ℝ) (totals ks : Dict NpVal) (n : ℝ) : List ℝ :=
  List.zipWith (fun pi m => pointSize c n M
    ((Sol.of (rowAt totals pi.2) (rowAt ks pi.2)).size ((10:ℝ) ^ (-pi.1))) m) pH.zipIdx tm

section
variable {F : Arith} {u : ℝ} {e : ℕ} (hF : Accurate F u e)
include hF

theorem alkalinity_fromF_spec {totals ks : Dict NpVal} {pH : List ℝ} {i N : ℕ}
    (hN : i + pH.length ≤ N) (hv : ValidRows totals ks N) (hk : HasKsN totals ks 3)
    (hside : RoundSide F ks N) :
    ∃ vs, alkalinity_fromF F totals ks 3 i (pH.map fin) = .ok vs ∧
      List.Forall₂ (fun v (pi : ℝ × ℕ) => FErr (1 / (1 - u)) (termDepth e + 16)
        ((Sol.of (rowAt totals pi.2) (rowAt ks pi.2)).size ((10:ℝ) ^ (-pi.1))) v
        (specAlk totals ks pi.2 pi.1)) vs (pH.zipIdx i) := by
  induction pH generalizing i with
  | nil => exact ⟨[], rfl, by simp⟩
  | cons p ps ih =>
    simp only [List.length_cons] at hN
    obtain ⟨vs, h1, h2⟩ := ih (i := i + 1) (by omega)
    have hi : i < N := by omega
    obtain ⟨v, h3, h4⟩ := alkalinityF_spec hF (hv i hi).1 (hv i hi).2 (scale := 3) (by simp)
      (hasKs_rowAt.mpr hk) (hside i hi) p
    refine ⟨v :: vs, ?_, ?_⟩
    · simp only [List.map_cons, alkalinity_fromF, h3, h1, bind_ok]; rfl
    · simp only [List.zipIdx_cons]
      exact .cons h4 h2

theorem point_alkalinityF_spec {k : ℕ} {c n M m a s : ℝ} {v : Flt} (hk : 4 ≤ k) (hM : 0 < M)
    (hm : 0 ≤ m) (hv : FErr (1 / (1 - u)) k s v a) :
    FErr (1 / (1 - u)) (k + 5) (pointSize c n M s m)
      (point_alkalinityF F (fin c) (fin n) (fin M) v (fin m)) (ptR c n M a m) := by
  have hmM : 0 < m + M := by linarith
  have gs : FRel (1 / (1 - u)) 1 (F.add (fin m) (fin M)) (m + M) := by
    obtain ⟨z, hz, hzu⟩ := hF.rnd (m + M)
    exact ⟨z, by simp only [Arith.add, add_fin, hz], (Rel.refl hmM).round hF.one_le hF.inv hzu⟩
  have g1 := hF.ferr_div (hF.ferr_mul (hF.ferr_mul (ferr_nonneg hm) (ferr_fin c)) (ferr_fin n)) gs
  have g2 := hF.ferr_mul (ferr_nonneg (by norm_num : (0:ℝ) ≤ 1e6)) (hF.ferr_add hv g1)
  have g3 := hF.ferr_div g2 (hF.frel_div (frel_fin hM) gs)
  have g4 := hF.ferr_mono g3 (l := k + 5) (by omega) le_rfl
  have e1 : ptR c n M a m = 1e6 * (a + m * c * n / (m + M)) / (M / (m + M)) := by
    unfold ptR; field_simp
  have e2 : pointSize c n M s m = 1e6 * (s + m * |c| * |n| / (m + M)) / (M / (m + M)) := by
    unfold pointSize
    rw [abs_mul, abs_mul, abs_of_nonneg hm]; field_simp
  rw [e1, e2]
  exact g4

/-- C127.  Rounding in every step changes a pH-mode result by no more than the given fraction of the
size of the terms that it is made of, and changes neither which points are used nor whether there is
a result. -/
theorem C127_rounding {c n M lo hi : ℝ} {tm pH : List ℝ} {totals ks : Dict NpVal}
    (hl : tm.length = pH.length) (hv : ValidRows totals ks pH.length) (hk : HasKsN totals ks 3)
    (hft : dictFits pH.length totals = true) (hfk : dictFits pH.length ks = true)
    (hside : RoundSide F ks pH.length) (hM : 0 < M) (hm : ∀ m ∈ tm, 0 ≤ m) (hw : lo < hi)
    (hused : ∃ p ∈ pH, lo ≤ p ∧ p ≤ hi) :
    ∃ (r' r : SolvePH) (A' A : ℝ),
      solve_pHF F (fin c) (tm.map fin) (pH.map fin) (fin M) totals ks
          { pH_min := fin lo, pH_max := fin hi, titrant_normality := fin n } = .ok r' ∧
      solve_pH (fin c) (tm.map fin) (pH.map fin) (fin M) totals ks
          { pH_min := fin lo, pH_max := fin hi, titrant_normality := fin n } = .ok r ∧
      r'.used = r.used ∧ r'.alkalinity = fin A' ∧ r.alkalinity = fin A ∧
      List.Forall₂ (fun v (a : ℝ × ℝ) => ∃ y, v = fin y ∧
          |y - a.1| ≤ ((1 / (1 - u)) ^ (10 * e + 33) - 1) * a.2) r'.alkalinity_all
        ((phAllR c tm pH M totals ks n).zip (sizesAll c tm pH M totals ks n)) ∧
      r.alkalinity_all = (phAllR c tm pH M totals ks n).map fin ∧
      |A' - A| ≤ ((1 / (1 - u)) ^ (10 * e + 34 + (pH.filter (inWin lo hi)).length) - 1)
        * rmean (mask (pH.map (inWin lo hi)) (sizesAll c tm pH M totals ks n)) := by
  have h0 : 0 < pH.length := by
    obtain ⟨p, hp, -⟩ := hused
    exact List.length_pos_of_mem hp
  obtain ⟨vs, h1, h2⟩ := alkalinity_fromF_spec hF (pH := pH) (i := 0) (N := pH.length) (by omega) hv hk hside
  obtain ⟨v7, h7, -⟩ := alkalinityF_spec hF (hv 0 h0).1 (hv 0 h0).2 (scale := 3) (by simp)
      (hasKs_rowAt.mpr hk) (hside 0 h0) 7
  have harr : alkalinity_arrF F (pH.map fin) totals ks 3 = .ok vs := by
    simp only [alkalinity_arrF, h7, bind_ok, List.length_map, hft, hfk, h1]
    rfl
  -- the points
  have hpts : List.Forall₂ (fun v (a : ℝ × ℝ) => FErr (1 / (1 - u)) (10 * e + 33) a.2 v a.1)
      (List.zipWith (fun a m => point_alkalinityF F (fin c) (fin n) (fin M) a m) vs (tm.map fin))
      ((phAllR c tm pH M totals ks n).zip (sizesAll c tm pH M totals ks n)) := by
    have hvs : vs.length = pH.length := by simpa using h2.length_eq
    rw [List.forall₂_iff_get]
    refine ⟨by simp [phAllR, sizesAll, hvs, hl], ?_⟩
    intro i hi1 hi2
    have hi : i < pH.length := by simp [hvs, hl] at hi1; exact hi1
    have hit : i < tm.length := by omega
    have hiv : i < vs.length := by omega
    have hp := (List.forall₂_iff_get.mp h2).2 i hiv (by simpa using hi)
    have hq := point_alkalinityF_spec hF (k := termDepth e + 16) (c := c) (n := n) (M := M)
      (m := tm[i]) (by omega) hM (hm _ (List.getElem_mem _)) hp
    simp only [List.get_eq_getElem, List.getElem_zipWith, List.getElem_zip, phAllR, sizesAll,
      List.getElem_zipIdx, List.getElem_map, Nat.zero_add] at hq ⊢
    exact hF.ferr_mono hq (by unfold termDepth; omega) le_rfl
  -- the mean
  have hlenP : (phAllR c tm pH M totals ks n).length = pH.length := by simp [phAllR, hl]
  have hlenS : (sizesAll c tm pH M totals ks n).length = pH.length := by simp [sizesAll, hl]
  set W := pH.map (inWin lo hi) with hWdef
  have hWlen : W.length = pH.length := by simp [W]
  set xs := List.zipWith (fun a m => point_alkalinityF F (fin c) (fin n) (fin M) a m) vs (tm.map fin)
  set es := (phAllR c tm pH M totals ks n).zip (sizesAll c tm pH M totals ks n) with hes
  have hmask : List.Forall₂ (fun v (a : ℝ × ℝ) => FErr (1 / (1 - u)) (10 * e + 33) a.2 v a.1)
      (mask W xs) (mask W es) := forall₂_mask W hpts
  have hmaskP : (mask W es).map Prod.fst = mask W (phAllR c tm pH M totals ks n) := by
    rw [← mask_map, hes, List.map_fst_zip (by omega)]
  have hmaskS : (mask W es).map Prod.snd = mask W (sizesAll c tm pH M totals ks n) := by
    rw [← mask_map, hes, List.map_snd_zip (by omega)]
  have hcount : (mask W es).length = (pH.filter (inWin lo hi)).length := by
    rw [← List.length_map (f := Prod.fst) (as := mask W es), hmaskP]
    have := mask_eq_filter (inWin lo hi) pH
    rw [← this, ← hWdef]
    clear_value W
    clear hmaskP hmaskS hmask hes hWdef
    generalize phAllR c tm pH M totals ks n = P at *
    clear * - hlenP
    induction W generalizing P pH with
    | nil => simp
    | cons b W ih =>
      cases pH with
      | nil => cases P with
        | nil => simp
        | cons _ _ => simp at hlenP
      | cons p pH => cases P with
        | nil => simp at hlenP
        | cons q P =>
          have := ih (pH := pH) P (by simpa using hlenP)
          cases b <;> simp [this]
  have hpos : 0 < (mask W es).length := by
    rw [hcount]
    obtain ⟨p, hp, hlo, hhi⟩ := hused
    exact List.length_pos_of_mem (List.mem_filter.mpr ⟨hp, by simp [inWin, hlo, hhi]⟩)
  have hcR : (0:ℝ) < ((mask W es).length : ℝ) := by exact_mod_cast hpos
  have hsum := hF.sums (hF.sum (mask W xs)) _ hmask
  have hmean := hF.ferr_div hsum (frel_fin hcR)
  have hlenx : (mask W xs).length = (mask W es).length := hmask.length_eq
  obtain ⟨A', hA', hA'err⟩ := hmean
  have hex := solve_pH_eq (c := fin c) (tm := tm.map fin) (pH := pH.map fin) (M := fin M)
    (totals := totals) (ks := ks)
    (o := { pH_min := fin lo, pH_max := fin hi, titrant_normality := fin n })
    (by simpa using hw) hk (by simpa using hft) (by simpa using hfk) (by simpa using hl)
  have hall := phAll_fin (c := c) (n := n) (M := M) (tm := tm) (pH := pH) hv hk hM
    (fun m hmm => by linarith [hm m hmm])
  refine ⟨{ alkalinity := F.mean (mask W xs), used := W, alkalinity_std := F.std (mask W xs),
            alkalinity_all := xs }, _, A', rmean (mask W (phAllR c tm pH M totals ks n)), ?_, hex, ?_, ?_, ?_, ?_, ?_, ?_⟩
  · simp only [solve_pHF, pyAssert, lt_fin, hw, decide_true, if_true, bind_ok, harr, sameShape2,
      List.length_map, hl, pH_used_fin]
    rfl
  · simp only [phRes, pH_used_fin]; rfl
  · show F.mean (mask W xs) = _
    rw [Arith.mean, hlenx]
    exact hA'
  · simp only [phRes, pH_used_fin, hall, ← mask_map]
    rw [mask_map, npMean_map_fin]
    intro hnil
    rw [← hmaskP] at hnil
    rw [List.map_eq_nil_iff.mp hnil] at hpos
    simp at hpos
  · exact hpts.imp fun v a ⟨y, hy, hy'⟩ => ⟨y, hy, hy'.err⟩
  · simp only [phRes, hall]
  · have h := hA'err.err
    rw [hmaskP, hmaskS] at h
    have e1 : (mask W (phAllR c tm pH M totals ks n)).sum / ((mask W es).length : ℝ)
        = rmean (mask W (phAllR c tm pH M totals ks n)) := by
      rw [rmean, ← hmaskP, List.length_map]
    have e2 : (mask W (sizesAll c tm pH M totals ks n)).sum / ((mask W es).length : ℝ)
        = rmean (mask W (sizesAll c tm pH M totals ks n)) := by
      rw [rmean, ← hmaskS, List.length_map]
    rw [e1, e2] at h
    rw [← hcount]
    rw [show 10 * e + 34 + (mask W es).length = 10 * e + 33 + (mask W es).length + 0 + 1 by omega]
    exact h

end

/-- many small relative errors together -/
theorem rounding_small {u : ℝ} {K : ℕ} (h0 : 0 ≤ u) (h1 : u < 1) (hK : K * u ≤ 1 / 2) :
    (1 / (1 - u)) ^ K - 1 ≤ 2 * (K * u) := by
  have hb : 1 - K * u ≤ (1 - u) ^ K := by
    have := one_add_mul_le_pow (a := -u) (by linarith) K
    have e1 : 1 + (K:ℝ) * -u = 1 - K * u := by ring
    have e2 : 1 + -u = 1 - u := by ring
    rw [e1, e2] at this; exact this
  have hKu : 0 ≤ K * u := by positivity
  have hp : 0 < 1 - K * u := by linarith
  rw [div_pow, one_pow]
  have : 1 / (1 - u) ^ K ≤ 1 / (1 - K * u) := one_div_le_one_div_of_le hp hb
  have h2 : 1 / (1 - K * u) ≤ 1 + 2 * (K * u) := by
    rw [div_le_iff₀ hp]; nlinarith
  linarith

/-- C127.  In double precision (53 significant bits, powers to within four units of rounding), with
up to a thousand points used, the rounded alkalinity differs from the exact one by less than
2.5e-13 of the size of its terms. -/
theorem C127_double {F : Arith} {e : ℕ} (hF : Accurate F (2 ^ (-53 : ℤ)) e) (he : e ≤ 4)
    {c n M lo hi : ℝ} {tm pH : List ℝ} {totals ks : Dict NpVal}
    (hl : tm.length = pH.length) (hv : ValidRows totals ks pH.length) (hk : HasKsN totals ks 3)
    (hft : dictFits pH.length totals = true) (hfk : dictFits pH.length ks = true)
    (hside : RoundSide F ks pH.length) (hM : 0 < M) (hm : ∀ m ∈ tm, 0 ≤ m) (hw : lo < hi)
    (hused : ∃ p ∈ pH, lo ≤ p ∧ p ≤ hi) (hN : (pH.filter (inWin lo hi)).length ≤ 1000)
    {r' r : SolvePH}
    (h' : solve_pHF F (fin c) (tm.map fin) (pH.map fin) (fin M) totals ks
          { pH_min := fin lo, pH_max := fin hi, titrant_normality := fin n } = .ok r')
    (h : solve_pH (fin c) (tm.map fin) (pH.map fin) (fin M) totals ks
          { pH_min := fin lo, pH_max := fin hi, titrant_normality := fin n } = .ok r) :
    ∃ A' A : ℝ, r'.alkalinity = fin A' ∧ r.alkalinity = fin A ∧
      |A' - A| ≤ 2.5e-13 * rmean (mask (pH.map (inWin lo hi)) (sizesAll c tm pH M totals ks n)) := by
  obtain ⟨r2, r1, A', A, g2, g1, -, gA', gA, -, -, hb⟩ := C127_rounding hF (c := c) (n := n) hl hv hk hft hfk
    hside hM hm hw hused
  rw [g2] at h'
  rw [g1] at h
  cases h'; cases h
  refine ⟨A', A, gA', gA, hb.trans ?_⟩
  set N := (pH.filter (inWin lo hi)).length
  have hK : 10 * e + 34 + N ≤ 1074 := by omega
  have hu : ((10 * e + 34 + N : ℕ) : ℝ) * (2:ℝ) ^ (-53 : ℤ) ≤ 1074 * (2:ℝ) ^ (-53 : ℤ) :=
    mul_le_mul_of_nonneg_right (by exact_mod_cast hK) (by positivity)
  have hs := rounding_small (u := (2:ℝ) ^ (-53 : ℤ)) (K := 10 * e + 34 + N) hF.u0 hF.u1
    (hu.trans (by norm_num))
  have hc : (1 / (1 - (2:ℝ) ^ (-53 : ℤ))) ^ (10 * e + 34 + N) - 1 ≤ 2.5e-13 := by
    refine hs.trans ?_
    have : 2 * (1074 * (2:ℝ) ^ (-53 : ℤ)) ≤ 2.5e-13 := by norm_num
    exact (mul_le_mul_of_nonneg_left hu (by norm_num)).trans this
  refine mul_le_mul_of_nonneg_right hc (rmean_nonneg fun x hx => ?_)
  obtain ⟨i, hi, rfl⟩ := List.getElem_of_mem (mem_of_mem_mask hx)
  simp only [sizesAll, List.length_zipWith, List.length_zipIdx] at hi
  simp only [sizesAll, List.getElem_zipWith, List.getElem_zipIdx, Nat.zero_add, pointSize]
  have hi1 : i < pH.length := by omega
  have hval := Sol.of_valid (hv i hi1).1 (hv i hi1).2
  have hmi := hm (tm[i]) (List.getElem_mem _)
  have : 0 ≤ (Sol.of (rowAt totals i) (rowAt ks i)).size ((10:ℝ) ^ (-pH[i])) := by
    have hh : (0:ℝ) < (10:ℝ) ^ (-pH[i]) := by positivity
    obtain ⟨a1, a2, a3, a4, a5, a6, a7, a8, a9, a10, a11, a12, a13, a14, a15, a16, a17, a18, a19, a20,
      a21, a22, a23, a24⟩ := hval
    unfold Sol.size carbAlk base acid
    positivity
  positivity

/-! ## an arithmetic with 53 significant bits -/

/-- round to 53 significant bits, ties to even, without limits on the exponent -/
noncomputable def round53 (x : ℝ) : ℝ :=
  (if x < 0 then -1 else 1) *
    (roundHalfEven (|x| / 2 ^ (Int.log 2 |x| - 52)) * 2 ^ (Int.log 2 |x| - 52))

theorem round53_neg (x : ℝ) : round53 (-x) = -round53 x := by
  unfold round53
  rw [abs_neg]
  rcases lt_trichotomy x 0 with h | h | h
  · rw [if_pos h, if_neg (by linarith)]; ring
  · subst h
    have : roundHalfEven 0 = 0 := by exact_mod_cast roundHalfEven_nat 0
    simp [this]
  · rw [if_pos (by linarith : -x < 0), if_neg (by linarith)]; ring

theorem round53_close (x : ℝ) : |round53 x - x| ≤ 2 ^ (-53 : ℤ) * |x| := by
  have key : ∀ x : ℝ, 0 ≤ x → |round53 x - x| ≤ 2 ^ (-53 : ℤ) * |x| := by
    intro x hx0
    rcases hx0.eq_or_lt with rfl | hx
    · have : roundHalfEven 0 = 0 := by exact_mod_cast roundHalfEven_nat 0
      simp [round53, this]
    have hL := Int.zpow_log_le_self (b := 2) (r := x) (by norm_num) hx
    have hax : |x| = x := abs_of_pos hx
    unfold round53
    rw [if_neg (by linarith), hax, one_mul]
    set L := Int.log 2 x
    have hL' : (2:ℝ) ^ L ≤ x := by exact_mod_cast hL
    have hp : (0:ℝ) < 2 ^ (L - 52) := by positivity
    have h1 := roundHalfEven_close (x := x / 2 ^ (L - 52)) (by positivity)
    have e1 : (roundHalfEven (x / 2 ^ (L - 52)) : ℝ) * 2 ^ (L - 52) - x
        = -((x / 2 ^ (L - 52) - roundHalfEven (x / 2 ^ (L - 52))) * 2 ^ (L - 52)) := by
      have : x / 2 ^ (L - 52) * 2 ^ (L - 52) = x := by field_simp
      rw [sub_mul, this]; ring
    rw [e1, abs_neg, abs_mul, abs_of_pos hp]
    calc |x / 2 ^ (L - 52) - roundHalfEven (x / 2 ^ (L - 52))| * 2 ^ (L - 52)
        ≤ 1 / 2 * 2 ^ (L - 52) := mul_le_mul_of_nonneg_right h1 hp.le
      _ = 2 ^ (-53 : ℤ) * 2 ^ L := by
          rw [zpow_sub₀ (by norm_num), zpow_neg]; norm_num; ring
      _ ≤ 2 ^ (-53 : ℤ) * x := mul_le_mul_of_nonneg_left hL' (by positivity)
  rcases le_or_gt 0 x with h | h
  · exact key x h
  · have := key (-x) (by linarith)
    rw [round53_neg, abs_neg] at this
    rwa [show -round53 x - -x = -(round53 x - x) by ring, abs_neg] at this

noncomputable def rnd53 : Flt → Flt
  | .fin x => fin (round53 x)
  | v => v

/-- add up from the left -/
noncomputable def sum53 : List Flt → Flt
  | [] => fin 0
  | x :: xs => xs.foldl (fun a b => rnd53 (a + b)) x

/-- double precision without limits on the exponent; powers and logarithms correctly rounded -/
noncomputable def double : Arith where
  rnd := rnd53
  pow10 x := rnd53 (Flt.pow10 x)
  exp x := rnd53 (Flt.exp x)
  pow x n := rnd53 (fpow x n)
  log x := rnd53 (Flt.log x)
  log10 x := rnd53 (Flt.log10 x)
  sqrt x := rnd53 (Flt.sqrt x)
  sum := sum53

theorem double_sums (xs l : List Flt) (a : Flt) (hl : l ≠ []) (h : Sums double l a) :
    Sums double (l ++ xs) (xs.foldl (fun a b => rnd53 (a + b)) a) := by
  induction xs generalizing l a with
  | nil => simpa using h
  | cons x xs ih =>
    have := ih (l ++ [x]) (rnd53 (a + x)) (by simp) (.node hl (by simp) (List.Perm.refl _) h (.one x))
    simpa using this

theorem double_accurate : Accurate double (2 ^ (-53 : ℤ)) 1 where
  u0 := by positivity
  u1 := by norm_num
  rnd x := ⟨round53 x, rfl, round53_close x⟩
  pow10 x := by
    refine ⟨round53 ((10:ℝ) ^ x), by simp [double, rnd53], ?_⟩
    refine (Rel.refl (by positivity)).round (u := 2 ^ (-53 : ℤ)) ?_ ?_ (round53_close _) <;> norm_num
  pow x hx n := by
    refine ⟨round53 (x ^ n), by simp [double, rnd53], ?_⟩
    refine (Rel.refl (by positivity)).round (u := 2 ^ (-53 : ℤ)) ?_ ?_ (round53_close _) <;> norm_num
  sum xs := by
    cases xs with
    | nil => exact .nil
    | cons x xs => exact double_sums xs [x] x (by simp) (.one x)

/-- borate and an additional acid -/
noncomputable def rdTotals : Dict NpVal :=
  [("total_borate", .scalar (fin 4e-4)), ("total_alpha", .arr [fin 1e-5, fin 1e-5, fin 1e-5])]
/-- their constants -/
noncomputable def rdKs : Dict NpVal :=
  [("k_borate", .scalar (fin 2e-9)), ("k_water", .scalar (fin 5e-14)), ("k_alpha", .scalar (fin 1e-6))]

theorem rd_valid : ValidRows rdTotals rdKs 3 := by
  intro i hi
  have hi' : i = 0 ∨ i = 1 ∨ i = 2 := by omega
  constructor
  · intro k v hv
    rw [rowAt_get?] at hv
    simp only [rdTotals, Dict.get?] at hv
    split_ifs at hv
    · exact ⟨4e-4, by norm_num, by simpa [NpVal.at_] using hv.symm⟩
    · refine ⟨1e-5, by norm_num, ?_⟩
      rcases hi' with rfl | rfl | rfl <;> simpa [NpVal.at_] using hv.symm
    · simp at hv
  · intro k v hv
    rw [rowAt_get?] at hv
    simp only [rdKs, Dict.get?] at hv
    split_ifs at hv
    · exact ⟨2e-9, by norm_num, by simpa [NpVal.at_] using hv.symm⟩
    · exact ⟨5e-14, by norm_num, by simpa [NpVal.at_] using hv.symm⟩
    · exact ⟨1e-6, by norm_num, by simpa [NpVal.at_] using hv.symm⟩
    · simp at hv

theorem rd_has : HasKsN rdTotals rdKs 3 := by
  intro tk htk
  simp only [requiredKs] at htk
  simp at htk
  rcases htk with rfl | rfl | rfl | rfl | rfl | rfl | rfl | rfl | rfl | rfl | rfl | rfl | rfl <;>
    simp [rdTotals, rdKs, Dict.has, Dict.get?]

theorem rd_side : RoundSide double rdKs 3 := by
  have hlog : Real.logb 10 (1e-6 : ℝ) = -6 := by
    rw [show (1e-6 : ℝ) = (10:ℝ) ^ (-6 : ℝ) by rw [Real.rpow_neg (by norm_num)]; norm_num]
    exact Real.logb_rpow (by norm_num) (by norm_num)
  intro i hi k hk K hK
  rw [rowAt_get?] at hK
  simp only [List.mem_cons, List.not_mem_nil, or_false] at hk
  rcases hk with rfl | rfl
  · have hK' : K = 1e-6 := by simpa [rdKs, Dict.get?, NpVal.at_] using hK.symm
    subst hK'
    have hr := round53_close (-6)
    have h6 : |(-6:ℝ)| = 6 := by norm_num
    rw [h6] at hr
    obtain ⟨h1, h2⟩ := abs_le.mp hr
    have h3 : (2:ℝ) ^ (-53 : ℤ) * 6 ≤ 1 := by norm_num
    simp only [double, log10_fin _ (by norm_num : (0:ℝ) < 1e-6), hlog, rnd53, neg_fin, le_fin, zlp]
    have a1 : ¬ (-round53 (-6) ≤ (4.5:ℝ)) := by
      intro hc; norm_num at hc; linarith
    have a2 : ¬ (-(-6:ℝ) ≤ 4.5) := by norm_num
    rw [decide_eq_false a1, decide_eq_false a2]
  · simp [rdKs, Dict.get?] at hK

/-- Three points, two of them used: both versions give a result. -/
example : ∃ r' r, solve_pHF double (fin 0.1) ([0, 0.001, 0.0025].map fin) ([8, 3.5, 3.25].map fin) (fin 0.1)
      rdTotals rdKs { pH_min := fin 3, pH_max := fin 4, titrant_normality := fin 1 } = .ok r' ∧
    solve_pH (fin 0.1) ([0, 0.001, 0.0025].map fin) ([8, 3.5, 3.25].map fin) (fin 0.1)
      rdTotals rdKs { pH_min := fin 3, pH_max := fin 4, titrant_normality := fin 1 } = .ok r ∧
    r'.used = r.used ∧
    ∃ A' A : ℝ, r'.alkalinity = fin A' ∧ r.alkalinity = fin A ∧
      |A' - A| ≤ 2.5e-13 * rmean (mask ([8, 3.5, 3.25].map (inWin 3 4))
        (sizesAll 0.1 [0, 0.001, 0.0025] [8, 3.5, 3.25] 0.1 rdTotals rdKs 1)) := by
  have hm : ∀ m ∈ [(0:ℝ), 0.001, 0.0025], 0 ≤ m := by
    intro m hm; simp at hm; rcases hm with rfl | rfl | rfl <;> norm_num
  have hu : ∃ p ∈ [(8:ℝ), 3.5, 3.25], 3 ≤ p ∧ p ≤ 4 := ⟨3.5, by simp, by norm_num, by norm_num⟩
  have f1 : dictFits [(8:ℝ), 3.5, 3.25].length rdTotals = true := by simp [rdTotals, dictFits, NpVal.fits]
  have f2 : dictFits [(8:ℝ), 3.5, 3.25].length rdKs = true := by simp [rdKs, dictFits, NpVal.fits]
  obtain ⟨r', r, -, -, h1, h2, h3, -⟩ := C127_rounding double_accurate (c := 0.1) (n := 1) (M := 0.1) (lo := 3)
    (hi := 4) (tm := [0, 0.001, 0.0025]) (pH := [8, 3.5, 3.25]) rfl rd_valid rd_has f1 f2 rd_side
    (by norm_num) hm (by norm_num) hu
  exact ⟨r', r, h1, h2, h3, C127_double double_accurate (by norm_num)
    (tm := [0, 0.001, 0.0025]) (pH := [8, 3.5, 3.25]) rfl rd_valid rd_has f1 f2 rd_side
    (by norm_num) hm (by norm_num) hu ((List.length_filter_le _ _).trans (by simp)) h1 h2⟩

end Calk
