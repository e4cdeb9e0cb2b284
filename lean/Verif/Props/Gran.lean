import Verif.Lemmas.Gran

/-!
# Properties C18-C22: Gran estimates (`calkulate/core.py: gran_*`, `solve_pH_gran`), C72 (EMF)

A titration point is `(titrant mass, EMF, temperature)`; `Spec.gran M` is the textbook Gran
function, `Spec.nernst` the ideal electrode, `Spec.strongAcidH` the free [H+] past equivalence.
-/

namespace Calk
open Flt Spec

/-! ## C18 -/

/-- C18: with the default logic the used points are the suffix starting at the first point whose
Gran function exceeds 10 % of the maximum. -/
theorem C18_suffix (pts : List (ℝ × ℝ × ℝ)) (M : ℝ) (c n : Flt) (hM : 0 < M)
    (hm : ∀ p ∈ pts, 0 ≤ p.1) (hT : ∀ p ∈ pts, -273.15 < p.2.2) (r : GranAlk)
    (hr : gran_alkalinity (pts.map fun p => fin p.1) (pts.map fun p => fin p.2.1)
      (pts.map fun p => fin p.2.2) (fin M) c n "v23.7+" = .ok r) :
    ∃ k, ∃ hk : k < pts.length,
      r.used.length = pts.length ∧
      (∀ i, (hi : i < r.used.length) → (r.used[i] = true ↔ k ≤ i)) ∧
      (∀ q ∈ pts, 0.1 * gran M q < gran M pts[k]) ∧
      (∀ i, (hi : i < pts.length) → i < k → ∃ q ∈ pts, gran M pts[i] ≤ 0.1 * gran M q) := by
  have hne : pts ≠ [] := by
    rintro rfl
    simp [gran_alkalinity, sameShape3, bind_ok, zip3With, gran_used, npMax, bind_error] at hr
  have hpos : ∀ g ∈ pts.map (gran M), 0 < g := by
    intro g hg
    obtain ⟨p, hp, rfl⟩ := List.mem_map.mp hg
    exact gran_pos (by have := hm p hp; linarith)
  obtain ⟨k, mx, hmem, hle, ⟨hk, hgt⟩, hbelow, hu⟩ :=
    gran_used_default (gs := pts.map (gran M)) (by simpa using hne) hpos
  simp only [gran_alkalinity, sameShape3_map, bind_ok, gran_gfunc pts M hT, hu] at hr
  rw [bind_ok_iff] at hr
  obtain ⟨lr, -, hr⟩ := hr
  simp only [pure_ok, Except.ok.injEq] at hr
  subst hr
  have hk' : k < pts.length := by simpa using hk
  obtain ⟨qm, hqm, hqe⟩ := List.mem_map.mp hmem
  refine ⟨k, hk', ?_, ?_, ?_, ?_⟩
  · simp; omega
  · intro i hi
    simp only [List.getElem_append, List.length_replicate, List.getElem_replicate]
    by_cases h : i < k
    · simp [h]
    · simp [h]; omega
  · intro q hq
    have h1 := hle _ (List.mem_map.mpr ⟨q, hq, rfl⟩)
    have h2 : 0.1 * mx < gran M pts[k] := by simpa using hgt
    linarith
  · intro i hi hik
    have := hbelow i (by simpa using hi) hik
    rw [List.getElem_map] at this
    exact ⟨qm, hqm, by rw [hqe]; exact this⟩

/-- C18: the default logic never raises for lack of points, so whether the Gran fit succeeds
depends only on the regression. -/
theorem C18_nonempty (gs : List ℝ) (hne : gs ≠ []) (hpos : ∀ g ∈ gs, 0 < g) :
    ∃ u, gran_used (gs.map fin) "v23.7+" = .ok u ∧ u.length = gs.length ∧ true ∈ u := by
  obtain ⟨k, mx, -, -, ⟨hk, -⟩, -, hu⟩ := gran_used_default hne hpos
  exact ⟨_, hu, by simp; omega, by simp; omega⟩

/-- C18: the default logic uses the maximum and every point used by the legacy logic; the legacy
logic never uses the maximum. -/
theorem C18_legacy (pts : List (ℝ × ℝ × ℝ)) (M : ℝ) (c n : Flt) (hM : 0 < M)
    (hm : ∀ p ∈ pts, 0 ≤ p.1) (hT : ∀ p ∈ pts, -273.15 < p.2.2) (r r' : GranAlk)
    (hr : gran_alkalinity (pts.map fun p => fin p.1) (pts.map fun p => fin p.2.1)
      (pts.map fun p => fin p.2.2) (fin M) c n "v23.7+" = .ok r)
    (hr' : gran_alkalinity (pts.map fun p => fin p.1) (pts.map fun p => fin p.2.1)
      (pts.map fun p => fin p.2.2) (fin M) c n "legacy" = .ok r')
    (i : ℕ) (hi : i < pts.length) (h1 : i < r.used.length) (h2 : i < r'.used.length) :
    (r'.used[i] = true ↔ (∀ q ∈ pts, 0.1 * gran M q < gran M pts[i]) ∧
      ∃ q ∈ pts, gran M pts[i] < 0.9 * gran M q) ∧
    (r'.used[i] = true → r.used[i] = true) ∧
    ((∀ q ∈ pts, gran M q ≤ gran M pts[i]) → r.used[i] = true ∧ r'.used[i] = false) := by
  have hne : pts ≠ [] := List.ne_nil_of_length_pos (by omega)
  have hgp : ∀ p ∈ pts, 0 < gran M p := fun p hp => gran_pos (by have := hm p hp; linarith)
  obtain ⟨mx, hmem, hle, hu'⟩ := gran_used_legacy (gs := pts.map (gran M)) (by simpa using hne)
  simp only [gran_alkalinity, sameShape3_map, bind_ok, gran_gfunc pts M hT, hu'] at hr'
  rw [bind_ok_iff] at hr'
  obtain ⟨lr', -, hr'⟩ := hr'
  simp only [pure_ok, Except.ok.injEq] at hr'
  subst hr'
  obtain ⟨k, hk, hlen, hiff, hgt, hbelow⟩ := C18_suffix pts M c n hM hm hT r hr
  obtain ⟨qm, hqm, hqe⟩ := List.mem_map.mp hmem
  have hL : ((List.map (gran M) pts).map fun g => decide (0.1 * mx < g) && decide (g < 0.9 * mx))[i]'(by simpa using hi) = true
      ↔ (∀ q ∈ pts, 0.1 * gran M q < gran M pts[i]) ∧ ∃ q ∈ pts, gran M pts[i] < 0.9 * gran M q := by
    simp only [List.getElem_map, Bool.and_eq_true, decide_eq_true_eq]
    constructor
    · rintro ⟨ha, hb⟩
      refine ⟨fun q hq => ?_, qm, hqm, by rw [hqe]; exact hb⟩
      have := hle _ (List.mem_map.mpr ⟨q, hq, rfl⟩); linarith
    · rintro ⟨ha, q, hq, hb⟩
      have h3 := ha qm hqm
      have h4 := hle _ (List.mem_map.mpr ⟨q, hq, rfl⟩)
      rw [hqe] at h3
      exact ⟨h3, by linarith⟩
  have hback : (∀ q ∈ pts, 0.1 * gran M q < gran M pts[i]) → r.used[i] = true := by
    intro hall
    rw [hiff i h1]
    by_contra hlt
    obtain ⟨q, hq, hle'⟩ := hbelow i hi (by omega)
    exact absurd (hall q hq) (not_lt.mpr hle')
  refine ⟨hL, fun h => hback (hL.mp h).1, fun hmax => ⟨hback fun q hq => ?_, ?_⟩⟩
  · have := hmax q hq
    have := hgp q hq
    linarith
  · rw [← Bool.not_eq_true]
    intro h
    obtain ⟨-, q, hq, hlt⟩ := hL.mp h
    have := hmax q hq
    have := hgp q hq
    linarith

/-- Finding: the two logics really differ (EMF 0, so the Gran function is the mixture mass 1, 6,
10): the legacy logic drops the last point. -/
example : gran_used ([1, 6, 10].map fin) "v23.7+" = .ok [false, true, true] ∧
    gran_used ([1, 6, 10].map fin) "legacy" = .ok [false, true, false] := by
  have hne : ("legacy" : String) ≠ "v23.7+" := by decide
  constructor
  · norm_num [gran_used, npMax, fmax2, bind_ok, List.findIdx?, List.findIdx?.go, List.replicate]
  · rw [gran_used, if_neg hne]
    norm_num [npMax, fmax2, bind_ok]

/-! ## C19 -/

/-- C19: on ideal strong-acid data the default Gran estimates are exact, provided two of the points
that exceed 10 % of the largest excess acid have different titrant masses. -/
theorem C19_exact (A E0 t M c n : ℝ) (pts : List (ℝ × ℝ × ℝ))
    (hid : IdealStrongAcid A E0 t M c n pts) (ht : -273.15 < t) (hM : 0 < M) (hc : 0 < c)
    (hn : 0 < n)
    (h2 : ∃ p ∈ pts, ∃ q ∈ pts, p.1 ≠ q.1 ∧
      (∀ s ∈ pts, 0.1 * (s.1 * c * n - M * A) < p.1 * c * n - M * A) ∧
      (∀ s ∈ pts, 0.1 * (s.1 * c * n - M * A) < q.1 * c * n - M * A)) :
    ∃ r, gran_guesses (pts.map fun p => fin p.1) (pts.map fun p => fin p.2.1)
        (pts.map fun p => fin p.2.2) (fin M) (fin c) (fin n) "v23.7+" = .ok r ∧
      r.ga.alkalinity = fin A ∧ r.emf0 = fin E0 ∧
      r.emf0s = pts.map (fun _ => fin E0) ∧
      r.pH = pts.map fun p => fin (-Real.logb 10 (strongAcidH A M c n p.1)) := by
  obtain ⟨p, hp, q, hq, hpq, hp1, hq1⟩ := h2
  have hpos : ∀ g ∈ pts.map (gran M), 0 < g := by
    intro g hg
    obtain ⟨s, hs, rfl⟩ := List.mem_map.mp hg
    exact gran_pos (hid.mass s hs)
  obtain ⟨k, mx, hmem, hle, ⟨hk, hgt⟩, hbelow, hu⟩ :=
    gran_used_default (gs := pts.map (gran M)) (by simpa using List.ne_nil_of_mem hp) hpos
  obtain ⟨qm, hqm, hqe⟩ := List.mem_map.mp hmem
  have hin : ∀ s ∈ pts, (∀ s' ∈ pts, 0.1 * (s'.1 * c * n - M * A) < s.1 * c * n - M * A) →
      s ∈ mask (List.replicate k false ++ List.replicate ((pts.map (gran M)).length - k) true) pts := by
    intro s hs hall
    obtain ⟨i, hi, rfl⟩ := List.mem_iff_getElem.mp hs
    have hk' : k < pts.length := by simpa using hk
    refine mem_mask.mpr ⟨i, by simp; omega, hi, ?_, rfl⟩
    have hki : k ≤ i := by
      by_contra hlt
      have := hbelow i (by simpa using hi) (by omega)
      simp only [List.getElem_map] at this
      rw [hid.gran_eq ht hs, ← hqe, hid.gran_eq ht hqm] at this
      have h3 := hall qm hqm
      have hK := Real.exp_pos (E0 * 96.4853365 / (8.3144621 * (t + 273.15)))
      nlinarith
    simp only [List.getElem_append, List.length_replicate, List.getElem_replicate]
    simp [not_lt.mpr hki]
  obtain ⟨r, hr, -, h1, h2, h3, h4⟩ := gran_guesses_ideal hid ht hM hc hn hu
    ⟨p, hin p hp hp1, q, hin q hq hq1, hpq⟩
  exact ⟨r, hr, h1, h2, h3, h4⟩

/-- C19 for the legacy logic: two points strictly between 10 % and 90 % of the largest excess. -/
theorem C19_exact_legacy (A E0 t M c n : ℝ) (pts : List (ℝ × ℝ × ℝ))
    (hid : IdealStrongAcid A E0 t M c n pts) (ht : -273.15 < t) (hM : 0 < M) (hc : 0 < c)
    (hn : 0 < n)
    (h2 : ∃ p ∈ pts, ∃ q ∈ pts, p.1 ≠ q.1 ∧
      (∀ s ∈ pts, 0.1 * (s.1 * c * n - M * A) < p.1 * c * n - M * A) ∧
      (∀ s ∈ pts, 0.1 * (s.1 * c * n - M * A) < q.1 * c * n - M * A) ∧
      (∃ s ∈ pts, p.1 * c * n - M * A < 0.9 * (s.1 * c * n - M * A)) ∧
      (∃ s ∈ pts, q.1 * c * n - M * A < 0.9 * (s.1 * c * n - M * A))) :
    ∃ r, gran_guesses (pts.map fun p => fin p.1) (pts.map fun p => fin p.2.1)
        (pts.map fun p => fin p.2.2) (fin M) (fin c) (fin n) "legacy" = .ok r ∧
      r.ga.alkalinity = fin A ∧ r.emf0 = fin E0 ∧
      r.emf0s = pts.map (fun _ => fin E0) ∧
      r.pH = pts.map fun p => fin (-Real.logb 10 (strongAcidH A M c n p.1)) := by
  obtain ⟨p, hp, q, hq, hpq, hp1, hq1, hp2, hq2⟩ := h2
  obtain ⟨mx, hmem, hle, hu⟩ :=
    gran_used_legacy (gs := pts.map (gran M)) (by simpa using List.ne_nil_of_mem hp)
  obtain ⟨qm, hqm, hqe⟩ := List.mem_map.mp hmem
  have hK := Real.exp_pos (E0 * 96.4853365 / (8.3144621 * (t + 273.15)))
  have hin : ∀ s ∈ pts, (∀ s' ∈ pts, 0.1 * (s'.1 * c * n - M * A) < s.1 * c * n - M * A) →
      (∃ s' ∈ pts, s.1 * c * n - M * A < 0.9 * (s'.1 * c * n - M * A)) →
      s ∈ mask ((pts.map (gran M)).map fun g => decide (0.1 * mx < g) && decide (g < 0.9 * mx)) pts := by
    rintro s hs hall ⟨s', hs', hlt⟩
    obtain ⟨i, hi, rfl⟩ := List.mem_iff_getElem.mp hs
    refine mem_mask.mpr ⟨i, by simpa using hi, hi, ?_, rfl⟩
    simp only [List.getElem_map, Bool.and_eq_true, decide_eq_true_eq]
    have h5 := hle _ (List.mem_map.mpr ⟨s', hs', rfl⟩)
    rw [hid.gran_eq ht hs'] at h5
    rw [← hqe, hid.gran_eq ht hqm] at h5 ⊢
    rw [hid.gran_eq ht hs]
    have h6 := hall qm hqm
    constructor <;> nlinarith
  obtain ⟨r, hr, -, h1, h2, h3, h4⟩ := gran_guesses_ideal hid ht hM hc hn hu
    ⟨p, hin p hp hp1 hp2, q, hin q hq hq1 hq2, hpq⟩
  exact ⟨r, hr, h1, h2, h3, h4⟩

/-- C19, why two used points are needed: if the Gran function jumps by more than a factor of ten at
the last point, only that point is used and the Gran alkalinity is NaN (no exception is raised). -/
theorem C19_single_point_nan (M : ℝ) (c n : Flt) (init : List (ℝ × ℝ × ℝ)) (p : ℝ × ℝ × ℝ)
    (hm : ∀ q ∈ init ++ [p], 0 < q.1 + M) (hT : ∀ q ∈ init ++ [p], -273.15 < q.2.2)
    (hjump : ∀ q ∈ init, gran M q ≤ 0.1 * gran M p) :
    ∃ r, gran_guesses ((init ++ [p]).map fun p => fin p.1) ((init ++ [p]).map fun p => fin p.2.1)
        ((init ++ [p]).map fun p => fin p.2.2) (fin M) c n "v23.7+" = .ok r ∧
      r.ga.alkalinity = nan ∧ r.emf0 = nan := by
  have hpp : 0 < gran M p := gran_pos (hm p (by simp))
  obtain ⟨k, mx, hmem, hle, ⟨hk, hgt⟩, hbelow, hu⟩ :=
    gran_used_default (gs := (init ++ [p]).map (gran M)) (by simp) (by
      intro g hg
      obtain ⟨s, hs, rfl⟩ := List.mem_map.mp hg
      exact gran_pos (hm s hs))
  have hmx : mx = gran M p := by
    apply le_antisymm
    · obtain ⟨s, hs, rfl⟩ := List.mem_map.mp hmem
      rcases List.mem_append.mp hs with h | h
      · have := hjump s h; linarith
      · simp at h; rw [h]
    · exact hle _ (List.mem_map.mpr ⟨p, by simp, rfl⟩)
  have hkl : k = init.length := by
    have hk' : k < init.length + 1 := by simpa using hk
    by_contra hne
    have hlt : k < init.length := by omega
    have := hjump init[k] (List.getElem_mem _)
    simp only [List.getElem_map, List.getElem_append_left hlt] at hgt
    rw [hmx] at hgt
    linarith
  have hmask : ∀ {α : Type} (f : (ℝ × ℝ × ℝ) → α), mask (List.replicate k false ++
      List.replicate (((init ++ [p]).map (gran M)).length - k) true) ((init ++ [p]).map f) = [f p] := by
    intro α f
    have : ((init ++ [p]).map (gran M)).length - k = 1 := by simp [hkl]
    rw [this, mask_map, hkl]
    clear * -
    induction init with
    | nil => simp
    | cons a l ih => simpa [List.replicate_succ] using ih
  have hlr : ∀ x y : ℝ, linregress [fin x] [fin y]
      = .ok { slope := nan, intercept := nan, rvalue := fin 0 } := by
    intro x y
    simp only [linregress, npMax, npMin, List.foldl_nil, bind_ok, List.length_singleton, ne_eq,
      not_true_eq_false, if_false, lt_self_iff_false, decide_false, Bool.and_false,
      Bool.false_eq_true]
    have h00 : fin 0 / fin 0 = nan := by
      show (if (0:ℝ) = 0 then infMul 0 else _) = nan; simp
    simp [npMean, npSum, feq, Flt.div_fin _ _ (one_ne_zero : (1:ℝ) ≠ 0), h00, pure_ok]
  have hneg : (-nan : Flt) / nan * c * n / fin M = nan := by simp
  have hga : ∃ ga, gran_alkalinity ((init ++ [p]).map fun p => fin p.1)
      ((init ++ [p]).map fun p => fin p.2.1) ((init ++ [p]).map fun p => fin p.2.2) (fin M) c n
      "v23.7+" = .ok ga ∧ ga.alkalinity = nan ∧ ga.used = (List.replicate k false ++
      List.replicate (((init ++ [p]).map (gran M)).length - k) true) := by
    simp only [gran_alkalinity, sameShape3_map, bind_ok, gran_gfunc _ M hT, hu]
    rw [hmask, mask_map, hmask, List.map_singleton, hlr]
    simp only [bind_ok, pure_ok]
    exact ⟨_, rfl, hneg, rfl⟩
  obtain ⟨ga, hga, hA, hU⟩ := hga
  simp only [gran_guesses, hga, bind_ok, pure_ok]
  refine ⟨_, rfl, hA, ?_⟩
  simp only [hA, hU, zip3With_map]
  rw [hmask]
  simp [gran_emf0, npMean, npSum, Flt.log]

/-- a concrete ideal titration for C19: A = 0.5, three points -/
example : ∃ r, gran_guesses ([1, 2, 3].map fin)
      ([1, 2, 3].map fun m => fin (nernst 400 25 (strongAcidH 0.5 1 1 1 m))) ([25, 25, 25].map fin)
      (fin 1) (fin 1) (fin 1) "v23.7+" = .ok r ∧ r.ga.alkalinity = fin 0.5 ∧ r.emf0 = fin 400 := by
  obtain ⟨r, hr, h1, h2, -⟩ := C19_exact 0.5 400 25 1 1 1
    ([1, 2, 3].map fun m => (m, nernst 400 25 (strongAcidH 0.5 1 1 1 m), 25))
    ⟨by simp; norm_num, by simp; norm_num, by simp, by simp⟩ (by norm_num) (by norm_num)
    (by norm_num) (by norm_num)
    ⟨_, List.mem_map.mpr ⟨1, by simp, rfl⟩, _, List.mem_map.mpr ⟨2, by simp, rfl⟩, by norm_num,
      by simp; norm_num, by simp; norm_num⟩
  exact ⟨r, by simpa using hr, h1, h2⟩

/-! ## C20 -/

/-- C20: adding a constant `d` to all EMFs of an isothermal titration scales the Gran function,
keeps the used points, the Gran alkalinity and the pH guesses, and moves every Gran EMF0 by `d`.
Holds for arbitrary (also non-finite) data and both logics; failures are the same failures. -/
theorem C20_offset (tm emf : List Flt) (t d : ℝ) (ht : -273.15 < t) (M c n : Flt)
    (logic : String) (k : ℕ) :
    (∀ r, gran_guesses tm emf (List.replicate k (fin t)) M c n logic = .ok r →
      ∃ r', gran_guesses tm (emf.map fun e => e + fin d) (List.replicate k (fin t)) M c n logic
          = .ok r' ∧
        r'.ga.used = r.ga.used ∧ r'.ga.alkalinity = r.ga.alkalinity ∧
        r'.ga.gfunc = r.ga.gfunc.map
          (fun g => fin (Real.exp (d * 96.4853365 / (8.3144621 * (t + 273.15)))) * g) ∧
        r'.emf0 = r.emf0 + fin d ∧ r'.emf0s = r.emf0s.map (fun e => e + fin d) ∧ r'.pH = r.pH) ∧
    (∀ e, gran_guesses tm emf (List.replicate k (fin t)) M c n logic = .error e →
      gran_guesses tm (emf.map fun e => e + fin d) (List.replicate k (fin t)) M c n logic
        = .error e) := by
  have h := gran_guesses_shift tm emf t d ht M c n logic k
  constructor
  · intro r hr
    rw [hr] at h
    cases h2 : gran_guesses tm (emf.map fun e => e + fin d) (List.replicate k (fin t)) M c n logic with
    | error e => rw [h2] at h; exact h.elim
    | ok r' => rw [h2] at h; exact ⟨r', rfl, h⟩
  · intro e hr
    rw [hr] at h
    cases h2 : gran_guesses tm (emf.map fun e => e + fin d) (List.replicate k (fin t)) M c n logic with
    | error e' => rw [h2] at h; simp only at h; rw [h]
    | ok r' => rw [h2] at h; exact h.elim

/-! ## C21 -/

/-- C21: `solve_pH_gran` is exact on ideal strong-acid data: only the points in the window need to
be ideal, and two of them must have different masses. -/
theorem C21_exact (A M c n lo hi : ℝ) (pts : List (ℝ × ℝ)) (hw : lo < hi) (hM : 0 < M)
    (hc : 0 < c) (hn : 0 < n)
    (hid : ∀ p ∈ pts, lo ≤ p.2 → p.2 ≤ hi → (10:ℝ) ^ (-p.2) * (p.1 + M) = p.1 * c * n - M * A)
    (h2 : ∃ p ∈ pts, ∃ q ∈ pts, (lo ≤ p.2 ∧ p.2 ≤ hi) ∧ (lo ≤ q.2 ∧ q.2 ≤ hi) ∧ p.1 ≠ q.1) :
    ∃ r, solve_pH_gran (fin c) (pts.map fun p => fin p.1) (pts.map fun p => fin p.2) (fin M)
        { pH_min := fin lo, pH_max := fin hi, titrant_normality := fin n } = .ok r ∧
      r.alkalinity = fin (1e6 * A) := by
  obtain ⟨p, hp, q, hq, hpw, hqw, hpq⟩ := h2
  obtain ⟨lr, hlr, hsl, hin⟩ := linregress_exact
    (xs := (pts.filter fun p => decide (lo ≤ p.2) && decide (p.2 ≤ hi)).map (·.1)) (c * n) (-(M * A))
    ⟨p.1, List.mem_map.mpr ⟨p, by simp [hp, hpw], rfl⟩, q.1,
      List.mem_map.mpr ⟨q, by simp [hq, hqw], rfl⟩, hpq⟩
  rw [solve_pH_gran_eq _ _ _ _ _ _ hw]
  have hy : ((pts.filter fun p => decide (lo ≤ p.2) && decide (p.2 ≤ hi)).map
      fun p => fin ((p.1 + M) * (10:ℝ) ^ (-p.2)))
      = ((pts.filter fun p => decide (lo ≤ p.2) && decide (p.2 ≤ hi)).map (·.1)).map
        fun x => fin (c * n * x + -(M * A)) := by
    rw [List.map_map]
    apply List.map_congr_left
    intro s hs
    obtain ⟨hs1, hs2⟩ := List.mem_filter.mp hs
    simp only [Bool.and_eq_true, decide_eq_true_eq] at hs2
    have := hid s hs1 hs2.1 hs2.2
    simp only [Function.comp_apply, fin_inj]
    linarith
  simp only [hy, hlr, bind_ok, pure_ok]
  refine ⟨_, rfl, ?_⟩
  have hcn : c * n ≠ 0 := by positivity
  simp only [hsl, hin, neg_fin, div_fin _ _ hcn, mul_fin, div_fin _ _ hM.ne', fin_inj]
  field_simp

/-- two ideal points with A = 0.5 in the window 0..1 -/
example : ∃ r, solve_pH_gran (fin 1) ([1, 2].map fin)
      ([-Real.logb 10 0.25, -Real.logb 10 0.5].map fin) (fin 1)
      { pH_min := fin (-1), pH_max := fin 10, titrant_normality := fin 1 } = .ok r ∧
    r.alkalinity = fin (1e6 * 0.5) := by
  have h10 : ∀ y : ℝ, 0 < y → (10 : ℝ) ^ (Real.logb 10 y) = y := fun y hy =>
    Real.rpow_logb (by norm_num) (by norm_num) hy
  have hb : ∀ y : ℝ, 0.1 < y → y < 1 → -1 ≤ -Real.logb 10 y ∧ -Real.logb 10 y ≤ 10 := by
    intro y h1 h2
    constructor
    · have := Real.logb_nonpos (b := 10) (by norm_num) (by linarith) h2.le
      linarith
    · have : Real.logb 10 (10 ^ (-1 : ℝ)) ≤ Real.logb 10 y := by
        apply Real.logb_le_logb_of_le (by norm_num) (by positivity)
        rw [Real.rpow_neg (by norm_num)]; norm_num at h1 ⊢; linarith
      rw [Real.logb_rpow (by norm_num) (by norm_num)] at this
      linarith
  have := C21_exact 0.5 1 1 1 (-1) 10 [(1, -Real.logb 10 0.25), (2, -Real.logb 10 0.5)]
    (by norm_num) (by norm_num) (by norm_num) (by norm_num)
    (by
      intro p hp _ _
      simp only [List.mem_cons, List.not_mem_nil, or_false] at hp
      rcases hp with rfl | rfl
      · rw [neg_neg, h10 _ (by norm_num)]; norm_num
      · rw [neg_neg, h10 _ (by norm_num)]; norm_num)
    ⟨(1, -Real.logb 10 0.25), by simp, (2, -Real.logb 10 0.5), by simp, hb _ (by norm_num) (by norm_num),
      hb _ (by norm_num) (by norm_num), by norm_num⟩
  simpa using this

/-- C21: the result is proportional to the titrant molinity, for arbitrary (also non-finite) data;
failures do not depend on the molinity. -/
theorem C21_proportional (k : ℝ) (hk : 0 < k) (c M : Flt) (tm pH : List Flt) (o : PHOpts) :
    (∀ r, solve_pH_gran c tm pH M o = .ok r →
      ∃ r', solve_pH_gran (fin k * c) tm pH M o = .ok r' ∧
        r'.alkalinity = fin k * r.alkalinity ∧ r'.used = r.used ∧ r'.gfunc = r.gfunc) ∧
    (∀ e, solve_pH_gran c tm pH M o = .error e → solve_pH_gran (fin k * c) tm pH M o = .error e) := by
  have hkey : ∀ x n : Flt, fin 1e6 * (x * (fin k * c) * n / M) = fin k * (fin 1e6 * (x * c * n / M)) := by
    intro x n
    rw [mul_left_scale hk, scale_mul hk, scale_div hk, mul_left_scale hk]
  constructor
  · intro r hr
    simp only [solve_pH_gran, bind_ok_iff, pure_ok, Except.ok.injEq] at hr ⊢
    obtain ⟨_, h1, _, h2, lr, h3, rfl⟩ := hr
    exact ⟨_, ⟨_, h1, _, h2, lr, h3, rfl⟩, hkey _ _, rfl, rfl⟩
  · intro e hr
    simp only [solve_pH_gran] at hr ⊢
    cases h1 : pyAssert (o.pH_min.lt o.pH_max) with
    | error e1 => rw [h1] at hr; simpa [bind_error] using hr
    | ok _ =>
    cases h2 : sameShape2 tm pH with
    | error e1 => rw [h1, h2] at hr; simpa [bind_ok, bind_error] using hr
    | ok _ =>
    cases h3 : linregress (mask (pH_used pH o.pH_min o.pH_max) tm)
        (mask (pH_used pH o.pH_min o.pH_max)
          (List.zipWith (fun m p => (m + M) * Flt.pow10 (-p)) tm pH)) with
    | error e1 => rw [h1, h2] at hr; simp only [bind_ok, h3] at hr ⊢; simpa [bind_error] using hr
    | ok lr => rw [h1, h2] at hr; simp only [bind_ok, h3, pure_ok] at hr; cases hr

/-! ## C22 -/

/-- C22: any other `gran_logic` raises (given arrays of equal shape), in the Gran functions and in
the EMF solver, whatever the data. -/
theorem C22_unknown_logic (logic : String) (h1 : logic ≠ "v23.7+") (h2 : logic ≠ "legacy")
    (tm emf T : List Flt) (M c n : Flt) (hl : tm.length = emf.length) (hl' : emf.length = T.length) :
    gran_alkalinity tm emf T M c n logic = .error .Exception ∧
    gran_guesses tm emf T M c n logic = .error .Exception ∧
    ∀ ls totals ks o double, o.gran_logic = logic → o.titrant_normality = n →
      solve_emf ls c tm emf T M totals ks o double = .error .Exception := by
  have hga : gran_alkalinity tm emf T M c n logic = .error .Exception := by
    simp [gran_alkalinity, sameShape3, hl, hl', bind_ok, gran_used, h1, h2, bind_error]
  have hgg : gran_guesses tm emf T M c n logic = .error .Exception := by
    simp [gran_guesses, hga]
  refine ⟨hga, hgg, ?_⟩
  intro ls totals ks o double ho hn
  rw [solve_emf, ho, hn, hgg]
  rfl

/-! ## C72, EMF mode -/

/-- C72: one NaN EMF reading anywhere makes the EMF solver fail for the whole titration: the
default Gran selection raises `IndexError`, the legacy one leaves nothing to fit. -/
theorem C72_nan_emf_fails (tm emf T : List Flt) (M c : Flt) (hl : tm.length = emf.length)
    (hl' : emf.length = T.length) (hnan : nan ∈ emf) (ls : LsFun (Flt × Flt))
    (totals ks : Dict NpVal) (o : EmfOpts) (double : Bool) :
    (o.gran_logic = "v23.7+" →
      solve_emf ls c tm emf T M totals ks o double = .error .IndexError) ∧
    (o.gran_logic = "legacy" →
      solve_emf ls c tm emf T M totals ks o double = .error .ValueError) := by
  have hg : nan ∈ zip3With (fun m e t => gran_function m e t M) tm emf T := by
    obtain ⟨i, hi, hn⟩ := List.mem_iff_getElem.mp hnan
    rw [List.mem_iff_getElem]
    refine ⟨i, by simp [zip3With]; omega, ?_⟩
    simp [zip3With, gran_function, hn, Flt.exp]
  have hs : sameShape3 tm emf T = .ok () := by simp [sameShape3, hl, hl']
  constructor
  · intro ho
    have hu : gran_used (zip3With (fun m e t => gran_function m e t M) tm emf T) "v23.7+"
        = .error .IndexError := by
      have : (List.map (fun g => (fin 0.1 * nan).lt g)
          (zip3With (fun m e t => gran_function m e t M) tm emf T)).findIdx? id = none := by
        rw [List.findIdx?_eq_none_iff]; simp
      simp only [gran_used, if_true, npMax_nan hg, bind_ok, this]
    rw [solve_emf, ho]
    simp only [gran_guesses, gran_alkalinity, hs, bind_ok, hu, bind_error]
  · intro ho
    have hu : gran_used (zip3With (fun m e t => gran_function m e t M) tm emf T) "legacy"
        = .ok ((zip3With (fun m e t => gran_function m e t M) tm emf T).map fun _ => false) := by
      have hne : ("legacy" : String) ≠ "v23.7+" := by decide
      simp only [gran_used, hne, if_false, if_true, npMax_nan hg, bind_ok, pure_ok]
      simp
    have hm : ∀ xs : List Flt, mask ((zip3With (fun m e t => gran_function m e t M) tm emf T).map
        fun _ => false) xs = [] := by
      intro xs; apply mask_all_false; simp
    rw [solve_emf, ho]
    simp only [gran_guesses, gran_alkalinity, hs, bind_ok, hu, hm]
    simp [linregress, npMax, bind_error]

end Calk
