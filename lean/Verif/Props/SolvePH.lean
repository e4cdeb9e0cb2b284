import Verif.Lemmas.SolvePH

/-!
# Properties C13-C17: the pH solver (`calkulate/core.py: solve_pH`)

`specAlk totals ks i p` is the textbook (Spec) alkalinity of the solution at point `i` at pH `p`.
`ValidRows`: totals finite and non-negative, constants finite and positive at every point.
`HasKsN`: every total present has its constants.  `dictFits`: entries have one value or one per
point.
-/

namespace Calk
open Flt Spec

/-! ## C13 -/

/-- C13: exact data give back the alkalinity (`A` in mol/kg) with zero spread. -/
theorem C13_exact (A c n M lo hi : ℝ) (tm pH : List ℝ) (totals ks : Dict NpVal)
    (hl : tm.length = pH.length) (hw : lo < hi) (hM : 0 < M) (hm : ∀ m ∈ tm, 0 < m + M)
    (hv : ValidRows totals ks pH.length) (hk : HasKsN totals ks 3)
    (hf : dictFits pH.length totals = true) (hf' : dictFits pH.length ks = true)
    (hbal : ∀ i, (h : i < pH.length) →
      specAlk totals ks i pH[i] * (tm[i] + M) = A * M - tm[i] * c * n)
    (hin : ∃ p ∈ pH, lo ≤ p ∧ p ≤ hi) :
    ∃ r, solve_pH (fin c) (tm.map fin) (pH.map fin) (fin M) totals ks
        { pH_min := fin lo, pH_max := fin hi, titrant_normality := fin n } = .ok r ∧
      r.alkalinity = fin (1e6 * A) ∧ r.alkalinity_std = fin 0 ∧
      r.alkalinity_all = List.replicate pH.length (fin (1e6 * A)) := by
  have hall : phAllR c tm pH M totals ks n = List.replicate pH.length (1e6 * A) := by
    apply List.ext_getElem
    · simp [phAllR, hl]
    · intro i h1 h2
      have hi' : i < pH.length := by simpa using h2
      simp only [phAllR, List.getElem_zipWith, List.getElem_zipIdx, List.getElem_replicate, ptR,
        Nat.zero_add]
      rw [hbal i hi']
      field_simp
      ring
  refine ⟨_, solve_pH_eq (by simpa using hw) hk (by simpa using hf) (by simpa using hf')
    (by simpa using hl), ?_, ?_, ?_⟩
  all_goals simp only [phRes, phAll_fin hv hk hM hm, hall, pH_used_fin]
  · rw [mask_map, npMean_map_fin, rmean_const _ (1e6 * A)]
    · apply mask_ne_nil (by simp)
      obtain ⟨p, hp, h1, h2⟩ := hin
      exact List.mem_map.mpr ⟨p, hp, by simp [inWin, h1, h2]⟩
    · intro x hx; exact List.eq_of_mem_replicate (mem_of_mem_mask hx)
    · apply mask_ne_nil (by simp)
      obtain ⟨p, hp, h1, h2⟩ := hin
      exact List.mem_map.mpr ⟨p, hp, by simp [inWin, h1, h2]⟩
  · rw [mask_map, npStd_map_fin, rstd_const _ (1e6 * A)]
    · apply mask_ne_nil (by simp)
      obtain ⟨p, hp, h1, h2⟩ := hin
      exact List.mem_map.mpr ⟨p, hp, by simp [inWin, h1, h2]⟩
    · intro x hx; exact List.eq_of_mem_replicate (mem_of_mem_mask hx)
    · apply mask_ne_nil (by simp)
      obtain ⟨p, hp, h1, h2⟩ := hin
      exact List.mem_map.mpr ⟨p, hp, by simp [inWin, h1, h2]⟩
  · simp

/-- Pure strong acid into pure salt water: totals and constants empty, so alkalinity is `-h`;
two points. -/
example : ∃ r, solve_pH (fin 1) ([1, 2].map fin) ([-Real.logb 10 0.25, -Real.logb 10 0.5].map fin)
      (fin 1) [] [] { pH_min := fin 0, pH_max := fin 1, titrant_normality := fin 1 } = .ok r ∧
      r.alkalinity = fin (1e6 * 0.5) ∧ r.alkalinity_std = fin 0 ∧
      r.alkalinity_all = List.replicate 2 (fin (1e6 * 0.5)) := by
  have hs : ∀ i x, specAlk [] [] i x = -(10 : ℝ) ^ (-x) := by
    intro i x
    simp [specAlk, rowAt, Dict.mapKV, Sol.alk, Sol.of, rval, carbAlk, base, phosAlk, extraAlk, acid]
  have h10 : ∀ y : ℝ, 0 < y → (10 : ℝ) ^ (Real.logb 10 y) = y := fun y hy =>
    Real.rpow_logb (by norm_num) (by norm_num) hy
  refine C13_exact 0.5 1 1 1 0 1 [1, 2] _ [] [] rfl (by norm_num) (by norm_num) ?_ ?_ ?_ rfl rfl ?_ ?_
  · intro m hm; simp at hm; rcases hm with rfl | rfl <;> norm_num
  · intro i _; constructor <;> (intro k v hv; simp [rowAt, Dict.mapKV] at hv)
  · intro tk _ h; simp [Dict.has] at h
  · intro i h
    match i, h with
    | 0, _ => simp only [hs, List.getElem_cons_zero, neg_neg, h10 0.25 (by norm_num)]; norm_num
    | 1, _ => simp only [hs, List.getElem_cons_succ, List.getElem_cons_zero, neg_neg,
                h10 0.5 (by norm_num)]; norm_num
  · refine ⟨-Real.logb 10 0.5, by simp, ?_, ?_⟩
    · have : Real.logb 10 0.5 ≤ 0 := Real.logb_nonpos (by norm_num) (by norm_num) (by norm_num)
      linarith
    · have : Real.logb 10 (10 ^ (-1 : ℝ)) ≤ Real.logb 10 0.5 := by
        apply Real.logb_le_logb_of_le (by norm_num) (by positivity)
        rw [Real.rpow_neg (by norm_num)]; norm_num
      rw [Real.logb_rpow (by norm_num) (by norm_num)] at this
      linarith

/-! ## C14 -/

/-- C14: exactly the points inside the closed window are used (NaN never is). -/
theorem C14_window (c : Flt) (tm pH : List Flt) (M : Flt) (totals ks : Dict NpVal) (o : PHOpts)
    (r : SolvePH) (h : solve_pH c tm pH M totals ks o = .ok r) :
    r.used.length = pH.length ∧
    (∀ i, (h1 : i < pH.length) → (h2 : i < r.used.length) →
      (r.used[i] = true ↔ (o.pH_min.le pH[i] = true ∧ pH[i].le o.pH_max = true))) ∧
    (∀ i, (h1 : i < pH.length) → (h2 : i < r.used.length) → pH[i] = nan → r.used[i] = false) := by
  obtain ⟨-, -, -, -, -, rfl⟩ := solve_pH_ok h
  refine ⟨by simp [phRes, pH_used], ?_, ?_⟩
  · intro i h1 h2; simp [phRes, pH_used]
  · intro i h1 h2 hn
    simp only [phRes, pH_used, List.getElem_map, hn]
    cases o.pH_min <;> simp [Flt.le]

/-- C14: the result is the mean of the used point estimates, and each point estimate is
`1e6 (alk (m+M) + m c n) / M`, `alk` being the textbook alkalinity at that point. -/
theorem C14_mean (c n M lo hi : ℝ) (tm pH : List ℝ) (totals ks : Dict NpVal)
    (hl : tm.length = pH.length) (hw : lo < hi) (hM : 0 < M) (hm : ∀ m ∈ tm, 0 < m + M)
    (hv : ValidRows totals ks pH.length) (hk : HasKsN totals ks 3)
    (hf : dictFits pH.length totals = true) (hf' : dictFits pH.length ks = true)
    (hin : ∃ p ∈ pH, lo ≤ p ∧ p ≤ hi) :
    ∃ (r : SolvePH) (est : List ℝ),
      solve_pH (fin c) (tm.map fin) (pH.map fin) (fin M) totals ks
        { pH_min := fin lo, pH_max := fin hi, titrant_normality := fin n } = .ok r ∧
      est.length = pH.length ∧
      (∀ i, (h : i < pH.length) → (he : i < est.length) →
        est[i] = 1e6 * (specAlk totals ks i pH[i] * (tm[i] + M) + tm[i] * c * n) / M) ∧
      r.alkalinity_all = est.map fin ∧
      r.alkalinity = fin ((mask (pH.map fun p => decide (lo ≤ p) && decide (p ≤ hi)) est).sum /
        (pH.filter fun p => decide (lo ≤ p) && decide (p ≤ hi)).length) := by
  have hlen : (phAllR c tm pH M totals ks n).length = pH.length := by simp [phAllR, hl]
  refine ⟨_, phAllR c tm pH M totals ks n, solve_pH_eq (by simpa using hw) hk (by simpa using hf)
    (by simpa using hf') (by simpa using hl), hlen, ?_, ?_, ?_⟩
  · intro i h he
    simp [phAllR, ptR]
  · simp only [phRes, phAll_fin hv hk hM hm]
  · simp only [phRes, phAll_fin hv hk hM hm, pH_used_fin]
    rw [mask_map, npMean_map_fin]
    · have : (mask (List.map (inWin lo hi) pH) (phAllR c tm pH M totals ks n)).length
          = (pH.filter (inWin lo hi)).length := by
        rw [← mask_eq_filter]; exact mask_length_eq hlen
      simp only [rmean, this]
      rfl
    · apply mask_ne_nil (by simp [hlen])
      obtain ⟨p, hp, h1, h2⟩ := hin
      exact List.mem_map.mpr ⟨p, hp, by simp [inWin, h1, h2]⟩

/-- C14: data outside the window do not matter: two titrations that have the same points inside
the window, and agree there (masses, pH, totals, constants), give the same result. -/
theorem C14_outside_irrelevant (c M : Flt) (tm pH tm' pH' : List Flt)
    (totals ks totals' ks' : Dict NpVal) (o : PHOpts) (r r' : SolvePH)
    (hlen : pH'.length = pH.length)
    (hr : solve_pH c tm pH M totals ks o = .ok r)
    (hr' : solve_pH c tm' pH' M totals' ks' o = .ok r')
    (hin : ∀ i, (h : i < pH.length) → (h' : i < pH'.length) →
      ((o.pH_min.le pH[i] && pH[i].le o.pH_max) = (o.pH_min.le pH'[i] && pH'[i].le o.pH_max)))
    (hsame : ∀ i, (h : i < pH.length) → (h' : i < pH'.length) →
      (ht : i < tm.length) → (ht' : i < tm'.length) →
      (o.pH_min.le pH[i] && pH[i].le o.pH_max) = true →
      pH[i] = pH'[i] ∧ tm[i] = tm'[i] ∧ rowAt totals i = rowAt totals' i ∧
        rowAt ks i = rowAt ks' i) :
    r.alkalinity = r'.alkalinity ∧ r.alkalinity_std = r'.alkalinity_std := by
  obtain ⟨-, -, -, -, hl, rfl⟩ := solve_pH_ok hr
  obtain ⟨-, -, -, -, hl', rfl⟩ := solve_pH_ok hr'
  have hu : pH_used pH' o.pH_min o.pH_max = pH_used pH o.pH_min o.pH_max := by
    apply List.ext_getElem
    · simp [pH_used, hlen]
    · intro i h1 h2
      simp only [pH_used, List.getElem_map]
      exact (hin i (by simpa [pH_used] using h2) (by simpa [pH_used] using h1)).symm
  have hm : mask (pH_used pH o.pH_min o.pH_max) (phAll c tm pH M totals ks o.titrant_normality)
      = mask (pH_used pH o.pH_min o.pH_max) (phAll c tm' pH' M totals' ks' o.titrant_normality) := by
    refine mask_congr (by rw [phAll_length hl]; simp [pH_used])
      (by rw [phAll_length hl']; simp [pH_used, hlen]) ?_
    · intro i h1 h2
      have h1' : i < pH.length := by simpa [pH_used] using h1
      rw [phAll_getElem h1' (by omega), phAll_getElem (by omega) (by omega)]
      obtain ⟨e1, e2, e3, e4⟩ := hsame i h1' (by omega) (by omega) (by omega)
        (by simpa [pH_used] using h2)
      rw [← e1, ← e2]
      simp only [alkAt, e3, e4]
  simp only [phRes, hu, hm, and_self]

/-- C14: the result lies between the smallest and the largest used estimate. -/
theorem C14_between (c n M lo hi : ℝ) (tm pH : List ℝ) (totals ks : Dict NpVal) (r : SolvePH)
    (a b : ℝ) (hM : 0 < M) (hm : ∀ m ∈ tm, 0 < m + M)
    (hv : ValidRows totals ks pH.length)
    (hr : solve_pH (fin c) (tm.map fin) (pH.map fin) (fin M) totals ks
        { pH_min := fin lo, pH_max := fin hi, titrant_normality := fin n } = .ok r)
    (hin : ∃ p ∈ pH, lo ≤ p ∧ p ≤ hi)
    (hab : ∀ i, (h1 : i < r.used.length) → (h2 : i < r.alkalinity_all.length) → r.used[i] = true →
      (fin a).le r.alkalinity_all[i] = true ∧ r.alkalinity_all[i].le (fin b) = true) :
    (fin a).le r.alkalinity = true ∧ r.alkalinity.le (fin b) = true := by
  obtain ⟨-, hk, -, -, hl, rfl⟩ := solve_pH_ok hr
  have hne : mask (List.map (inWin lo hi) pH) (phAllR c tm pH M totals ks n) ≠ [] := by
    have hl2 : tm.length = pH.length := by simpa using hl
    apply mask_ne_nil (by simp [phAllR, hl2])
    obtain ⟨p, hp, h1, h2⟩ := hin
    exact List.mem_map.mpr ⟨p, hp, by simp [inWin, h1, h2]⟩
  simp only [phRes, phAll_fin hv hk hM hm, pH_used_fin] at hab ⊢
  rw [mask_map, npMean_map_fin _ hne]
  have hb : ∀ x ∈ mask (List.map (inWin lo hi) pH) (phAllR c tm pH M totals ks n), a ≤ x ∧ x ≤ b := by
    intro x hx
    obtain ⟨i, h1, h2, h3, rfl⟩ := mem_mask.mp hx
    have := hab i h1 (by simpa using h2) h3
    simpa using this
  simp only [le_fin, decide_eq_true_eq]
  exact ⟨le_rmean _ _ hne fun x hx => (hb x hx).1, rmean_le _ _ hne fun x hx => (hb x hx).2⟩

/-! ## C15 -/

/-- C15: reordering the points (masses, pH, totals and constants alike) changes neither the
alkalinity nor its standard deviation. -/
theorem C15_order (c M : Flt) (tm pH : List Flt) (totals ks : Dict NpVal) (o : PHOpts)
    (r : SolvePH) (idx : List ℕ) (hperm : idx.Perm (List.range pH.length))
    (hr : solve_pH c tm pH M totals ks o = .ok r) :
    ∃ r', solve_pH c (pick nan idx tm) (pick nan idx pH) M (reindexD idx totals) (reindexD idx ks) o
        = .ok r' ∧ r'.alkalinity = r.alkalinity ∧ r'.alkalinity_std = r.alkalinity_std := by
  obtain ⟨hw, hk, hf, hf', hl, rfl⟩ := solve_pH_ok hr
  have hidx : ∀ i ∈ idx, i < pH.length := fun i hi => by simpa using hperm.mem_iff.mp hi
  have h0 : pH.length = 0 → idx = [] := by
    intro h0; rw [h0] at hperm; simpa using hperm
  have hlen : (pick nan idx pH).length = idx.length := by simp [pick]
  refine ⟨_, solve_pH_eq hw (hasKsN_reindex.mpr hk) (by rw [hlen]; exact reindexD_fits hf h0)
    (by rw [hlen]; exact reindexD_fits hf' h0) (by simp [pick]), ?_⟩
  have hu : pH_used (pick nan idx pH) o.pH_min o.pH_max
      = pick false idx (pH_used pH o.pH_min o.pH_max) := by
    simp only [pH_used, pick, List.map_map]
    apply List.map_congr_left
    intro i hi
    have := hidx i hi
    simp [List.getD_eq_getElem?_getD, List.getElem?_eq_getElem this]
  have ha : phAll c (pick nan idx tm) (pick nan idx pH) M (reindexD idx totals) (reindexD idx ks)
      o.titrant_normality = pick nan idx (phAll c tm pH M totals ks o.titrant_normality) := by
    unfold phAll
    rw [alkList_reindex hf hf' hidx]
    simp only [pick, zipWith_map_same]
    apply List.map_congr_left
    intro i hi
    have h1 := hidx i hi
    have h2 : i < (alkList totals ks 3 pH).length := by rw [alkList_length]; exact h1
    have h3 : i < tm.length := by omega
    have h4 : i < (List.zipWith (fun a m => point_alkalinity c o.titrant_normality M a m)
      (alkList totals ks 3 pH) tm).length := by simp [h2, h3]
    rw [List.getD_eq_getElem?_getD, List.getElem?_eq_getElem h2, List.getD_eq_getElem?_getD,
      List.getElem?_eq_getElem h3, List.getD_eq_getElem?_getD, List.getElem?_eq_getElem h4]
    simp
  have hp : (mask (pick false idx (pH_used pH o.pH_min o.pH_max))
      (pick nan idx (phAll c tm pH M totals ks o.titrant_normality))).Perm
      (mask (pH_used pH o.pH_min o.pH_max) (phAll c tm pH M totals ks o.titrant_normality)) := by
    unfold mask
    apply List.Perm.map
    apply List.Perm.filter
    have hz : (pick false idx (pH_used pH o.pH_min o.pH_max)).zip
        (pick nan idx (phAll c tm pH M totals ks o.titrant_normality))
        = idx.map fun i => ((pH_used pH o.pH_min o.pH_max).getD i false,
            (phAll c tm pH M totals ks o.titrant_normality).getD i nan) := by
      simp only [pick, List.zip, zipWith_map_same]
    rw [hz]
    have hz2 : (pH_used pH o.pH_min o.pH_max).zip (phAll c tm pH M totals ks o.titrant_normality)
        = (List.range pH.length).map fun i => ((pH_used pH o.pH_min o.pH_max).getD i false,
            (phAll c tm pH M totals ks o.titrant_normality).getD i nan) := by
      apply List.ext_getElem
      · simp [pH_used, phAll_length hl]
      · intro i h1 h2
        have hi : i < pH.length := by simpa using h2
        have e1 : i < (pH_used pH o.pH_min o.pH_max).length := by simpa [pH_used] using hi
        have e2 : i < (phAll c tm pH M totals ks o.titrant_normality).length := by
          rw [phAll_length hl]; exact hi
        simp [List.getD_eq_getElem?_getD, List.getElem?_eq_getElem e1, List.getElem?_eq_getElem e2]
    rw [hz2]
    exact hperm.map _
  simp only [phRes, hu, ha]
  exact ⟨npMean_perm hp, npStd_perm hp⟩

/-! ## C16 -/

/-- C16: an empty or reversed (or NaN) window raises `AssertionError` in both pH solvers,
whatever the data. -/
theorem C16_bad_window_pH (c M : Flt) (tm pH : List Flt) (totals ks : Dict NpVal) (o : PHOpts)
    (h : o.pH_min.lt o.pH_max = false) :
    solve_pH c tm pH M totals ks o = .error .AssertionError ∧
    solve_pH_gran c tm pH M o = .error .AssertionError := by
  constructor
  · simp [solve_pH, pyAssert, h, bind_error]
  · simp [solve_pH_gran, pyAssert, h, bind_error]

/-- C16: in the EMF solver a bad window never gives a result; the exception is
`AssertionError` unless the Gran estimate had already raised. -/
theorem C16_bad_window_emf (ls : LsFun (Flt × Flt)) (c M : Flt) (tm emf T : List Flt)
    (totals ks : Dict NpVal) (o : EmfOpts) (double : Bool) (h : o.pH_min.lt o.pH_max = false) :
    solve_emf ls c tm emf T M totals ks o double =
      match gran_guesses tm emf T M c o.titrant_normality o.gran_logic with
      | .ok _ => .error .AssertionError
      | .error e => .error e := by
  rw [solve_emf]
  cases gran_guesses tm emf T M c o.titrant_normality o.gran_logic with
  | error e => rfl
  | ok g => simp [bind_ok, pyAssert, h, bind_error]

/-- C16: a valid window without any point gives NaN, not an exception. -/
theorem C16_empty_window (c M : Flt) (tm pH : List Flt) (totals ks : Dict NpVal) (o : PHOpts)
    (hl : tm.length = pH.length) (hw : o.pH_min.lt o.pH_max = true) (hk : HasKsN totals ks 3)
    (hf : dictFits pH.length totals = true) (hf' : dictFits pH.length ks = true)
    (hout : ∀ p ∈ pH, o.pH_min.le p = false ∨ p.le o.pH_max = false) :
    ∃ r, solve_pH c tm pH M totals ks o = .ok r ∧ r.alkalinity = nan ∧ r.alkalinity_std = nan := by
  have : true ∉ pH_used pH o.pH_min o.pH_max := by
    intro h
    obtain ⟨p, hp, he⟩ := List.mem_map.mp h
    rcases hout p hp with h1 | h1 <;> simp [h1] at he
  refine ⟨_, solve_pH_eq hw hk hf hf' hl, ?_, ?_⟩
  · simp [phRes, mask_all_false this]
  · simp [phRes, mask_all_false this]

example : ∃ r, solve_pH (fin 0.1) [fin 0, fin 1] [fin 8, fin 7] (fin 1) [] [] {} = .ok r ∧
    r.alkalinity = nan ∧ r.alkalinity_std = nan := by
  refine C16_empty_window _ _ [fin 0, fin 1] [fin 8, fin 7] _ _ _ rfl ?_ ?_ ?_ ?_ ?_
  · simp; norm_num
  · intro tk _ h; simp [Dict.has] at h
  · rfl
  · rfl
  · intro p hp
    right
    simp only [List.mem_cons, List.not_mem_nil, or_false] at hp
    rcases hp with rfl | rfl <;> simp <;> norm_num

/-! ## C17 -/

/-- C17: with fixed totals, `solve_pH` is affine in the titrant molinity with slope
`1e6 n mean(m / M)` over the used points. -/
theorem C17_affine (n M lo hi : ℝ) (tm pH : List ℝ) (totals ks : Dict NpVal)
    (hl : tm.length = pH.length) (hw : lo < hi) (hM : 0 < M) (hm : ∀ m ∈ tm, 0 < m + M)
    (hv : ValidRows totals ks pH.length) (hk : HasKsN totals ks 3)
    (hf : dictFits pH.length totals = true) (hf' : dictFits pH.length ks = true)
    (hin : ∃ p ∈ pH, lo ≤ p ∧ p ≤ hi) :
    ∃ a0 : ℝ, ∀ c : ℝ, ∃ r,
      solve_pH (fin c) (tm.map fin) (pH.map fin) (fin M) totals ks
        { pH_min := fin lo, pH_max := fin hi, titrant_normality := fin n } = .ok r ∧
      r.alkalinity = fin (a0 + c * (1e6 * n *
        (((mask (pH.map fun p => decide (lo ≤ p) && decide (p ≤ hi)) tm).map fun m => m / M).sum /
          (pH.filter fun p => decide (lo ≤ p) && decide (p ≤ hi)).length))) := by
  have hlen : ∀ c, (phAllR c tm pH M totals ks n).length = pH.length := by
    intro c; simp [phAllR, hl]
  have hne : ∀ c, mask (List.map (inWin lo hi) pH) (phAllR c tm pH M totals ks n) ≠ [] := by
    intro c
    apply mask_ne_nil (by simp [hlen])
    obtain ⟨p, hp, h1, h2⟩ := hin
    exact List.mem_map.mpr ⟨p, hp, by simp [inWin, h1, h2]⟩
  have hcnt : ∀ c, (mask (List.map (inWin lo hi) pH) (phAllR c tm pH M totals ks n)).length
      = (pH.filter (inWin lo hi)).length := by
    intro c; rw [← mask_eq_filter]; exact mask_length_eq (hlen c)
  have hpos : (0 : ℝ) < (pH.filter (inWin lo hi)).length := by
    rw [← hcnt 0]; exact_mod_cast List.length_pos_iff.mpr (hne 0)
  have hsum : ∀ c, (mask (List.map (inWin lo hi) pH) (phAllR c tm pH M totals ks n)).sum
      = (mask (List.map (inWin lo hi) pH) (phAllR 0 tm pH M totals ks n)).sum
        + c * (1e6 * n * ((mask (List.map (inWin lo hi) pH) tm).map fun m => m / M).sum) := by
    intro c
    have e : ∀ c, phAllR c tm pH M totals ks n = List.zipWith (fun x m => x + c * (1e6 * n * (m / M)))
        (phAllR 0 tm pH M totals ks n) tm := by
      intro c
      apply List.ext_getElem
      · simp [phAllR]
      · intro i h1 h2
        simp only [phAllR, List.getElem_zipWith, ptR]
        field_simp
        ring
    rw [e c, mask_zipWith]
    have hlm : (mask (List.map (inWin lo hi) pH) (phAllR 0 tm pH M totals ks n)).length
        = (mask (List.map (inWin lo hi) pH) tm).length := mask_length_eq (by rw [hlen, hl])
    generalize mask (List.map (inWin lo hi) pH) (phAllR 0 tm pH M totals ks n) = xs at hlm ⊢
    generalize mask (List.map (inWin lo hi) pH) tm = ms at hlm ⊢
    induction xs generalizing ms with
    | nil =>
      have : ms = [] := List.length_eq_zero_iff.mp (by simpa using hlm.symm)
      simp [this]
    | cons x xs ih =>
      cases ms with
      | nil => simp at hlm
      | cons m ms =>
        simp only [List.zipWith_cons_cons, List.sum_cons, List.map_cons]
        rw [ih ms (by simpa using hlm)]
        ring
  refine ⟨rmean (mask (List.map (inWin lo hi) pH) (phAllR 0 tm pH M totals ks n)), fun c => ?_⟩
  refine ⟨_, solve_pH_eq (by simpa using hw) hk (by simpa using hf)
    (by simpa using hf') (by simpa using hl), ?_⟩
  simp only [phRes, phAll_fin hv hk hM hm, pH_used_fin]
  rw [mask_map, npMean_map_fin _ (hne c)]
  simp only [rmean, hsum c, hcnt, fin_inj]
  show _ = _ + c * (1e6 * n * ((List.map (fun m => m / M) (mask (List.map (inWin lo hi) pH) tm)).sum /
    ((List.filter (inWin lo hi) pH).length : ℝ)))
  field_simp

/-- C17: if all used titrant masses are non-negative and one is positive, and the normality is
positive, then exactly one molinity reproduces a certified alkalinity. -/
theorem C17_unique_molinity (n M lo hi cert : ℝ) (tm pH : List ℝ) (totals ks : Dict NpVal)
    (hl : tm.length = pH.length) (hw : lo < hi) (hM : 0 < M) (hm : ∀ m ∈ tm, 0 ≤ m) (hn : 0 < n)
    (hv : ValidRows totals ks pH.length) (hk : HasKsN totals ks 3)
    (hf : dictFits pH.length totals = true) (hf' : dictFits pH.length ks = true)
    (hin : ∃ i, ∃ (h : i < pH.length), lo ≤ pH[i] ∧ pH[i] ≤ hi ∧ 0 < tm[i]) :
    ∃! c : ℝ, ∃ r,
      solve_pH (fin c) (tm.map fin) (pH.map fin) (fin M) totals ks
        { pH_min := fin lo, pH_max := fin hi, titrant_normality := fin n } = .ok r ∧
      r.alkalinity = fin cert := by
  obtain ⟨i, hi', h1, h2, h3⟩ := hin
  obtain ⟨a0, ha⟩ := C17_affine n M lo hi tm pH totals ks hl hw hM
    (fun m h => by have := hm m h; linarith) hv hk hf hf'
    ⟨pH[i], List.getElem_mem _, h1, h2⟩
  set s := 1e6 * n *
        (((mask (pH.map fun p => decide (lo ≤ p) && decide (p ≤ hi)) tm).map fun m => m / M).sum /
          (pH.filter fun p => decide (lo ≤ p) && decide (p ≤ hi)).length) with hs
  have hspos : 0 < s := by
    have hmem : tm[i] ∈ mask (pH.map fun p => decide (lo ≤ p) && decide (p ≤ hi)) tm :=
      mem_mask.mpr ⟨i, by simpa using hi', by omega, by simp [h1, h2], rfl⟩
    have hsum : 0 < ((mask (pH.map fun p => decide (lo ≤ p) && decide (p ≤ hi)) tm).map
        fun m => m / M).sum := by
      have hle : tm[i] / M ≤ ((mask (pH.map fun p => decide (lo ≤ p) && decide (p ≤ hi)) tm).map
          fun m => m / M).sum := by
        apply List.single_le_sum
        · intro x hx
          obtain ⟨y, hy, rfl⟩ := List.mem_map.mp hx
          have := hm y (mem_of_mem_mask hy)
          positivity
        · exact List.mem_map.mpr ⟨_, hmem, rfl⟩
      have : 0 < tm[i] / M := by positivity
      linarith
    have hcnt : (0 : ℝ) < (pH.filter fun p => decide (lo ≤ p) && decide (p ≤ hi)).length := by
      have : pH[i] ∈ pH.filter fun p => decide (lo ≤ p) && decide (p ≤ hi) := by
        simp [h1, h2]
      exact_mod_cast List.length_pos_of_mem this
    rw [hs]; positivity
  refine ⟨(cert - a0) / s, ?_, ?_⟩
  · obtain ⟨r, hr, hra⟩ := ha ((cert - a0) / s)
    refine ⟨r, hr, ?_⟩
    rw [hra]; congr 1; field_simp; ring
  · rintro c ⟨r, hr, hrc⟩
    obtain ⟨r', hr', hra⟩ := ha c
    rw [hr] at hr'
    have : r = r' := by simpa using hr'
    subst this
    rw [hrc] at hra
    have : cert = a0 + c * s := by simpa using hra
    rw [this]; field_simp; ring

/-- hypotheses of C14-C17 are satisfiable: sea-water-like totals given as scalars -/
example : ∃! c : ℝ, ∃ r,
      solve_pH (fin c) ([0.001, 0.002].map fin) ([3.5, 3.2].map fin) (fin 0.1)
        [("total_borate", .scalar (fin 4e-4))] [("k_borate", .scalar (fin 2e-9)), ("k_water", .arr [fin 1e-13, fin 2e-13])]
        { pH_min := fin 3, pH_max := fin 4, titrant_normality := fin 1 } = .ok r ∧
      r.alkalinity = fin 2200 := by
  apply C17_unique_molinity 1 0.1 3 4 2200 [0.001, 0.002] [3.5, 3.2] _ _ rfl (by norm_num) (by norm_num)
  · intro m hm; simp at hm; rcases hm with rfl | rfl <;> norm_num
  · norm_num
  · intro i hi
    constructor
    · apply get?_mem_vals (P := fun v => ∃ r : ℝ, 0 ≤ r ∧ v = fin r)
      intro kv hkv
      simp [rowAt, Dict.mapKV, at_scalar] at hkv
      subst hkv; exact ⟨_, by norm_num, rfl⟩
    · apply get?_mem_vals (P := fun v => ∃ r : ℝ, 0 < r ∧ v = fin r)
      intro kv hkv
      simp only [rowAt, Dict.mapKV, List.map_cons, List.map_nil, at_scalar, List.mem_cons,
        List.not_mem_nil, or_false] at hkv
      rcases hkv with rfl | rfl
      · exact ⟨_, by norm_num, rfl⟩
      · match i, hi with
        | 0, _ => exact ⟨1e-13, by norm_num, by simp [NpVal.at_]⟩
        | 1, _ => exact ⟨2e-13, by norm_num, by simp [NpVal.at_]⟩
  · intro tk htk h
    simp only [requiredKs, List.mem_append, List.mem_cons, List.not_mem_nil, or_false] at htk
    rcases htk with (hr | hr) | hr
    · rcases hr with rfl | rfl | rfl | rfl | rfl | rfl | rfl | rfl | rfl | rfl | rfl <;>
        simp [Dict.has, Dict.get?] at h ⊢
    · simp at hr; subst hr; simp [Dict.has, Dict.get?] at h
    · simp at hr; subst hr; simp [Dict.has, Dict.get?] at h
  · rfl
  · rfl
  · exact ⟨0, by simp, by norm_num, by norm_num, by norm_num⟩

/-! ## C72, pH mode -/

/-- C72: a NaN pH reading is never used: the result equals that of the titration with the
reading replaced by any value outside the window. -/
theorem C72_nan_pH_contained (c M : Flt) (tm pH : List Flt) (totals ks : Dict NpVal) (o : PHOpts)
    (r r' : SolvePH) (j : ℕ) (x : Flt) (hx : (o.pH_min.le x && x.le o.pH_max) = false)
    (hr : solve_pH c tm (pH.set j nan) M totals ks o = .ok r)
    (hr' : solve_pH c tm (pH.set j x) M totals ks o = .ok r') :
    r.alkalinity = r'.alkalinity ∧ r.alkalinity_std = r'.alkalinity_std := by
  have hnan : (o.pH_min.le nan && nan.le o.pH_max) = false := by
    cases o.pH_min <;> simp [Flt.le]
  refine C14_outside_irrelevant c M tm (pH.set j nan) tm (pH.set j x) totals ks totals ks o r r'
    (by simp) hr hr' ?_ ?_
  · intro i h h'
    by_cases hij : j = i
    · subst hij; simp only [List.getElem_set_self, hnan, hx]
    · simp only [List.getElem_set_ne hij]
  · intro i h h' ht ht' hu
    by_cases hij : j = i
    · subst hij; simp only [List.getElem_set_self, hnan] at hu; simp at hu
    · simp only [List.getElem_set_ne hij, and_self]

end Calk
