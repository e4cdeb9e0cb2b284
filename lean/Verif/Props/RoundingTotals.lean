import Verif.Props.Rounding
import Verif.Props.Totals

/-! # Rounding in the totals during a calibration (C128) -/

namespace Calk
open Flt Spec

theorem keys_set_present {α : Type} {d : Dict α} {k : String} {v w : α} (h : d.get? k = some v) :
    (d.set k w).keys = d.keys := by
  induction d with
  | nil => simp [Dict.get?] at h
  | cons kv d ih =>
    obtain ⟨k', v'⟩ := kv
    by_cases hk : k' = k
    · simp only [Dict.set, if_pos hk]; rfl
    · rw [Dict.get?_cons, if_neg hk] at h
      simp only [Dict.set, if_neg hk]
      exact congrArg (k' :: ·) (ih h)

theorem exact_add_titrant (tm : List Flt) (M c prev : Flt) (tts : List (String × Flt)) :
    add_titrant_totalsF exactArith tm M c prev tts = add_titrant_totals tm M c prev tts := by
  induction tts with
  | nil => rfl
  | cons p rest ih =>
    obtain ⟨t, f⟩ := p
    simp only [add_titrant_totalsF, add_titrant_totals, ih]
    rfl

/-- C128.  Without rounding the floating-point version of the calibration is the exact model. -/
theorem C128_exact (opt : Lsq Flt) (cert : Flt) (tm pH : List Flt) (M : Flt) (ks : Dict NpVal)
    (lo hi c0 n : Flt) (tts : List (String × Flt)) :
    calibrate_pHF exactArith opt cert tm pH M ks lo hi c0 n tts
      = calibrate_pH opt cert tm pH M ks lo hi c0 n tts := by
  have : (lsqfun_calibrateF exactArith (fun c totals => do
        let sr ← solve_pHF exactArith c tm pH M totals ks
          { pH_min := lo, pH_max := hi, titrant_normality := n }
        return sr.alkalinity) cert tm M tts)
      = lsqfun_calibrate (fun c totals => do
        let sr ← solve_pH c tm pH M totals ks
          { pH_min := lo, pH_max := hi, titrant_normality := n }
        return sr.alkalinity) cert tm M tts := by
    funext c
    simp only [lsqfun_calibrateF, lsqfun_calibrate, exact_add_titrant, C127_exact]
    rfl
  unfold calibrate_pHF calibrate_pH
  rw [this]

/-- rounding treats a number and its negative alike -/
def Odd' (F : Arith) : Prop := ∀ x : ℝ, F.rnd (fin (-x)) = -(F.rnd (fin x))

section
variable {F : Arith} {u : ℝ} {e : ℕ} (hF : Accurate F u e)
include hF

/-- the rounding as a function on real numbers -/
noncomputable def Accurate.r (x : ℝ) : ℝ := (hF.rnd x).choose

theorem Accurate.r_eq (x : ℝ) : F.rnd (fin x) = fin (hF.r x) := (hF.rnd x).choose_spec.1
theorem Accurate.r_close (x : ℝ) : |hF.r x - x| ≤ u * |x| := (hF.rnd x).choose_spec.2

theorem Accurate.r_neg (ho : Odd' F) (x : ℝ) : hF.r (-x) = -hF.r x := by
  have := ho x
  rw [hF.r_eq, hF.r_eq, neg_fin] at this
  exact Flt.fin.inj this

/-- what is added to a total at a point, in floating-point arithmetic -/
noncomputable def Accurate.share (M c prev m f : ℝ) : ℝ :=
  hF.r (hF.r (hF.r (m * hF.r (c - prev)) * f) / hF.r (m + M))

theorem Accurate.sum_pos {M m : ℝ} (h : 0 < m + M) : 0 < hF.r (m + M) :=
  ((Rel.refl h).round hF.one_le hF.inv (hF.r_close _)).pos' hF.one_le

theorem Accurate.share_eq {M c prev m f : ℝ} (h : 0 < m + M) :
    F.div (F.mul (F.mul (fin m) (F.sub (fin c) (fin prev))) (fin f)) (F.add (fin m) (fin M))
      = fin (hF.share M c prev m f) := by
  simp only [Arith.div, Arith.mul, Arith.sub, Arith.add, sub_fin, add_fin, mul_fin, hF.r_eq,
    div_fin _ _ (hF.sum_pos h).ne']
  rfl

theorem Accurate.share_neg (ho : Odd' F) (M c m f : ℝ) :
    hF.share M 0 c m f = -hF.share M c 0 m f := by
  unfold Accurate.share
  rw [zero_sub, sub_zero, hF.r_neg ho, mul_neg, hF.r_neg ho, neg_mul, hF.r_neg ho, neg_div, hF.r_neg ho]

/-- size of what is added to a total -/
theorem Accurate.share_size {M c m f : ℝ} (hm : 0 ≤ m) (h : 0 < m + M) :
    |hF.share M c 0 m f| ≤ (1 / (1 - u)) ^ 5 * (m * |c| * |f| / (m + M)) := by
  have g1 := (Err.refl (Q := 1 / (1 - u)) c).round hF.one_le hF.u0 hF.inv (hF.r_close c)
  have g2 := (Err.mul hF.one_le (Err.refl_nonneg (Q := 1 / (1 - u)) hm) g1).round hF.one_le hF.u0 hF.inv
    (hF.r_close _)
  have g3 := (Err.mul hF.one_le g2 (Err.refl f)).round hF.one_le hF.u0 hF.inv (hF.r_close _)
  have gs := (Rel.refl (Q := 1 / (1 - u)) h).round hF.one_le hF.inv (hF.r_close (m + M))
  have g4 := (Err.div hF.one_le g3 gs).round hF.one_le hF.u0 hF.inv (hF.r_close _)
  have := g4.abs_le'
  unfold Accurate.share
  rw [sub_zero]
  simpa using this

omit hF in
/-- the totals named by the titrant have real values at every point -/
def RealTT (L : ℕ) (tts : List (String × ℝ)) (s : Dict NpVal) : Prop :=
  ∀ p ∈ tts, ∃ (k : String) (xs : List ℝ), p.1 = "titrant_" ++ k ∧ "total_".toList.isPrefixOf k.toList = true ∧
    s.get? k = some (.arr (xs.map fin)) ∧ xs.length = L

/-- One update of the totals in floating-point arithmetic. -/
theorem Accurate.add_titrant {tm : List ℝ} {M c prev : ℝ} (hm : ∀ m ∈ tm, 0 < m + M)
    (tts : List (String × ℝ)) (hn : (tts.map Prod.fst).Nodup) (s : Dict NpVal)
    (hs : RealTT tm.length tts s) :
    ∃ s', add_titrant_totalsF F (tm.map fin) (fin M) (fin c) (fin prev) (ttArgs tts) s = (.ok (), s') ∧
      s'.keys = s.keys ∧ (∀ k, (∀ p ∈ tts, p.1 ≠ "titrant_" ++ k) → s'.get? k = s.get? k) ∧
      ∀ p ∈ tts, ∀ (k : String) (xs : List ℝ), p.1 = "titrant_" ++ k → s.get? k = some (.arr (xs.map fin)) →
        xs.length = tm.length → s'.get? k = some (.arr ((List.zipWith (fun x m =>
          hF.r (x + hF.share M c prev m p.2)) xs tm).map fin)) := by
  induction tts generalizing s with
  | nil => exact ⟨s, rfl, rfl, fun _ _ => rfl, by simp⟩
  | cons p rest ih =>
    obtain ⟨t, f⟩ := p
    obtain ⟨k, xs, hk1, hk2, hk3, hk4⟩ := hs _ (List.mem_cons_self ..)
    simp only at hk1
    subst hk1
    simp only [List.map_cons, List.nodup_cons] at hn
    have hcon : titrant_contributionF F (tm.map fin) (fin M) (fin c) (fin prev) (fin f)
        = (tm.map fun m => hF.share M c prev m f).map fin := by
      simp only [titrant_contributionF, List.map_map]
      apply List.map_congr_left
      intro m hmm
      exact hF.share_eq (hm m hmm)
    have hadd : iaddF F (.arr (xs.map fin)) ((tm.map fun m => hF.share M c prev m f).map fin)
        = .ok (.arr ((List.zipWith (fun x m => hF.r (x + hF.share M c prev m f)) xs tm).map fin)) := by
      simp only [iaddF, List.length_map, hk4, if_true, Except.ok.injEq, NpVal.arr.injEq]
      apply List.ext_getElem
      · simp
      · intro i h1 h2
        simp [Arith.add, hF.r_eq]
    set s1 := s.set k (.arr ((List.zipWith (fun x m => hF.r (x + hF.share M c prev m f)) xs tm).map fin))
      with hs1
    have hother : ∀ k', k' ≠ k → s1.get? k' = s.get? k' := fun k' hk' =>
      Dict.get?_set_ne _ _ _ _ hk'
    have hrest : ∀ q ∈ rest, q.1 ≠ "titrant_" ++ k := fun q hq he =>
      hn.1 (List.mem_map.mpr ⟨q, hq, he⟩)
    obtain ⟨s', h1, h2, h3, h4⟩ := ih hn.2 s1 (by
      intro q hq
      obtain ⟨k', xs', a1, a2, a3, a4⟩ := hs q (List.mem_cons_of_mem _ hq)
      refine ⟨k', xs', a1, a2, ?_, a4⟩
      rw [hother k' (fun he => hrest q hq (by rw [a1, he]))]
      exact a3)
    refine ⟨s', ?_, ?_, ?_, ?_⟩
    · have hp : pyAssert (titrantPrefix.toList.isPrefixOf ("titrant_" ++ k).toList) = .ok () := by
        rw [titrant_prefix, hk2]; rfl
      simp only [ttArgs, List.map_cons, add_titrant_totalsF]
      rw [PyS.bind_of_ok (s' := s) (a := ()) (by rw [PyS.lift_apply, hp])]
      rw [PyS.bind_of_ok (PyS.get_apply s)]
      rw [PyS.bind_of_ok (s' := s) (a := NpVal.arr (xs.map fin))
        (by rw [PyS.lift_apply, dropTitrant_append, Dict.get_ok_iff.mpr hk3])]
      rw [PyS.bind_of_ok (s' := s) (by rw [PyS.lift_apply, hcon, hadd])]
      rw [PyS.bind_of_ok (PyS.set_apply _ _), dropTitrant_append]
      exact h1
    · rw [h2, hs1, keys_set_present hk3]
    · intro k' hk'
      have hne : k' ≠ k := fun he => hk' _ (List.mem_cons_self ..) (by rw [he])
      rw [h3 k' (fun q hq => hk' q (List.mem_cons_of_mem _ hq)), hother k' hne]
    · intro q hq k' xs' hq1 hq2 hq3
      rcases List.mem_cons.mp hq with rfl | hq'
      · have he : k = k' := eq_titrant_iff.mp hq1
        subst he
        rw [hk3] at hq2
        have : xs' = xs := by
          have := NpVal.arr.inj (Option.some.inj hq2)
          exact (List.map_injective_iff.mpr (fun a b h => Flt.fin.inj h) this).symm
        subst this
        rw [h3 k hrest, hs1, Dict.get?_set_self]
      · have hne : k' ≠ k := fun he => hrest q hq' (by rw [hq1, he])
        exact h4 q hq' k' xs' hq1 (by rw [hother k' hne]; exact hq2) hq3

omit hF in
/-- Size of a total at a point together with what trials up to molinity `C` add to it. -/
noncomputable def driftSize (u M C m f x : ℝ) : ℝ := |x| + (1 / (1 - u)) ^ 5 * (m * C * |f| / (m + M))

omit hF in
/-- The totals after `j` trials. -/
def Drifted (u : ℝ) (tm : List ℝ) (M C : ℝ) (tts : List (String × ℝ)) (totals : Dict NpVal) (j : ℕ)
    (s : Dict NpVal) : Prop :=
  s.keys = totals.keys ∧ (∀ k, (∀ p ∈ tts, p.1 ≠ "titrant_" ++ k) → s.get? k = totals.get? k) ∧
    ∀ p ∈ tts, ∀ (k : String) (xs : List ℝ), p.1 = "titrant_" ++ k → totals.get? k = some (.arr (xs.map fin)) →
      xs.length = tm.length → ∃ ys : List ℝ, s.get? k = some (.arr (ys.map fin)) ∧
        ∃ hl : ys.length = tm.length, ∃ hx : xs.length = tm.length, ∀ i, (h : i < tm.length) →
          Err (1 / (1 - u)) (2 * j) (driftSize u M C tm[i] p.2 xs[i]) ys[i] xs[i]

theorem Accurate.drift_step (ho : Odd' F) {tm : List ℝ} {M C c : ℝ} (hM : 0 < M) (hm : ∀ m ∈ tm, 0 ≤ m)
    (hc : |c| ≤ C) {tts : List (String × ℝ)} (hn : (tts.map Prod.fst).Nodup) {totals s : Dict NpVal}
    (hr : RealTT tm.length tts totals) {j : ℕ} (hs : Drifted u tm M C tts totals j s)
    (solver : Flt → Dict NpVal → Py Flt) (cert : Flt) {rs : List Flt} {s' : Dict NpVal}
    (h : lsqfun_calibrateF F solver cert (tm.map fin) (fin M) (ttArgs tts) (fin c) s = (.ok rs, s')) :
    Drifted u tm M C tts totals (j + 1) s' := by
  have hmM : ∀ m ∈ tm, 0 < m + M := fun m h => by linarith [hm m h]
  have hr1 : RealTT tm.length tts s := by
    intro p hp
    obtain ⟨k, xs, a1, a2, a3, a4⟩ := hr p hp
    obtain ⟨ys, b1, b2, -⟩ := hs.2.2 p hp k xs a1 a3 a4
    exact ⟨k, ys, a1, a2, b1, b2⟩
  obtain ⟨s1, f1, f2, f3, f4⟩ := hF.add_titrant (c := c) (prev := 0) hmM tts hn s hr1
  have hr2 : RealTT tm.length tts s1 := by
    intro p hp
    obtain ⟨k, xs, a1, a2, a3, a4⟩ := hr1 p hp
    refine ⟨k, _, a1, a2, f4 p hp k xs a1 a3 a4, ?_⟩
    simp [a4]
  obtain ⟨s2, g1, g2, g3, g4⟩ := hF.add_titrant (c := 0) (prev := c) hmM tts hn s1 hr2
  unfold lsqfun_calibrateF at h
  rw [PyS.bind_of_ok f1, PyS.bind_of_ok (PyS.get_apply s1)] at h
  cases hsol : solver (fin c) s1 with
  | error e =>
    rw [PyS.bind_of_error (s' := s1) (e := e) (by rw [PyS.lift_apply, hsol])] at h
    simp at h
  | ok alk =>
    rw [PyS.bind_of_ok (s' := s1) (a := alk) (by rw [PyS.lift_apply, hsol]), PyS.bind_of_ok g1] at h
    have hs2 : s2 = s' := (Prod.mk.inj h).2
    subst hs2
    refine ⟨by rw [g2, f2, hs.1], fun k hk => by rw [g3 k hk, f3 k hk, hs.2.1 k hk], ?_⟩
    intro p hp k xs a1 a3 a4
    obtain ⟨ys, b1, b2, hx, b3⟩ := hs.2.2 p hp k xs a1 a3 a4
    have h1 := f4 p hp k ys a1 b1 b2
    have h2 := g4 p hp k _ a1 h1 (by simp [b2])
    refine ⟨_, h2, by simp [b2], hx, ?_⟩
    intro i hi
    simp only [List.getElem_zipWith]
    rw [hF.share_neg ho]
    have hmi := hm _ (List.getElem_mem hi)
    have hmMi := hmM _ (List.getElem_mem hi)
    set b := hF.share M c 0 tm[i] p.2
    have hb : |b| ≤ (1 / (1 - u)) ^ 5 * (tm[i] * C * |p.2| / (tm[i] + M)) := by
      refine (hF.share_size hmi hmMi).trans ?_
      have hQ := hF.one_le
      gcongr
    have e0 := b3 i hi
    have hsz : driftSize u M C tm[i] p.2 xs[i]
        = |xs[i]| + (1 / (1 - u)) ^ 5 * (tm[i] * C * |p.2| / (tm[i] + M)) := rfl
    have e1 : Err (1 / (1 - u)) (2 * j) (driftSize u M C tm[i] p.2 xs[i]) (ys[i] + b) (xs[i] + b) := by
      refine ⟨?_, ?_⟩
      · rw [hsz]; exact (abs_add_le _ _).trans (by linarith)
      · have := e0.err
        rwa [show ys[i] + b - (xs[i] + b) = ys[i] - xs[i] by ring]
    have e2 := e1.round hF.one_le hF.u0 hF.inv (hF.r_close _)
    have e3 : Err (1 / (1 - u)) (2 * j + 1) (driftSize u M C tm[i] p.2 xs[i])
        (hF.r (ys[i] + b) + -b) xs[i] := by
      refine ⟨e0.size, ?_⟩
      have := e2.err
      rwa [show hF.r (ys[i] + b) - (xs[i] + b) = hF.r (ys[i] + b) + -b - xs[i] by ring] at this
    exact e3.round hF.one_le hF.u0 hF.inv (hF.r_close _)

theorem Drifted.mono {tm : List ℝ} {M C : ℝ} {tts : List (String × ℝ)} {totals s : Dict NpVal} {i j : ℕ}
    (h : Drifted u tm M C tts totals i s) (hij : i ≤ j) : Drifted u tm M C tts totals j s := by
  refine ⟨h.1, h.2.1, fun p hp k xs a1 a2 a3 => ?_⟩
  obtain ⟨ys, b1, b2, hx, b3⟩ := h.2.2 p hp k xs a1 a2 a3
  exact ⟨ys, b1, b2, hx, fun l hl => (b3 l hl).mono hF.one_le (by omega) le_rfl⟩

/-- Whatever the optimiser tries, the totals stay close to what they were. -/
theorem Accurate.drift_loop (ho : Odd' F) {tm : List ℝ} {M C : ℝ} (hM : 0 < M) (hm : ∀ m ∈ tm, 0 ≤ m)
    {tts : List (String × ℝ)} (hn : (tts.map Prod.fst).Nodup) {totals : Dict NpVal}
    (hr : RealTT tm.length tts totals) (solver : Flt → Dict NpVal → Py Flt) (cert : Flt)
    {opt : Lsq Flt} {x0 : Flt}
    (hopt : ∀ hist x, opt.next x0 hist = some x → ∃ c : ℝ, x = fin c ∧ |c| ≤ C) (N : ℕ) :
    ∀ (j : ℕ) (hist : List (Flt × List Flt)) (s : Dict NpVal), Drifted u tm M C tts totals j s →
      ∀ (r : LsqResult Flt) (s' : Dict NpVal),
        opt.loop (lsqfun_calibrateF F solver cert (tm.map fin) (fin M) (ttArgs tts)) x0 N hist s
          = (.ok r, s') → Drifted u tm M C tts totals (j + N) s' := by
  induction N with
  | zero =>
    intro j hist s hs r s' h
    have : s = s' := (Prod.mk.inj h).2
    subst this; exact hs
  | succ N ih =>
    intro j hist s hs r s' h
    unfold Lsq.loop at h
    cases hx : opt.next x0 hist with
    | none =>
      simp only [hx] at h
      have : s = s' := (Prod.mk.inj h).2
      subst this; exact Drifted.mono hF hs (by omega)
    | some x =>
      obtain ⟨c, rfl, hc⟩ := hopt hist x hx
      simp only [hx] at h
      cases hf : lsqfun_calibrateF F solver cert (tm.map fin) (fin M) (ttArgs tts) (fin c) s with
      | mk q s1 =>
        rw [hf] at h
        cases q with
        | error e => simp at h
        | ok rs =>
          have h1 := hF.drift_step ho hM hm hc hn hr hs solver cert hf
          have := ih (j + 1) _ s1 h1 r s' h
          exact Drifted.mono hF this (by omega)

/-- C128.  In floating-point arithmetic a calibration does not put the totals back exactly.  Each
trial can change a total at a point by two rounding errors; totals the titrant does not name are left
alone. -/
theorem C128_drift (ho : Odd' F) {tm : List ℝ} {pH : List Flt} {M C : ℝ} (hM : 0 < M) (hm : ∀ m ∈ tm, 0 ≤ m)
    (hC : 0 ≤ C) {tts : List (String × ℝ)} (hn : (tts.map Prod.fst).Nodup) {totals ks : Dict NpVal}
    (hr : RealTT tm.length tts totals) {cert c0 lo hi n : Flt} {opt : Lsq Flt}
    (hopt : ∀ hist x, opt.next c0 hist = some x → ∃ c : ℝ, x = fin c ∧ |c| ≤ C)
    {r : LsqResult Flt} {s : Dict NpVal}
    (h : calibrate_pHF F opt cert (tm.map fin) pH (fin M) ks lo hi c0 n (ttArgs tts) totals = (.ok r, s)) :
    s.keys = totals.keys ∧ (∀ k, (∀ p ∈ tts, p.1 ≠ "titrant_" ++ k) → s.get? k = totals.get? k) ∧
    ∀ p ∈ tts, ∀ (k : String) (xs : List ℝ), p.1 = "titrant_" ++ k → totals.get? k = some (.arr (xs.map fin)) →
      xs.length = tm.length → ∃ ys : List ℝ, s.get? k = some (.arr (ys.map fin)) ∧
        ∃ hl : ys.length = tm.length, ∃ hx : xs.length = tm.length, ∀ i, (h : i < tm.length) →
          |ys[i] - xs[i]| ≤ ((1 / (1 - u)) ^ (2 * opt.maxEval) - 1)
            * (|xs[i]| + (1 / (1 - u)) ^ 5 * (tm[i] * C * |p.2| / (tm[i] + M))) := by
  have h0 : Drifted u tm M C tts totals 0 totals := by
    refine ⟨rfl, fun _ _ => rfl, fun p hp k xs a1 a2 a3 => ⟨xs, a2, a3, a3, fun i hi => ?_⟩⟩
    have hmi := hm _ (List.getElem_mem hi)
    refine ⟨?_, by simp⟩
    have hQ := hF.one_le
    have : 0 ≤ (1 / (1 - u)) ^ 5 * (tm[i] * C * |p.2| / (tm[i] + M)) := by positivity
    unfold driftSize; linarith
  have hd := hF.drift_loop ho hM hm hn hr _ cert hopt opt.maxEval 0 [] totals h0 r s h
  refine ⟨hd.1, hd.2.1, fun p hp k xs a1 a2 a3 => ?_⟩
  obtain ⟨ys, b1, b2, hx, b3⟩ := hd.2.2 p hp k xs a1 a2 a3
  refine ⟨ys, b1, b2, hx, fun i hi => ?_⟩
  have := (b3 i hi).err
  rw [Nat.zero_add] at this
  exact this

end

/-- C128.  In double precision with up to a thousand trials the drift is less than 4.5e-13 of the size
of a total and of what the trials add to it. -/
theorem C128_double {F : Arith} {e : ℕ} (hF : Accurate F (2 ^ (-53 : ℤ)) e) (ho : Odd' F)
    {tm : List ℝ} {pH : List Flt} {M C : ℝ} (hM : 0 < M) (hm : ∀ m ∈ tm, 0 ≤ m)
    (hC : 0 ≤ C) {tts : List (String × ℝ)} (hn : (tts.map Prod.fst).Nodup) {totals ks : Dict NpVal}
    (hr : RealTT tm.length tts totals) {cert c0 lo hi n : Flt} {opt : Lsq Flt} (hN : opt.maxEval ≤ 1000)
    (hopt : ∀ hist x, opt.next c0 hist = some x → ∃ c : ℝ, x = fin c ∧ |c| ≤ C)
    {r : LsqResult Flt} {s : Dict NpVal}
    (h : calibrate_pHF F opt cert (tm.map fin) pH (fin M) ks lo hi c0 n (ttArgs tts) totals = (.ok r, s))
    {p : String × ℝ} (hp : p ∈ tts) {k : String} {xs : List ℝ} (hk : p.1 = "titrant_" ++ k)
    (hx : totals.get? k = some (.arr (xs.map fin))) (hl : xs.length = tm.length) :
    ∃ ys : List ℝ, s.get? k = some (.arr (ys.map fin)) ∧ ∃ hy : ys.length = tm.length,
      ∀ i, (h : i < tm.length) →
        |ys[i] - xs[i]| ≤ 4.5e-13 * (|xs[i]| + 1.001 * (tm[i] * C * |p.2| / (tm[i] + M))) := by
  obtain ⟨-, -, h3⟩ := C128_drift hF ho hM hm hC hn hr hopt h
  obtain ⟨ys, b1, b2, _, b3⟩ := h3 p hp k xs hk hx hl
  refine ⟨ys, b1, b2, fun i hi => (b3 i hi).trans ?_⟩
  have hmi := hm _ (List.getElem_mem hi)
  have hu : ((2 * opt.maxEval : ℕ) : ℝ) * (2:ℝ) ^ (-53 : ℤ) ≤ 2000 * (2:ℝ) ^ (-53 : ℤ) :=
    mul_le_mul_of_nonneg_right (by exact_mod_cast (by omega : 2 * opt.maxEval ≤ 2000)) (by positivity)
  have hs := rounding_small (u := (2:ℝ) ^ (-53 : ℤ)) (K := 2 * opt.maxEval) hF.u0 hF.u1
    (hu.trans (by norm_num))
  have hc : (1 / (1 - (2:ℝ) ^ (-53 : ℤ))) ^ (2 * opt.maxEval) - 1 ≤ 4.5e-13 := by
    have : 2 * (2000 * (2:ℝ) ^ (-53 : ℤ)) ≤ 4.5e-13 := by norm_num
    exact hs.trans ((mul_le_mul_of_nonneg_left hu (by norm_num)).trans this)
  have h5 : (1 / (1 - (2:ℝ) ^ (-53 : ℤ))) ^ 5 ≤ 1.001 := by norm_num
  have hq : 0 ≤ tm[i] * C * |p.2| / (tm[i] + M) := by positivity
  have hQ := hF.one_le
  exact mul_le_mul hc (add_le_add le_rfl (mul_le_mul_of_nonneg_right h5 hq))
    (by positivity) (by norm_num)

theorem double_odd : Odd' double := by
  intro x
  show fin (round53 (-x)) = -fin (round53 x)
  rw [round53_neg, neg_fin]

theorem round53_pow (E : ℤ) : round53 ((2:ℝ) ^ E) = 2 ^ E := by
  have hp : (0:ℝ) < 2 ^ E := by positivity
  have hlog : Int.log 2 ((2:ℝ) ^ E) = E := by
    have := Int.log_zpow (R := ℝ) (b := 2) (by norm_num) E
    exact_mod_cast this
  unfold round53
  rw [if_neg (by linarith), abs_of_pos hp, hlog]
  have e1 : (2:ℝ) ^ E / 2 ^ (E - 52) = ((2 ^ 52 : ℕ) : ℝ) := by
    rw [zpow_sub₀ (by norm_num)]; field_simp; norm_num
  rw [e1, roundHalfEven_nat, zpow_sub₀ (by norm_num)]
  field_simp
  norm_num

theorem round53_tie : round53 ((2:ℝ) ^ (-4 : ℤ) + 2 ^ (-57 : ℤ)) = 2 ^ (-4 : ℤ) := by
  have hp : (0:ℝ) < (2:ℝ) ^ (-4 : ℤ) + 2 ^ (-57 : ℤ) := by positivity
  have hlog : Int.log 2 ((2:ℝ) ^ (-4 : ℤ) + 2 ^ (-57 : ℤ)) = -4 := by
    apply le_antisymm
    · rw [← Int.lt_add_one_iff, Int.lt_zpow_iff_log_lt (b := 2) (by norm_num) hp |>.symm]
      norm_num
    · rw [← Int.zpow_le_iff_le_log (b := 2) (by norm_num) hp]
      norm_num
  unfold round53
  rw [if_neg (by linarith), abs_of_pos hp, hlog]
  have e1 : ((2:ℝ) ^ (-4 : ℤ) + 2 ^ (-57 : ℤ)) / 2 ^ ((-4 : ℤ) - 52) = ((2 ^ 52 : ℕ) : ℝ) + 1 / 2 := by
    norm_num
  rw [e1, roundHalfEven_tie, if_pos (by norm_num)]
  norm_num

/-- C128.  The totals are really not put back exactly: in double precision a trial with molinity 1/16
on equal masses of titrant and sample turns a sulfate total of 2⁻⁵ + 2⁻⁵⁷ mol/kg into 2⁻⁵.  (In exact
arithmetic it is put back, C30.) -/
theorem C128_not_restored :
    (do add_titrant_totalsF double [fin 1] (fin 1) (fin (2 ^ (-4 : ℤ))) (fin 0) [("titrant_total_sulfate", fin 1)]
        add_titrant_totalsF double [fin 1] (fin 1) (fin 0) (fin (2 ^ (-4 : ℤ))) [("titrant_total_sulfate", fin 1)])
      [("total_sulfate", .arr [fin (2 ^ (-5 : ℤ) + 2 ^ (-57 : ℤ))])]
    = (.ok (), [("total_sulfate", .arr [fin (2 ^ (-5 : ℤ))])]) := by
  have p4 := round53_pow (-4)
  have p5 := round53_pow (-5)
  have p1 : round53 2 = 2 := by simpa using round53_pow 1
  have hb : titrant_contributionF double [fin 1] (fin 1) (fin (2 ^ (-4 : ℤ))) (fin 0) (fin 1)
      = [fin (2 ^ (-5 : ℤ))] := by
    have e1 : (2:ℝ) ^ (-4 : ℤ) / 2 = 2 ^ (-5 : ℤ) := by norm_num
    simp only [titrant_contributionF, List.map_cons, List.map_nil, Arith.div, Arith.mul, Arith.sub, Arith.add,
      double, sub_fin, sub_zero, rnd53, p4, mul_fin, one_mul, mul_one, add_fin, one_add_one_eq_two, p1,
      div_fin _ _ (two_ne_zero' ℝ), e1, p5]
  have hb' : titrant_contributionF double [fin 1] (fin 1) (fin 0) (fin (2 ^ (-4 : ℤ))) (fin 1)
      = [fin (-2 ^ (-5 : ℤ))] := by
    have e1 : -(2:ℝ) ^ (-4 : ℤ) / 2 = -2 ^ (-5 : ℤ) := by norm_num
    simp only [titrant_contributionF, List.map_cons, List.map_nil, Arith.div, Arith.mul, Arith.sub, Arith.add,
      double, sub_fin, zero_sub, rnd53, round53_neg, p4, mul_fin, one_mul, mul_one, add_fin,
      one_add_one_eq_two, p1, div_fin _ _ (two_ne_zero' ℝ), e1, p5]
  have s1 : iaddF double (.arr [fin (2 ^ (-5 : ℤ) + 2 ^ (-57 : ℤ))]) [fin (2 ^ (-5 : ℤ))]
      = .ok (.arr [fin (2 ^ (-4 : ℤ))]) := by
    have e1 : (2:ℝ) ^ (-5 : ℤ) + 2 ^ (-57 : ℤ) + 2 ^ (-5 : ℤ) = 2 ^ (-4 : ℤ) + 2 ^ (-57 : ℤ) := by norm_num
    simp only [iaddF, List.length_cons, List.length_nil, if_true, List.zipWith_cons_cons,
      List.zipWith_nil_left, Arith.add, double, add_fin, rnd53, e1, round53_tie]
  have s2 : iaddF double (.arr [fin (2 ^ (-4 : ℤ))]) [fin (-2 ^ (-5 : ℤ))]
      = .ok (.arr [fin (2 ^ (-5 : ℤ))]) := by
    have e1 : (2:ℝ) ^ (-4 : ℤ) + -2 ^ (-5 : ℤ) = 2 ^ (-5 : ℤ) := by norm_num
    simp only [iaddF, List.length_cons, List.length_nil, if_true, List.zipWith_cons_cons,
      List.zipWith_nil_left, Arith.add, double, add_fin, rnd53, e1, p5]
  have hd : dropTitrant "titrant_total_sulfate" = "total_sulfate" := by decide
  have hp : pyAssert (titrantPrefix.toList.isPrefixOf "titrant_total_sulfate".toList) = .ok () := by
    have : titrantPrefix.toList.isPrefixOf "titrant_total_sulfate".toList = true := by decide
    rw [this]; rfl
  have g : ∀ v : NpVal, Dict.get [("total_sulfate", v)] "total_sulfate" = .ok v := fun v => rfl
  have st : ∀ v w : NpVal, Dict.set [("total_sulfate", v)] "total_sulfate" w = [("total_sulfate", w)] :=
    fun v w => rfl
  simp only [add_titrant_totalsF, PyS.bind_apply, PyS.lift_apply, PyS.get_apply, PyS.set_apply, hp, hd, g, hb,
    hb', s1, s2, st, PyS.pure_apply]

/-- an optimiser that tries the start point twice and reports it -/
noncomputable def lsqTwice : Lsq Flt where
  next x0 hist := if hist.length < 2 then some x0 else none
  finish x0 _ := .ok ⟨x0, []⟩
  maxEval := 5

theorem rt_solve (a b : Flt) : ∃ x, solve_pHF double (fin 0.1) ([0.001, 0.002].map fin) ([3.5, 3.25].map fin)
    (fin 0.1) [("total_sulfate", .arr [a, b])] [("k_bisulfate", .scalar (fin 0.1))]
    { pH_min := fin 3, pH_max := fin 4, titrant_normality := fin 2 } = .ok x := by
  have h : (fin (3:ℝ)).lt (fin 4) = true := by simp [Flt.lt]; norm_num
  unfold solve_pHF
  rw [h]
  exact ⟨_, rfl⟩

theorem rt_trial (a b : Flt) : ∃ x a' b', lsqfun_calibrateF double (fun c totals => do
      let sr ← solve_pHF double c ([0.001, 0.002].map fin) ([3.5, 3.25].map fin) (fin 0.1) totals
        [("k_bisulfate", .scalar (fin 0.1))] { pH_min := fin 3, pH_max := fin 4, titrant_normality := fin 2 }
      return sr.alkalinity) (fin 2000) ([0.001, 0.002].map fin) (fin 0.1) (ttArgs [("titrant_total_sulfate", 1)])
      (fin 0.1) [("total_sulfate", .arr [a, b])] = (.ok x, [("total_sulfate", .arr [a', b'])]) := by
  have step : ∀ (c p a b : Flt), ∃ a' b', add_titrant_totalsF double ([0.001, 0.002].map fin) (fin 0.1) c p
      (ttArgs [("titrant_total_sulfate", 1)]) [("total_sulfate", .arr [a, b])]
      = (.ok (), [("total_sulfate", .arr [a', b'])]) := by
    intro c p a b
    exact ⟨_, _, rfl⟩
  obtain ⟨a1, b1, h1⟩ := step (fin 0.1) (fin 0) a b
  obtain ⟨x, h2⟩ := rt_solve a1 b1
  obtain ⟨a3, b3, h3⟩ := step (fin 0) (fin 0.1) a1 b1
  refine ⟨[double.sub x.alkalinity (fin 2000)], a3, b3, ?_⟩
  unfold lsqfun_calibrateF
  rw [PyS.bind_of_ok h1]
  simp only [PyS.bind_apply, PyS.get_apply, PyS.lift_apply, h2, bind_ok, pure_ok, h3, PyS.pure_apply]

/-- A calibration with two trials, in double precision. -/
example : ∃ r s, calibrate_pHF double lsqTwice (fin 2000) ([0.001, 0.002].map fin)
      ([3.5, 3.25].map fin) (fin 0.1) [("k_bisulfate", .scalar (fin 0.1))] (fin 3) (fin 4) (fin 0.1) (fin 2)
      (ttArgs [("titrant_total_sulfate", 1)]) [("total_sulfate", .arr ([0.03, 0.029].map fin))] = (.ok r, s) ∧
    ∃ ys : List ℝ, s.get? "total_sulfate" = some (.arr (ys.map fin)) ∧ ∃ _ : ys.length = 2,
      |ys[0] - 0.03| ≤ 4.5e-13 * (|0.03| + 1.001 * (0.001 * 0.1 * |1| / (0.001 + 0.1))) := by
  have hrun : ∃ s, calibrate_pHF double lsqTwice (fin 2000) ([0.001, 0.002].map fin)
      ([3.5, 3.25].map fin) (fin 0.1) [("k_bisulfate", .scalar (fin 0.1))] (fin 3) (fin 4) (fin 0.1) (fin 2)
      (ttArgs [("titrant_total_sulfate", 1)]) [("total_sulfate", .arr ([0.03, 0.029].map fin))]
      = (.ok ⟨fin 0.1, []⟩, s) := by
    obtain ⟨x1, a1, b1, h1⟩ := rt_trial (fin 0.03) (fin 0.029)
    obtain ⟨x2, a2, b2, h2⟩ := rt_trial a1 b1
    refine ⟨[("total_sulfate", .arr [a2, b2])], ?_⟩
    have n1 : lsqTwice.next (fin 0.1) [] = some (fin 0.1) := rfl
    have n2 : lsqTwice.next (fin 0.1) ([] ++ [(fin 0.1, x1)]) = some (fin 0.1) := rfl
    unfold calibrate_pHF Lsq.run
    show Lsq.loop lsqTwice _ _ (3 + 1 + 1) [] _ = _
    rw [Lsq.loop]
    simp only [n1]
    simp only [List.map_cons, List.map_nil] at h1 h2 ⊢
    rw [h1]
    simp only []
    rw [Lsq.loop]
    simp only [n2, h2]
    rfl
  obtain ⟨s, hs⟩ := hrun
  refine ⟨_, s, hs, ?_⟩
  obtain ⟨ys, h1, h2, h3⟩ := C128_double double_accurate double_odd (tm := [0.001, 0.002]) (M := 0.1) (C := 0.1)
    (tts := [("titrant_total_sulfate", 1)]) (by norm_num)
    (by intro m hm; simp at hm; rcases hm with rfl | rfl <;> norm_num) (by norm_num) (by simp)
    (by
      intro p hp
      rw [List.mem_singleton] at hp
      subst hp
      exact ⟨"total_sulfate", [0.03, 0.029], by decide, by decide, rfl, rfl⟩)
    (opt := lsqTwice) (by simp [lsqTwice])
    (by
      intro hist x hx
      simp only [lsqTwice] at hx
      split_ifs at hx
      exact ⟨0.1, (Option.some.inj hx).symm, by norm_num⟩)
    hs (p := ("titrant_total_sulfate", 1)) (by simp) (k := "total_sulfate") (xs := [0.03, 0.029]) (by decide) rfl rfl
  exact ⟨ys, h1, h2, h3 0 (by simp)⟩

end Calk
