import Verif.Props.FileLevel
import Verif.Props.Calibrate

/-!
# Property C111: calibrating with exact data finds the molinity of the acid
(`calkulate/files.py: calibrate` in pH mode, `calkulate/core.py: calibrate_pH`)
-/

namespace Calk
open Flt Spec

/-- two acids differ in the alkalinity of the mixture by their bisulfate only -/
theorem mixture_alk_sub {x K : String → ℝ} {m M c c' g h : ℝ} (hm : m + M ≠ 0) :
    (mixture x K m M c' g).alk 3 h * (m + M) - (mixture x K m M c g).alk 3 h * (m + M)
      = -((c' - c) * m * (g * (h / (K "k_bisulfate" + h)))) := by
  have hk : ∀ k, k ≠ "total_sulfate" → mixContent x m M c' g k = mixContent x m M c g k := by
    intro k hk; unfold mixContent; rw [if_neg hk, if_neg hk]
  unfold Sol.alk mixture
  simp only [hk "dic" (by decide), hk "total_borate" (by decide), hk "total_phosphate" (by decide),
    hk "total_silicate" (by decide), hk "total_ammonia" (by decide), hk "total_sulfide" (by decide),
    hk "total_alpha" (by decide), hk "total_beta" (by decide), hk "total_fluoride" (by decide), if_true]
  rw [← sub_mul]
  have : acid (mixContent x m M c' g "total_sulfate") (K "k_bisulfate") h * (m + M)
      - acid (mixContent x m M c g "total_sulfate") (K "k_bisulfate") h * (m + M)
      = (c' - c) * m * (g * (h / (K "k_bisulfate" + h))) := by
    unfold acid mixContent
    rw [if_pos rfl, if_pos rfl]
    field_simp
    ring
  linarith

/-- the same run with another molinity -/
theorem PHRun.molinity {w : World} {f : String} {S : Flt} {kw : Dict Val} {x K : String → ℝ}
    {c n g lo hi M : ℝ} {tm pH : List ℝ} (h : PHRun w f S kw x K c n g lo hi M tm pH) {c' : ℝ}
    (hc : 0 ≤ c' * g) : PHRun w f S kw x K c' n g lo hi M tm pH :=
  { h with acid := hc }

theorem mask_sum_lt {u : List Bool} {a b : List ℝ} (hl : a.length = b.length)
    (hle : ∀ i, (h1 : i < a.length) → (h2 : i < b.length) → a[i] ≤ b[i])
    (hlt : ∃ i, ∃ (h : i < u.length) (h1 : i < a.length) (h2 : i < b.length), u[i] = true ∧ a[i] < b[i]) :
    (mask u a).sum < (mask u b).sum := by
  have hle' : ∀ (u : List Bool) (a b : List ℝ), a.length = b.length →
      (∀ i, (h1 : i < a.length) → (h2 : i < b.length) → a[i] ≤ b[i]) →
      (mask u a).sum ≤ (mask u b).sum := by
    intro u
    induction u with
    | nil => intros; simp [mask]
    | cons t us ih =>
      intro a b hl hle
      match a, b, hl with
      | [], [], _ => simp [mask]
      | x :: xs, y :: ys, hl =>
        have h0 : x ≤ y := hle 0 (by simp) (by simp)
        have h1 := ih xs ys (by simpa using hl) fun i h1 h2 =>
          hle (i + 1) (by simpa using h1) (by simpa using h2)
        cases t
        · simpa [mask] using h1
        · simp only [mask, List.zip_cons_cons, List.filter_cons_of_pos, List.map_cons, List.sum_cons]
            at h1 ⊢
          linarith
  induction u generalizing a b with
  | nil => obtain ⟨i, h, -⟩ := hlt; simp at h
  | cons t us ih =>
    match a, b, hl with
    | [], [], _ => obtain ⟨i, _, h, -⟩ := hlt; simp at h
    | x :: xs, y :: ys, hl =>
      have h0 : x ≤ y := hle 0 (by simp) (by simp)
      have hl' : xs.length = ys.length := by simpa using hl
      have hle2 : ∀ i, (h1 : i < xs.length) → (h2 : i < ys.length) → xs[i] ≤ ys[i] := fun i h1 h2 =>
        hle (i + 1) (by simpa using h1) (by simpa using h2)
      obtain ⟨i, hu, h1, h2, ht, hl3⟩ := hlt
      match i, hu, h1, h2, ht, hl3 with
      | 0, _, _, _, ht, hl3 =>
        have hs := hle' us xs ys hl' hle2
        simp only [List.getElem_cons_zero] at ht hl3
        subst ht
        simp only [mask, List.zip_cons_cons, List.filter_cons_of_pos, List.map_cons, List.sum_cons]
          at hs ⊢
        linarith
      | i + 1, hu, h1, h2, ht, hl3 =>
        simp only [List.getElem_cons_succ] at ht hl3
        have hs := ih hl' hle2 ⟨i, by simpa using hu, by simpa using h1, by simpa using h2, ht, hl3⟩
        cases t
        · simpa [mask] using hs
        · simp only [mask, List.zip_cons_cons, List.filter_cons_of_pos, List.map_cons, List.sum_cons]
            at hs ⊢
          linarith

/-- **C111**: in pH mode the alkalinity reported for a file rises strictly with the molinity given,
also for an acid that brings sulfate, if some point in the window has titrant in it and the acid has
more protons than sulfates. -/
theorem C111_increasing (w : World) (f : String) (S : Flt) (kw : Dict Val) (x K : String → ℝ)
    (c c' n g lo hi M : ℝ) (tm pH : List ℝ) (h : PHRun w f S kw x K c n g lo hi M tm pH)
    (hc' : 0 ≤ c' * g) (hg : 0 ≤ g) (hng : g < n) (hcc : c < c')
    (hin : ∃ i, ∃ (hp : i < pH.length) (ht : i < tm.length), lo ≤ pH[i] ∧ pH[i] ≤ hi ∧ 0 < tm[i]) :
    ∃ (r r' : SolvePH) (T T' : List Flt) (a a' : ℝ),
      files_solve w f (fin c) S kw = .ok (.pH r (pH.map fin) T) ∧
      files_solve w f (fin c') S kw = .ok (.pH r' (pH.map fin) T') ∧
      r.alkalinity = fin a ∧ r'.alkalinity = fin a' ∧ a < a' := by
  obtain ⟨i, hp, ht, h1, h2, h3⟩ := hin
  have hwin : ∃ p ∈ pH, lo ≤ p ∧ p ≤ hi := ⟨pH[i], List.getElem_mem hp, h1, h2⟩
  obtain ⟨r, T, est, hr, hl, he, -, ha⟩ := C109_estimates w f S kw x K c n g lo hi M tm pH h hwin
  obtain ⟨r', T', est', hr', hl', he', -, ha'⟩ :=
    C109_estimates w f S kw x K c' n g lo hi M tm pH (h.molinity hc') hwin
  refine ⟨r, r', T, T', _, _, hr, hr', ha, ha', ?_⟩
  have hM := h.mass
  have hK := (h.sample.constants "k_bisulfate" (by decide)).2
  have hstep : ∀ j, (hp : j < pH.length) → (ht : j < tm.length) → (hj : j < est.length) →
      (hj' : j < est'.length) → est'[j] - est[j] = 1e6 * ((c' - c) * tm[j]
        * (n - g * ((10 : ℝ) ^ (-pH[j]) / (K "k_bisulfate" + (10 : ℝ) ^ (-pH[j]))))) / M := by
    intro j hp ht hj hj'
    have hm := h.masses _ (List.getElem_mem ht)
    have := mixture_alk_sub (x := x) (K := K) (m := tm[j]) (M := M) (c := c) (c' := c') (g := g)
      (h := (10 : ℝ) ^ (-pH[j])) (by positivity)
    rw [he j hp ht hj, he' j hp ht hj', ← sub_div]
    congr 1
    linear_combination 1e6 * this
  have hfac : ∀ p : ℝ, 0 < n - g * ((10 : ℝ) ^ (-p) / (K "k_bisulfate" + (10 : ℝ) ^ (-p))) := by
    intro p
    have h0 : (0 : ℝ) < (10 : ℝ) ^ (-p) := by positivity
    have h1 : (10 : ℝ) ^ (-p) / (K "k_bisulfate" + (10 : ℝ) ^ (-p)) ≤ 1 := by
      rw [div_le_one (by positivity)]; linarith
    nlinarith
  have hlt := mask_sum_lt (u := pH.map fun p => decide (lo ≤ p) && decide (p ≤ hi))
    (a := est) (b := est') (by rw [hl, hl']) (fun j hj hj' => by
      have hp' : j < pH.length := by rw [← hl]; exact hj
      have ht' : j < tm.length := by rw [h.lengths]; exact hp'
      have hd := hstep j hp' ht' hj hj'
      have := hfac pH[j]
      have hm := h.masses _ (List.getElem_mem ht')
      have hd2 : 0 < c' - c := sub_pos.mpr hcc
      have : 0 ≤ est'[j] - est[j] := by rw [hd]; positivity
      linarith)
    ⟨i, by simpa using hp, by rw [hl]; exact hp, by rw [hl']; exact hp, by simp [h1, h2], by
      have hd := hstep i hp ht (by rw [hl]; exact hp) (by rw [hl']; exact hp)
      have := hfac pH[i]
      have hd2 : 0 < c' - c := sub_pos.mpr hcc
      have : 0 < est'[i]'(by rw [hl']; exact hp) - est[i]'(by rw [hl]; exact hp) := by
        rw [hd]; positivity
      linarith⟩
  have hpos : (0 : ℝ) < (pH.filter fun p => decide (lo ≤ p) && decide (p ≤ hi)).length := by
    have : pH[i] ∈ pH.filter fun p => decide (lo ≤ p) && decide (p ≤ hi) := by
      simp [List.getElem_mem hp, h1, h2]
    exact_mod_cast List.length_pos_of_mem this
  exact div_lt_div_of_pos_right hlt hpos

/-- **C111**: a pH-mode calibration with exact data (charge balance of the mixture of a sample of
alkalinity `A` with the true acid, at every point) that reaches zero residual finds the molinity of the
acid - hydrochloric or, bringing sulfate, sulfuric. -/
theorem C111_recovers (w : World) (f : String) (S : Flt) (kw : Dict Val) (x K : String → ℝ)
    (A c c' n g lo hi M : ℝ) (tm pH : List ℝ) (h : PHRun w f S kw x K c n g lo hi M tm pH)
    (hbal : ∀ i, (hp : i < pH.length) → (ht : i < tm.length) →
      (mixture x K tm[i] M c g).alk 3 ((10 : ℝ) ^ (-pH[i])) * (tm[i] + M) = A * M - tm[i] * c * n)
    (hg : 0 ≤ g) (hng : g < n)
    (hin : ∃ i, ∃ (hp : i < pH.length) (ht : i < tm.length), lo ≤ pH[i] ∧ pH[i] ≤ hi ∧ 0 < tm[i])
    (hreg : Regular w f S kw) (hgl : kw.get? "gran_logic" = none) (res : LsqResult Flt)
    (hcal : files_calibrate w f (fin (1e6 * A)) S kw = .ok res) (hz : res.fun_ = [fin 0])
    (hx : res.x = fin c') (hc' : 0 ≤ c' * g) : c' = c := by
  have hwin : ∃ p ∈ pH, lo ≤ p ∧ p ≤ hi := by
    obtain ⟨i, hp, -, h1, h2, -⟩ := hin
    exact ⟨pH[i], List.getElem_mem hp, h1, h2⟩
  obtain ⟨r, T, hr, ha, -⟩ := C109_exact w f S kw x K A c n g lo hi M tm pH h hbal hwin
  obtain ⟨sr, hsr, hsa, -⟩ := C44_file w f (fin (1e6 * A)) S kw res hreg hgl hcal hz
  rw [hx] at hsr
  rcases lt_trichotomy c c' with hlt | heq | hgt
  · obtain ⟨r1, r2, T1, T2, a, a', h1, h2, h3, h4, h5⟩ :=
      C111_increasing w f S kw x K c c' n g lo hi M tm pH h hc' hg hng hlt hin
    rw [hr] at h1
    rw [hsr] at h2
    obtain ⟨rfl, -⟩ := SolveRes.pH.inj (Except.ok.inj h1)
    rw [Except.ok.inj h2] at hsa
    have e1 := Flt.fin.inj (ha.symm.trans h3)
    have e2 := Flt.fin.inj (hsa.symm.trans h4)
    linarith
  · exact heq.symm
  · obtain ⟨r1, r2, T1, T2, a, a', h1, h2, h3, h4, h5⟩ :=
      C111_increasing w f S kw x K c' c n g lo hi M tm pH (h.molinity hc') h.acid hg hng hgt hin
    rw [hr] at h2
    rw [hsr] at h1
    obtain ⟨rfl, -⟩ := SolveRes.pH.inj (Except.ok.inj h2)
    rw [Except.ok.inj h1] at hsa
    have e1 := Flt.fin.inj (ha.symm.trans h4)
    have e2 := Flt.fin.inj (hsa.symm.trans h3)
    linarith

/-! ### A case: the sulfuric acid titration of `pArgs`, calibrated from the default start 0.1 -/

open Classical in
/-- an optimiser that refuses what `scipy`'s refuses, and otherwise stays where it starts -/
noncomputable def lsCareful : LsFun (Flt × Flt) := fun f x0 =>
  if x0.1 = nan ∨ x0.2 = nan then .error .ValueError
  else if ∃ r, f x0 = .ok r ∧ ∃ y ∈ r, ∀ x : ℝ, y ≠ fin x then .error .ValueError
  else do
    let r ← f x0
    return { x := x0, fun_ := r }

noncomputable def calWorld (p q : ℝ) : World := { pWorld p q with ls := lsCareful, opt := lsqOnce }

theorem cal_run (p q : ℝ) : PHRun (calWorld p q) "a.dat" (fin 35) pArgs pContents pConstants 0.1 2 1 3 4
    0.1 [0.001, 0.002] [p, q] :=
  let h := p_run p q
  { loads := h.loads, keepsTotals := h.keepsTotals, keepsKs := h.keepsKs, nodup := h.nodup,
    mode := h.mode, sample := h.sample, sulfate := h.sulfate, no_phosphate := h.no_phosphate,
    no_fluoride := h.no_fluoride, normality := h.normality, pH_min := h.pH_min, pH_max := h.pH_max,
    window := h.window, lengths := h.lengths, mass := h.mass, masses := h.masses, acid := h.acid }

theorem lsqOnce_finite : FiniteTrials lsqOnce := by
  intro x0 hist x h
  simp only [lsqOnce] at h
  split at h
  · exact ⟨_, by simpa using h.symm⟩
  · simp at h

theorem cal_typed : Typed pArgs "ph" (fin 0.1) (ttArgs [("titrant_total_sulfate", 1)]) := by
  refine ⟨?_, rfl, rfl, ?_⟩
  · have : solve_mode pArgs = .ok (lowerS "pH") := rfl
    rw [this]; decide
  · exact ⟨_, rfl⟩

theorem cal_regular (p q : ℝ) : Regular (calWorld p q) "a.dat" (fin 35) pArgs := by
  obtain ⟨cv, totals, ks, h, h1, h2, h3, h4⟩ := p_loads p q
  refine ⟨lsqOnce_reports, cv, totals, ks, "ph", fin 0.1, _, h, cal_typed, by decide, by rw [h3, h4]; rfl,
    .inr ⟨lsqOnce_finite, _, _, h1, h2, ?_⟩⟩
  intro m hm
  simp only [List.mem_cons, List.not_mem_nil, or_false] at hm
  rcases hm with rfl | rfl <;> norm_num

/-- every hypothesis of `C111_recovers` is met: the calibration ends with zero residual -/
theorem cal_calibrates (p : ℝ) (hp : 3 ≤ p ∧ p ≤ 4) : ∃ (q A : ℝ) (res : LsqResult Flt),
    (∀ i, (hp : i < [p, q].length) → (ht : i < [(0.001 : ℝ), 0.002].length) →
      (mixture pContents pConstants [(0.001 : ℝ), 0.002][i] 0.1 0.1 1).alk 3 ((10 : ℝ) ^ (-[p, q][i]))
        * ([(0.001 : ℝ), 0.002][i] + 0.1) = A * 0.1 - [(0.001 : ℝ), 0.002][i] * 0.1 * 2) ∧
    files_calibrate (calWorld p q) "a.dat" (fin (1e6 * A)) (fin 35) pArgs = .ok res ∧
    res.fun_ = [fin 0] ∧ res.x = fin 0.1 := by
  obtain ⟨q, A, h⟩ := p_exact p
  obtain ⟨r, T, h1, h2, -⟩ := C109_exact (calWorld p q) "a.dat" (fin 35) pArgs
    pContents pConstants A 0.1 2 1 3 4 0.1 [0.001, 0.002] [p, q] (cal_run p q) h
    ⟨p, by simp, hp.1, hp.2⟩
  obtain ⟨cv, totals, ks, hl, htm, hM, h3, h4⟩ := p_loads p q
  have hc := C32_same_solver_titrant (calWorld p q) "a.dat" "ph" (fin (1e6 * A)) (fin 35) (fin 0.1) pArgs
    cv totals ks _ _ _ lsqOnce_finite hl cal_typed htm hM (by
      intro m hm
      simp only [List.mem_cons, List.not_mem_nil, or_false] at hm
      rcases hm with rfl | rfl <;> norm_num) rfl (by decide) (by rw [h3, h4]; rfl)
  refine ⟨q, A, ⟨fin 0.1, [fin 0]⟩, h, ?_, rfl, rfl⟩
  have hs : solveRes (calWorld p q) "a.dat" (fin 35) (fin (1e6 * A)) pArgs (fin 0.1) ()
      = (.ok [fin 0], ()) := by
    simp only [solveRes, h1, bind_ok, pure_ok, SolveRes.alkalinity, h2, sub_fin, sub_self, PyS.lift]
  rw [hc]
  show (lsqOnce.run (solveRes (calWorld p q) "a.dat" (fin 35) (fin (1e6 * A)) pArgs) (fin 0.1) ()).1 = _
  simp [Lsq.run, Lsq.loop, lsqOnce, allFinite, PyS.bind_apply, hs]

end Calk
