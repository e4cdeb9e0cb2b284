import Verif.Props.DatasetTrue

/-!
# Property C121: what an inexact molinity, or an inexact calibration, costs

Optimisers stop at a small residual, not at zero, and reference materials have errors.  The alkalinity
reported in pH mode is a straight line in the molinity of the titrant; its slope turns the residual of
a calibration into the error of the molinity, and that into the error of a sample.
-/

namespace Calk
open Flt

/-! ## Specification -/

/-- what one mole of acid per kg of titrant adds to the alkalinity (µmol/kg) from a point with `m` kg
of titrant at a pH of `p`: its protons less those taken up by its own sulfate -/
noncomputable def Spec.acidShare (K : String → ℝ) (n g M m p : ℝ) : ℝ :=
  1e6 * (m * (n - g * ((10 : ℝ) ^ (-p) / (K "k_bisulfate" + (10 : ℝ) ^ (-p))))) / M

/-- the mean of a number for each point over the points with a pH from `lo` to `hi` -/
noncomputable def Spec.windowMean (lo hi : ℝ) (pH est : List ℝ) : ℝ :=
  (mask (pH.map fun p => decide (lo ≤ p) && decide (p ≤ hi)) est).sum
    / (pH.filter fun p => decide (lo ≤ p) && decide (p ≤ hi)).length

/-- by how much the reported alkalinity rises per mol/kg of molinity -/
noncomputable def Spec.acidSlope (K : String → ℝ) (n g lo hi M : ℝ) (tm pH : List ℝ) : ℝ :=
  Spec.windowMean lo hi pH (List.zipWith (Spec.acidShare K n g M) tm pH)

open Spec

theorem mask_sum_add (u : List Bool) (a b : List ℝ) (k : ℝ) (h : a.length = b.length) :
    (mask u (List.zipWith (fun x y => x + k * y) a b)).sum = (mask u a).sum + k * (mask u b).sum := by
  induction u generalizing a b with
  | nil => simp
  | cons t u ih =>
    match a, b, h with
    | [], [], _ => simp
    | x :: xs, y :: ys, h =>
      have := ih xs ys (by simpa using h)
      cases t <;> simp [this] <;> ring

theorem mask_sum_le {u : List Bool} {a b : List ℝ} (hl : a.length = b.length)
    (hle : ∀ i, (h1 : i < a.length) → (h2 : i < b.length) → a[i] ≤ b[i]) :
    (mask u a).sum ≤ (mask u b).sum := by
  induction u generalizing a b with
  | nil => simp
  | cons t us ih =>
    match a, b, hl with
    | [], [], _ => simp
    | x :: xs, y :: ys, hl =>
      have h0 : x ≤ y := hle 0 (by simp) (by simp)
      have h1 := ih (a := xs) (b := ys) (by simpa using hl) fun i h1 h2 =>
        hle (i + 1) (by simpa using h1) (by simpa using h2)
      cases t
      · simpa using h1
      · simp only [mask_cons_true, List.sum_cons]
        linarith

/-- what the solver reports with another molinity -/
theorem C121_line (w : World) (f : String) (S : Flt) (kw : Dict Val) (x K : String → ℝ)
    (c c' n g lo hi M : ℝ) (tm pH : List ℝ) (h : PHRun w f S kw x K c n g lo hi M tm pH)
    (hc' : 0 ≤ c' * g) (hin : ∃ p ∈ pH, lo ≤ p ∧ p ≤ hi) :
    ∃ (r r' : SolvePH) (T T' : List Flt) (a : ℝ),
      files_solve w f (fin c) S kw = .ok (.pH r (pH.map fin) T) ∧
      files_solve w f (fin c') S kw = .ok (.pH r' (pH.map fin) T') ∧
      r.alkalinity = fin a ∧ r'.alkalinity = fin (a + (c' - c) * acidSlope K n g lo hi M tm pH) := by
  obtain ⟨r, T, est, hr, hl, he, -, ha⟩ := C109_estimates w f S kw x K c n g lo hi M tm pH h hin
  obtain ⟨r', T', est', hr', hl', he', -, ha'⟩ :=
    C109_estimates w f S kw x K c' n g lo hi M tm pH (h.molinity hc') hin
  refine ⟨r, r', T, T', _, hr, hr', ha, ?_⟩
  have hM := h.mass
  have hlen := h.lengths
  have hest : est' = List.zipWith (fun x y => x + (c' - c) * y) est
      (List.zipWith (acidShare K n g M) tm pH) := by
    apply List.ext_getElem
    · simp [hl, hl', hlen]
    · intro j hj hj'
      have hp : j < pH.length := by rw [← hl']; exact hj
      have ht : j < tm.length := by rw [hlen]; exact hp
      have hm := h.masses _ (List.getElem_mem ht)
      have := mixture_alk_sub (x := x) (K := K) (m := tm[j]) (M := M) (c := c) (c' := c') (g := g)
        (h := (10 : ℝ) ^ (-pH[j])) (by positivity)
      rw [List.getElem_zipWith, List.getElem_zipWith, he j hp ht (by rw [hl]; exact hp), he' j hp ht hj]
      unfold acidShare
      rw [mul_div_assoc', ← add_div]
      congr 1
      linear_combination 1e6 * this
  rw [ha', hest, mask_sum_add _ _ _ _ (by simp [hl, hlen]), acidSlope, windowMean, add_div, mul_div_assoc']

/-- the slope is that of the titrant used, per kg of sample: between protons less sulfates, and protons -/
theorem C121_slope {K : String → ℝ} {n g lo hi M : ℝ} {tm pH : List ℝ} (hM : 0 < M) (hg : 0 ≤ g)
    (hK : 0 < K "k_bisulfate") (hm : ∀ m ∈ tm, 0 ≤ m) (hl : tm.length = pH.length) :
    1e6 * (n - g) / M * windowMean lo hi pH tm ≤ acidSlope K n g lo hi M tm pH ∧
      acidSlope K n g lo hi M tm pH ≤ 1e6 * n / M * windowMean lo hi pH tm := by
  have hfac : ∀ p : ℝ, 0 ≤ (10 : ℝ) ^ (-p) / (K "k_bisulfate" + (10 : ℝ) ^ (-p)) ∧
      (10 : ℝ) ^ (-p) / (K "k_bisulfate" + (10 : ℝ) ^ (-p)) ≤ 1 := by
    intro p
    have h0 : (0 : ℝ) < (10 : ℝ) ^ (-p) := by positivity
    exact ⟨by positivity, by rw [div_le_one (by positivity)]; linarith⟩
  have hs : ∀ k : ℝ, k * windowMean lo hi pH tm = windowMean lo hi pH (tm.map (k * ·)) := by
    intro k
    unfold windowMean
    rw [mul_div_assoc', mask_map]
    congr 1
    induction mask (pH.map fun p => decide (lo ≤ p) && decide (p ≤ hi)) tm with
    | nil => simp
    | cons a l ih => simp [mul_add, ih]
  have hmono : ∀ a b : List ℝ, a.length = b.length →
      (∀ i, (h1 : i < a.length) → (h2 : i < b.length) → a[i] ≤ b[i]) →
      windowMean lo hi pH a ≤ windowMean lo hi pH b := by
    intro a b h1 h2
    unfold windowMean
    exact div_le_div_of_nonneg_right (mask_sum_le h1 h2) (by positivity)
  rw [hs, hs]
  constructor
  · refine hmono _ _ (by simp [hl]) fun i h1 h2 => ?_
    rw [List.getElem_map, List.getElem_zipWith]
    have hi : i < tm.length := by simpa using h1
    have hp : i < pH.length := by rw [← hl]; exact hi
    have h0 := hm _ (List.getElem_mem hi)
    obtain ⟨f1, f2⟩ := hfac pH[i]
    unfold acidShare
    rw [div_mul_eq_mul_div, mul_assoc]
    apply div_le_div_of_nonneg_right _ hM.le
    have : (n - g) * tm[i] ≤ tm[i] * (n - g * ((10 : ℝ) ^ (-pH[i]) / (K "k_bisulfate" + (10 : ℝ) ^ (-pH[i])))) := by
      rw [mul_comm]
      apply mul_le_mul_of_nonneg_left _ h0
      have := mul_le_of_le_one_right hg f2
      linarith
    linarith
  · refine hmono _ _ (by simp [hl]) fun i h1 h2 => ?_
    rw [List.getElem_map, List.getElem_zipWith]
    have hi : i < tm.length := by simpa using h2
    have hp : i < pH.length := by rw [← hl]; exact hi
    have h0 := hm _ (List.getElem_mem hi)
    obtain ⟨f1, f2⟩ := hfac pH[i]
    unfold acidShare
    rw [div_mul_eq_mul_div, mul_assoc]
    apply div_le_div_of_nonneg_right _ hM.le
    have : tm[i] * (n - g * ((10 : ℝ) ^ (-pH[i]) / (K "k_bisulfate" + (10 : ℝ) ^ (-pH[i])))) ≤ n * tm[i] := by
      rw [mul_comm n]
      apply mul_le_mul_of_nonneg_left _ h0
      have := mul_nonneg hg f1
      linarith
    linarith

/-- the residual that a calibration reports is that of the solver at the molinity it reports -/
theorem calibrate_residual (w : World) (f : String) (cert S : Flt) (kw : Dict Val) (res : LsqResult Flt)
    (hreg : Regular w f S kw) (hg : kw.get? "gran_logic" = none)
    (hcal : files_calibrate w f cert S kw = .ok res) :
    ∃ sr, files_solve w f res.x S kw = .ok sr ∧ res.fun_ = [sr.alkalinity - cert] := by
  obtain ⟨hr, cv, totals, ks, mode, c0, tts, hl, ht, hm, hlen, hor⟩ := hreg
  have hrun : files_calibrate w f cert S kw = (w.opt.run (solveRes w f S cert kw) c0 ()).1 := by
    rcases hor with rfl | ⟨hopt, tm, M, htm, hM, hmm⟩
    · exact C32_same_solver w f mode cert S c0 kw cv totals ks hl ht hg hm hlen
    · exact C32_same_solver_titrant w f mode cert S c0 kw cv totals ks tts tm M hopt hl ht htm hM hmm
        hg hm hlen
  rw [hcal] at hrun
  have h := loop_reports_any hr (g := fun c => do
    let r ← files_solve w f c S kw
    return [r.alkalinity - cert]) w.opt.maxEval [] (by simp) hrun.symm
  simp only [bind_ok_iff, pure_ok, Except.ok.injEq] at h
  obtain ⟨sr, h1, h2⟩ := h
  exact ⟨sr, h1, h2.symm⟩

/-- **C121**: a pH-mode calibration of a file against the certified value `cert` finds, if it stops at
the residual `ρ`, the molinity that is off by `ρ`, and by what the file is off (`a` is what solving it
with the true molinity `c` gives), over the slope. -/
theorem C121_calibrated (w : World) (f : String) (S : Flt) (kw : Dict Val) (x K : String → ℝ)
    (c c' n g lo hi M cert : ℝ) (tm pH : List ℝ) (h : PHRun w f S kw x K c n g lo hi M tm pH)
    (hin : ∃ p ∈ pH, lo ≤ p ∧ p ≤ hi)
    (hreg : Regular w f S kw) (hgl : kw.get? "gran_logic" = none) (res : LsqResult Flt)
    (hcal : files_calibrate w f (fin cert) S kw = .ok res)
    (hx : res.x = fin c') (hc' : 0 ≤ c' * g) :
    ∃ (r : SolvePH) (T : List Flt) (a ρ : ℝ), files_solve w f (fin c) S kw = .ok (.pH r (pH.map fin) T) ∧
      r.alkalinity = fin a ∧ res.fun_ = [fin ρ] ∧
      (c' - c) * acidSlope K n g lo hi M tm pH = ρ + (cert - a) := by
  obtain ⟨r, r', T, T', a, h1, h2, h3, h4⟩ := C121_line w f S kw x K c c' n g lo hi M tm pH h hc' hin
  obtain ⟨sr, h5, h6⟩ := calibrate_residual w f (fin cert) S kw res hreg hgl hcal
  rw [hx, h2] at h5
  cases h5
  refine ⟨r, T, a, a + (c' - c) * acidSlope K n g lo hi M tm pH - cert, h1, h3,
    h6.trans (by simp only [SolveRes.alkalinity, h4, sub_fin]), ?_⟩
  ring

/-! ## Data sets -/

/-- the row is a reference: a calibration of its file against its certified value, if it returns, finds
a molinity within `κ` of `c` -/
def Spec.NearReference (w : World) (kw : Dict Val) (cols : List String) (r : Row) (c κ : ℝ) : Prop :=
  ∃ f S cert, Spec.HasFile cols r f S ∧ (∃ kwb, backcompat kw (rowDict cols r) = .ok kwb) ∧
    r "alkalinity_certified" = .num (fin cert) ∧
    ∀ st, Spec.SettingsOf keys_calibrate w kw cols r st →
      ∀ res, files_calibrate w f (fin cert) S st = .ok res → ∃ c', res.x = fin c' ∧ |c' - c| ≤ κ

/-- solving the file of the row with any molinity within `κ` of `c` gives an alkalinity (µmol/kg) within
`e` of `A` -/
def Spec.NearRow (w : World) (kw : Dict Val) (cols : List String) (r : Row) (A c κ e : ℝ) : Prop :=
  ∃ f S, Spec.HasFile cols r f S ∧ (∃ kwb, backcompat kw (rowDict cols r) = .ok kwb) ∧
    ∀ st, Spec.SettingsOf keys_solve w kw cols r st → ∀ c' : ℝ, |c' - c| ≤ κ →
      ∃ sr a, files_solve w f (fin c') S st = .ok sr ∧ sr.alkalinity = fin a ∧ |a - A| ≤ e

theorem mean_near {xs : List Flt} {c κ : ℝ} (h : ∀ y ∈ xs, ∃ z, y = fin z ∧ |z - c| ≤ κ) (hne : xs ≠ []) :
    ∃ m, npMean xs = fin m ∧ |m - c| ≤ κ := by
  obtain ⟨l, rfl, hl⟩ : ∃ l : List ℝ, xs = l.map fin ∧ ∀ z ∈ l, |z - c| ≤ κ := by
    clear hne
    induction xs with
    | nil => exact ⟨[], rfl, by simp⟩
    | cons y ys ih =>
      obtain ⟨l, h1, h2⟩ := ih fun z hz => h z (List.mem_cons_of_mem _ hz)
      obtain ⟨z, rfl, hz⟩ := h _ (List.mem_cons_self ..)
      refine ⟨z :: l, by rw [h1]; rfl, ?_⟩
      intro q hq
      rcases List.mem_cons.mp hq with rfl | hq
      · exact hz
      · exact h2 q hq
  have hl0 : l ≠ [] := by rintro rfl; exact hne rfl
  refine ⟨_, npMean_map_fin _ hl0, ?_⟩
  have hs : |l.sum - l.length * c| ≤ l.length * κ := by
    clear hne hl0 h
    induction l with
    | nil => simp
    | cons z l ih =>
      have h1 := ih fun q hq => hl q (List.mem_cons_of_mem _ hq)
      have h2 := hl z (List.mem_cons_self ..)
      simp only [List.sum_cons, List.length_cons, Nat.cast_add, Nat.cast_one]
      rw [abs_le] at *
      constructor <;> linarith [h1.1, h1.2, h2.1, h2.2]
  have hn : (0 : ℝ) < l.length := by exact_mod_cast List.length_pos_of_ne_nil hl0
  unfold rmean
  rw [show l.sum / l.length - c = (l.sum - l.length * c) / l.length by field_simp, abs_div, abs_of_pos hn,
    div_le_iff₀ hn]
  linarith

/-- **C121**: if calibrating each reference that was used finds the molinity of the acid of its batch
within `κ`, every row of a batch that has one gets a molinity within `κ` of it, and every row of which
the alkalinity is within `e` of `A` for any such molinity gets an alkalinity within `e` of `A`. -/
theorem C121_dataset (w : World) (kw : Dict Val) (df df' : DF) (hkw : kw.keys.Nodup)
    (h : dataset_calibrate w kw df = (.ok (), df'))
    (hl : ∀ r ∈ df'.rows, Label (r "analysis_batch")) (c κ : Val → ℝ)
    (href : List.Forall₂ (fun r r' => IsReference r' →
      NearReference w kw df.cols r (c (r' "analysis_batch")) (κ (r' "analysis_batch"))) df.rows df'.rows) :
    List.Forall₂ (fun r r' =>
      (∃ q ∈ df'.rows, IsReference q ∧ q "analysis_batch" = r' "analysis_batch") →
      (∃ c', r' "titrant_molinity" = .num (fin c') ∧
        |c' - c (r' "analysis_batch")| ≤ κ (r' "analysis_batch")) ∧
      ∀ A e, NearRow w kw df.cols r A (c (r' "analysis_batch")) (κ (r' "analysis_batch")) e →
        ∃ a, r' "alkalinity" = .num (fin a) ∧ |a - A| ≤ e ∧
          ∀ y, r "alkalinity_certified" = .num (fin y) → r' "alkalinity_offset" = .num (fin (a - y)))
      df.rows df'.rows := by
  have hhere : ∀ q ∈ df'.rows, IsReference q → ∃ z,
      q "titrant_molinity_here" = .num (fin z) ∧ |z - c (q "analysis_batch")| ≤ κ (q "analysis_batch") := by
    intro q hq hisr
    obtain ⟨r, -, h1, h2⟩ := forall₂_mem_right (forall₂_both (C97_calibrate w kw df df' h) href) hq
    obtain ⟨f, S, cert, hf, ⟨kwb, hb⟩, hcert, hx⟩ := h2 hisr
    obtain ⟨st, hst, hget, hok, herr⟩ :=
      h1 f _ S kwb hf.column hf.name hcert (by simp) hf.salinity hf.good hb
    cases hres : files_calibrate w f (fin cert) S st with
    | ok res =>
      obtain ⟨c', e1, e2⟩ := hx st ⟨hst hkw, kwb, hb, hget⟩ res hres
      exact ⟨c', by rw [hok res hres, e1], e2⟩
    | error e =>
      have := hisr.2
      rw [herr e hres] at this
      simp [Val.isNull, Flt.isNaN] at this
  have hmean : ∀ b, (∃ q ∈ df'.rows, IsReference q ∧ q "analysis_batch" = b) →
      ∃ m, npMean (goodHere df'.rows b) = fin m ∧ |m - c b| ≤ κ b := by
    rintro b ⟨q, hq, hisr, rfl⟩
    obtain ⟨z, hz, -⟩ := hhere q hq hisr
    refine mean_near ?_ (List.ne_nil_of_mem (a := fin z) ?_)
    · intro y hy
      unfold goodHere at hy
      obtain ⟨p, hp, hpy⟩ := List.mem_filterMap.mp hy
      cases hc : p "titrant_molinity_here" with
      | num x =>
        rw [hc] at hpy
        simp only [Option.ite_none_right_eq_some, Option.some.injEq] at hpy
        obtain ⟨⟨h1, h2, h3⟩, rfl⟩ := hpy
        obtain ⟨z, hz, hzz⟩ := hhere p hp ⟨h2, by
          rw [hc]; cases x <;> first | rfl | exact absurd rfl h3⟩
        rw [hc] at hz
        rw [h1] at hzz
        exact ⟨z, Val.num.inj hz, hzz⟩
      | _ => rw [hc] at hpy; cases hpy
    · unfold goodHere
      refine List.mem_filterMap.mpr ⟨q, hq, ?_⟩
      rw [hz]
      simp only
      rw [if_pos ⟨rfl, hisr.1, by simp⟩]
  refine (forall₂_with_mem (C97_solve w kw df df' h)).imp ?_
  rintro r r' ⟨hs, hr'⟩ hq
  obtain ⟨m, hm, hmc⟩ := hmean _ hq
  have hc : r' "titrant_molinity" = .num (fin m) := by
    rw [C43_batch_mean w kw df df' h hl r' hr', hm]
  refine ⟨⟨m, hc, hmc⟩, ?_⟩
  rintro A e ⟨f, S, hf, ⟨kwb, hb⟩, hsol⟩
  obtain ⟨st, hst, hget, hok, -⟩ := hs f _ S kwb hf.column hf.name hc (by simp) hf.salinity hf.good hb
  obtain ⟨sr, a, hsr, ha, hae⟩ := hsol st ⟨hst hkw, kwb, hb, hget⟩ m hmc
  obtain ⟨hrep, hoff⟩ := hok sr hsr
  refine ⟨a, ?_, hae, ?_⟩
  · have : r' "alkalinity" = .num sr.alkalinity := by cases sr <;> exact hrep.1
    rw [this, ha]
  · intro y hcert
    rw [hoff _ hcert, ha, sub_fin]

/-! ### pH mode -/

/-- **Specification**: the row is a pH titration with acid of molinity `c`, `g` sulfates and more
protons per mole, not necessarily exact: its file, read with the row's settings, is in pH mode with all
contents and constants given; some point is in the window; solved with the true molinity the file gives
an alkalinity within `e` of `A` µmol/kg; the slope is `s`. -/
structure Spec.TitrationPH (w : World) (kw : Dict Val) (cols : List String) (r : Row) (A c e s : ℝ) (f : String)
    (S : Flt) (g : ℝ) : Prop where
  file : HasFile cols r f S
  run : ∃ (st : Dict Val) (x K : String → ℝ) (n lo hi M : ℝ) (tm pH : List ℝ),
    SettingsOf keys_solve w kw cols r st ∧ PHRun w f S st x K c n g lo hi M tm pH ∧
    s = acidSlope K n g lo hi M tm pH ∧ (∃ p ∈ pH, lo ≤ p ∧ p ≤ hi) ∧
    ∃ sr a, files_solve w f (fin c) S st = .ok sr ∧ sr.alkalinity = fin a ∧ |a - A| ≤ e

/-- **Specification**: what a calibration of the row needs, and that it ends with a residual of at most
`τ` µmol/kg -/
structure Spec.CalibratedTo (w : World) (kw : Dict Val) (cols : List String) (r : Row) (cert τ : ℝ)
    (f : String) (S : Flt) (g : ℝ) : Prop where
  certified : r "alkalinity_certified" = .num (fin cert)
  typed : ∃ st, SettingsOf keys_calibrate w kw cols r st ∧
    (∃ c0, argNum st "titrant_molinity_init" (fin 0.1) = .ok c0) ∧ (∃ o, emf_opts st = .ok o) ∧
    ∀ cv totals ks, load w f S st = .ok (cv, totals, ks) → cv.measurement.length = cv.temperature.length
  small : ∀ st, SettingsOf keys_calibrate w kw cols r st → ∀ res,
    files_calibrate w f (fin cert) S st = .ok res → ∀ ρ, res.fun_ = [fin ρ] → |ρ| ≤ τ
  found : ∀ st, SettingsOf keys_calibrate w kw cols r st → ∀ res,
    files_calibrate w f (fin cert) S st = .ok res → ∃ c', res.x = fin c' ∧ 0 ≤ c' * g

theorem pH_settings {w : World} (hw : ByName w) {kw : Dict Val} {cols : List String} {r : Row}
    {st st' : Dict Val} {f : String} {S : Flt} {x K : String → ℝ} {c n g lo hi M : ℝ} {tm pH : List ℝ}
    (hst : SettingsOf keys_solve w kw cols r st) {keys : List String}
    (hst' : SettingsOf keys w kw cols r st') (hk : ∀ k ∈ keys_solve, k ≠ "gran_logic" → k ∈ keys)
    (hrun : PHRun w f S st x K c n g lo hi M tm pH) (hin : ∃ p ∈ pH, lo ≤ p ∧ p ≤ hi) :
    PHRun w f S st' x K c n g lo hi M tm pH ∧
    ∀ sr, files_solve w f (fin c) S st = .ok sr → ∃ sr', files_solve w f (fin c) S st' = .ok sr' ∧
      sr'.alkalinity = sr.alkalinity := by
  have hrun' := (hst.agree hst' (fun _ h _ => h) hk).phRun hw hst'.1 hrun
  refine ⟨hrun', fun sr hsr => ?_⟩
  obtain ⟨r1, T1, est1, h1, l1, e1, -, a1⟩ := C109_estimates w f S st x K c n g lo hi M tm pH hrun hin
  obtain ⟨r2, T2, est2, h2, l2, e2, -, a2⟩ := C109_estimates w f S st' x K c n g lo hi M tm pH hrun' hin
  rw [h1] at hsr
  cases hsr
  refine ⟨_, h2, ?_⟩
  have : est1 = est2 := by
    apply List.ext_getElem (by rw [l1, l2])
    intro i hi1 hi2
    have hp : i < pH.length := by rw [← l1]; exact hi1
    have ht : i < tm.length := by rw [hrun.lengths]; exact hp
    rw [e1 i hp ht hi1, e2 i hp ht hi2]
  simp only [SolveRes.alkalinity, a1, a2, this]

theorem titrationPH_row {w : World} (hw : ByName w) {kw : Dict Val} {cols : List String} {r : Row}
    {A c e s κ : ℝ} {f : String} {S : Flt} {g : ℝ} (h : TitrationPH w kw cols r A c e s f S g)
    (hg : 0 ≤ g) (hκ : κ ≤ c) : NearRow w kw cols r A c κ (e + |s| * κ) := by
  obtain ⟨hf, st, x, K, n, lo, hi, M, tm, pH, hst, hrun, rfl, hin, sr, a, hsr, ha, hae⟩ := h
  refine ⟨f, S, hf, ?_, fun st' hst' c' hc' => ?_⟩
  · obtain ⟨-, kwb, hb, -⟩ := hst
    exact ⟨kwb, hb⟩
  obtain ⟨hrun', hsame⟩ := pH_settings hw hst hst' (fun _ h _ => h) hrun hin
  obtain ⟨sr', hsr', ha'⟩ := hsame sr hsr
  have hc0 : 0 ≤ c' := by have := (abs_le.mp hc').1; linarith
  obtain ⟨r1, r2, T1, T2, a1, h1, h2, h3, h4⟩ := C121_line w f S st' x K c c' n g lo hi M tm pH hrun'
    (mul_nonneg hc0 hg) hin
  rw [h1] at hsr'
  cases hsr'
  have haa : a1 = a := Flt.fin.inj (h3.symm.trans (ha'.trans ha))
  refine ⟨_, _, h2, h4, ?_⟩
  rw [haa, show a + (c' - c) * acidSlope K n g lo hi M tm pH - A
    = (a - A) + acidSlope K n g lo hi M tm pH * (c' - c) by ring]
  refine (abs_add_le _ _).trans (add_le_add hae ?_)
  rw [abs_mul]
  exact mul_le_mul_of_nonneg_left hc' (abs_nonneg _)

theorem titrationPH_reference {w : World} (hw : ByName w) (ho : ReportsEvaluated w.opt)
    (ho' : FiniteTrials w.opt) {kw : Dict Val} {cols : List String} {r : Row} {A c e s τ : ℝ}
    {f : String} {S : Flt} {g : ℝ} (h : TitrationPH w kw cols r A c e s f S g) (hs : 0 < s)
    (hc : CalibratedTo w kw cols r A τ f S g) : NearReference w kw cols r c ((e + τ) / s) := by
  obtain ⟨hf, st, x, K, n, lo, hi, M, tm, pH, hst, hrun, rfl, hin, sr, a, hsr, ha, hae⟩ := h
  refine ⟨f, S, A, hf, ?_, hc.certified, fun st' hst' res hres => ?_⟩
  · obtain ⟨-, kwb, hb, -⟩ := hst
    exact ⟨kwb, hb⟩
  obtain ⟨sc, hsc, hc0, hopts, hT⟩ := hc.typed
  obtain ⟨c', hx, hc'⟩ := hc.found st' hst' res hres
  obtain ⟨hrun', hsame⟩ := pH_settings hw hst hst' calibrate_keys hrun hin
  obtain ⟨sr', hsr', ha'⟩ := hsame sr hsr
  have hsame := hsc.same hst'
  have hreg : Regular w f S st' := phRun_regular ho ho' hrun' (by rw [← hsame.argNum]; exact hc0)
    (by rw [← emf_opts_congr hsame]; exact hopts)
    (by rw [← (hsc.agree hst' calibrate_keys calibrate_keys).load hw]; exact hT)
  have hgl : st'.get? "gran_logic" = none := by
    obtain ⟨-, kwb, -, hget⟩ := hst'
    rw [hget, if_neg (by decide)]
  obtain ⟨r1, T1, a1, ρ, h1, h2, h3, h4⟩ := C121_calibrated w f S st' x K c c' n g lo hi M A tm pH hrun' hin
    hreg hgl res hres hx hc'
  rw [h1] at hsr'
  cases hsr'
  have haa : a1 = a := Flt.fin.inj (h2.symm.trans (ha'.trans ha))
  refine ⟨c', hx, ?_⟩
  rw [le_div_iff₀ hs, ← abs_of_pos hs, ← abs_mul, h4, haa]
  refine (abs_add_le _ _).trans ?_
  rw [abs_sub_comm A a]
  linarith [hc.small st' hst' res hres ρ h3]

/-- **C121**, pH mode: references whose files are off by up to `e` and whose calibrations stop at
residuals of up to `τ` give a molinity that is off by up to `κ`, where `(e + τ) / s ≤ κ` for each of
them; a sample of alkalinity `A` whose file is off by up to `e'` gets it within `e' + s' κ`. -/
theorem C121_pH (w : World) (hw : ByName w) (ho : ReportsEvaluated w.opt) (ho' : FiniteTrials w.opt)
    (kw : Dict Val) (df df' : DF) (hkw : kw.keys.Nodup)
    (h : dataset_calibrate w kw df = (.ok (), df'))
    (hl : ∀ r ∈ df'.rows, Label (r "analysis_batch")) (c κ : Val → ℝ)
    (href : List.Forall₂ (fun r r' => IsReference r' → ∃ A e s τ f S g,
      TitrationPH w kw df.cols r A (c (r' "analysis_batch")) e s f S g ∧ 0 < s ∧
      CalibratedTo w kw df.cols r A τ f S g ∧ (e + τ) / s ≤ κ (r' "analysis_batch")) df.rows df'.rows) :
    List.Forall₂ (fun r r' =>
      (∃ q ∈ df'.rows, IsReference q ∧ q "analysis_batch" = r' "analysis_batch") →
      (∃ c', r' "titrant_molinity" = .num (fin c') ∧
        |c' - c (r' "analysis_batch")| ≤ κ (r' "analysis_batch")) ∧
      ∀ A e s f S g, TitrationPH w kw df.cols r A (c (r' "analysis_batch")) e s f S g → 0 ≤ g →
        κ (r' "analysis_batch") ≤ c (r' "analysis_batch") →
        ∃ a, r' "alkalinity" = .num (fin a) ∧ |a - A| ≤ e + |s| * κ (r' "analysis_batch") ∧
          ∀ y, r "alkalinity_certified" = .num (fin y) → r' "alkalinity_offset" = .num (fin (a - y)))
      df.rows df'.rows := by
  have := C121_dataset w kw df df' hkw h hl c κ (href.imp fun r r' hr hi => by
    obtain ⟨A, e, s, τ, f, S, g, h1, h2, h3, h4⟩ := hr hi
    obtain ⟨f', S', cert, q1, q2, q3, q4⟩ := titrationPH_reference hw ho ho' h1 h2 h3
    exact ⟨f', S', cert, q1, q2, q3, fun st hst res hres => by
      obtain ⟨c', z1, z2⟩ := q4 st hst res hres
      exact ⟨c', z1, z2.trans h4⟩⟩)
  exact this.imp fun r r' hr hq => ⟨(hr hq).1, fun A e s f S g hx hg hκ =>
    (hr hq).2 A _ (titrationPH_row hw hx hg hκ)⟩

/-! ### A case: the reference of C118 with a certified value that is 5 µmol/kg too high -/

theorem dt_slope (p q : ℝ) (hp : 3 ≤ p ∧ p ≤ 4) :
    1e4 ≤ acidSlope pConstants 2 1 3 4 0.1 [0.001, 0.002] [p, q] ∧
    acidSlope pConstants 2 1 3 4 0.1 [0.001, 0.002] [p, q] ≤ 4e4 := by
  obtain ⟨h1, h2⟩ := C121_slope (K := pConstants) (n := 2) (g := 1) (lo := 3) (hi := 4) (M := 0.1)
    (tm := [0.001, 0.002]) (pH := [p, q]) (by norm_num) (by norm_num) (by norm_num [pConstants])
    (by intro m hm; simp only [List.mem_cons, List.not_mem_nil, or_false] at hm
        rcases hm with rfl | rfl <;> norm_num) rfl
  have hw : 0.001 ≤ windowMean 3 4 [p, q] [0.001, 0.002] ∧ windowMean 3 4 [p, q] [0.001, 0.002] ≤ 0.002 := by
    unfold windowMean
    by_cases hq : 3 ≤ q ∧ q ≤ 4
    · simp [hp.1, hp.2, hq.1, hq.2]; norm_num
    · have : (decide (3 ≤ q) && decide (q ≤ 4)) = false := by
        simpa only [Bool.and_eq_false_iff, decide_eq_false_iff_not, not_and_or] using hq
      simp [hp.1, hp.2, this]; norm_num
  constructor
  · refine le_trans ?_ h1
    norm_num at hw ⊢
    linarith
  · refine h2.trans ?_
    norm_num at hw ⊢
    linarith

theorem dt_titration {p q A : ℝ} (hp : 3 ≤ p ∧ p ≤ 4) (h : dtBalance p q A) (cert : Flt) (B : ℝ) :
    TitrationPH (calWorld p q) [] dtCols (dtRow cert) (1e6 * B) 0.1 |1e6 * A - 1e6 * B|
      (acidSlope pConstants 2 1 3 4 0.1 [0.001, 0.002] [p, q]) "a.dat" (fin 35) 1 where
  file := dt_file cert
  run := by
    obtain ⟨r, T, h1, h2, -⟩ := C109_exact (calWorld p q) "a.dat" (fin 35) dtArgs
      pContents pConstants A 0.1 2 1 3 4 0.1 [0.001, 0.002] [p, q] (dt_run p q) h ⟨p, by simp, hp.1, hp.2⟩
    exact ⟨dtArgs, pContents, pConstants, 2, 3, 4, 0.1, _, _, dt_solve_settings _ cert, dt_run p q, rfl,
      ⟨p, by simp, hp.1, hp.2⟩, _, _, h1, h2, le_rfl⟩

theorem dt_calibrated {p q A : ℝ} (hp : 3 ≤ p ∧ p ≤ 4) (h : dtBalance p q A) (B : ℝ) :
    CalibratedTo (calWorld p q) [] dtCols (dtRow (fin (1e6 * B))) (1e6 * B) |1e6 * A - 1e6 * B| "a.dat"
      (fin 35) 1 where
  certified := rfl
  typed := ⟨dtArgs, dt_cal_settings _ _, ⟨_, rfl⟩, ⟨_, rfl⟩, dt_temps p q⟩
  small st hst res hres ρ hρ := by
    rw [dt_calibrate_to B hp h _ hst] at hres
    rw [← Except.ok.inj hres] at hρ
    simp only [List.cons.injEq, fin_inj, and_true] at hρ
    rw [hρ]
  found st hst res hres := by
    rw [dt_calibrate_to B hp h _ hst] at hres
    rw [← Except.ok.inj hres]
    exact ⟨0.1, rfl, by norm_num⟩

/-- every hypothesis of `C121_pH` is met: the molinity is found within 0.001 mol/kg and the sample's
alkalinity within 40 µmol/kg -/
example (p : ℝ) (hp : 3 ≤ p ∧ p ≤ 4) : ∃ (q A : ℝ) (df' : DF) (r1 r2 : Row) (c a : ℝ), dtBalance p q A ∧
    dataset_calibrate (calWorld p q) [] ⟨dtCols, [dtRow (fin (1e6 * (A + 5e-6))), dtRow nan]⟩ = (.ok (), df') ∧
    df'.rows = [r1, r2] ∧ r2 "titrant_molinity" = .num (fin c) ∧ |c - 0.1| ≤ 0.001 ∧
    r2 "alkalinity" = .num (fin a) ∧ |a - 1e6 * A| ≤ 40 := by
  obtain ⟨q, A, hbal⟩ := p_exact p
  obtain ⟨df', r1, r2, h, hr, hb, h1, h2⟩ := cell_frame (calWorld p q) pArgs (A + 5e-6) 0.1
    (by rw [dt_keys]; decide) (by rw [dt_keys]; decide) (by rw [dt_keys]; decide)
    (by rw [dt_keys]; decide) (by rw [dt_keys]; decide)
    (fun st hst => dt_calibrate_to (A + 5e-6) hp hbal _ hst)
  have hmain := C121_pH (calWorld p q) (dt_byName p q) lsqOnce_reports lsqOnce_finite [] _ df'
    (by decide) h (fun r hr => by rw [hb r hr]; exact .inr ⟨_, rfl, by simp⟩) (fun _ => 0.1) (fun _ => 0.001)
  rw [hr] at hmain hb
  simp only [List.forall₂_cons, List.Forall₂.nil, and_true] at hmain
  obtain ⟨s1, s2⟩ := dt_slope p q hp
  have hs0 : 0 < acidSlope pConstants 2 1 3 4 0.1 [0.001, 0.002] [p, q] := lt_of_lt_of_le (by norm_num) s1
  have hoff : |1e6 * A - 1e6 * (A + 5e-6)| = 5 := by
    rw [show 1e6 * A - 1e6 * (A + 5e-6) = -5 by ring]; norm_num
  obtain ⟨-, g2⟩ := hmain
    ⟨fun _ => ⟨1e6 * (A + 5e-6), _, _, _, "a.dat", fin 35, 1, dt_titration hp hbal _ (A + 5e-6), hs0,
      dt_calibrated hp hbal (A + 5e-6), by
        rw [hoff, div_le_iff₀ hs0]
        norm_num at s1 ⊢
        linarith⟩,
      fun hi => absurd hi h2⟩
  obtain ⟨⟨c, hc, hcc⟩, g2⟩ := g2 ⟨r1, by simp, h1, by rw [hb r1 (by simp), hb r2 (by simp)]⟩
  obtain ⟨a, ha, hae, -⟩ := g2 _ _ _ _ _ _ (dt_titration hp hbal _ A) zero_le_one (by norm_num)
  refine ⟨q, A, df', r1, r2, c, a, hbal, h, hr, hc, hcc, ha, hae.trans ?_⟩
  rw [sub_self, abs_zero, abs_of_pos hs0]
  norm_num at s2 ⊢
  linarith

end Calk
