import Verif.Props.PHOffset

/-!
# Property C149: a burette that is off by a constant factor
-/

namespace Calk
open Flt

/-! ## Specification -/

/-- the points in the window follow the charge balance of a sample of alkalinity `A` with the acid of molinity `c`,
of which the burette delivered `k` times the masses recorded -/
def Spec.Delivers (x K : String → ℝ) (A c n g lo hi M k : ℝ) (tm pH : List ℝ) : Prop :=
  ∀ z ∈ tm.zip pH, lo ≤ z.2 → z.2 ≤ hi →
    (mixture x K (k * z.1) M c g).alk 3 ((10 : ℝ) ^ (-z.2)) * (k * z.1 + M) = A * M - k * z.1 * c * n

/-- how far (µmol/kg) the dilution by at most `μ` kg of titrant per kg of sample is misjudged -/
noncomputable def Spec.misjudged (K : String → ℝ) (lo hi k μ : ℝ) : ℝ :=
  1e6 * (|k - 1| * μ * max ((10 : ℝ) ^ (-lo)) (K "k_water" * (10 : ℝ) ^ hi))

/-- **Specification**: the row is a pH titration of a sample of alkalinity `A` (mol/kg) with acid of molinity `c` and
`g` sulfates per mole, exact for the masses that a burette delivers that gives `k` times what it records; `e` is its
misjudged dilution and `s` the slope of its alkalinity against the molinity. -/
structure Spec.BuretteRow (w : World) (kw : Dict Val) (cols : List String) (r : Row) (A c k e s : ℝ) (f : String)
    (S : Flt) (g : ℝ) : Prop where
  file : Spec.HasFile cols r f S
  run : ∃ (st : Dict Val) (x K : String → ℝ) (n lo hi M μ : ℝ) (tm pH : List ℝ),
    Spec.SettingsOf keys_solve w kw cols r st ∧ PHRun w f S st x K (k * c) n g lo hi M tm pH ∧
    s = Spec.acidSlope K n g lo hi M tm pH ∧ e = Spec.misjudged K lo hi k μ ∧ (∃ p ∈ pH, lo ≤ p ∧ p ≤ hi) ∧
    Spec.Delivers x K A c n g lo hi M k tm pH ∧ ∀ m ∈ tm, m ≤ μ * M

open Spec

/-! ## Lemmas -/

theorem windowMean_pairs {lo hi a b : ℝ} {tm pH : List ℝ} {e : ℝ → ℝ → ℝ} (hl : tm.length = pH.length)
    (hin : ∃ p ∈ pH, lo ≤ p ∧ p ≤ hi)
    (h : ∀ z ∈ tm.zip pH, lo ≤ z.2 → z.2 ≤ hi → a ≤ e z.1 z.2 ∧ e z.1 z.2 ≤ b) :
    a ≤ windowMean lo hi pH (List.zipWith e tm pH) ∧ windowMean lo hi pH (List.zipWith e tm pH) ≤ b := by
  have hN : 0 < ((pH.filter fun p => decide (lo ≤ p) && decide (p ≤ hi)).length : ℝ) := by
    obtain ⟨p, hp, h1, h2⟩ := hin
    have : p ∈ pH.filter fun p => decide (lo ≤ p) && decide (p ≤ hi) := by
      simp [hp, h1, h2]
    exact_mod_cast List.length_pos_of_mem this
  clear hin
  unfold windowMean
  rw [le_div_iff₀ hN, div_le_iff₀ hN]
  clear hN
  induction pH generalizing tm with
  | nil => simp
  | cons p pH ih =>
    match tm, hl, h with
    | m :: tm, hl, h =>
      obtain ⟨i1, i2⟩ := ih (by simpa using hl) fun z hz => h z (List.mem_cons_of_mem _ hz)
      cases hW : (decide (lo ≤ p) && decide (p ≤ hi))
      · simp only [List.map_cons, List.zipWith_cons_cons, hW, mask_cons_false, List.filter_cons, Bool.false_eq_true,
          if_false]
        exact ⟨i1, i2⟩
      · simp only [List.map_cons, List.zipWith_cons_cons, hW, mask_cons_true, List.filter_cons, if_true,
          List.sum_cons, List.length_cons, Nat.cast_add, Nat.cast_one]
        simp only [Bool.and_eq_true, decide_eq_true_eq] at hW
        obtain ⟨j1, j2⟩ := h (m, p) (List.mem_cons_self ..) hW.1 hW.2
        constructor <;> linarith

/-- the estimate from a recorded mass and the strengthened acid, against that from the true mass and acid -/
theorem estimate_recorded (x K : String → ℝ) (c n g M k m p : ℝ) :
    estimate x K (k * c) n g M m p = estimate x K c n g M (k * m) p
      + 1e6 * ((k - 1) * (m / M) * ((10 : ℝ) ^ (-p) - K "k_water" / (10 : ℝ) ^ (-p))) := by
  unfold estimate titrantAcid
  ring

theorem Spec.Delivers.estimate {x K : String → ℝ} {A c n g lo hi M k : ℝ} {tm pH : List ℝ}
    (h : Delivers x K A c n g lo hi M k tm pH) (hM : 0 < M) (hk : 0 ≤ k) (hm : ∀ m ∈ tm, 0 ≤ m) {z : ℝ × ℝ}
    (hz : z ∈ tm.zip pH) (h1 : lo ≤ z.2) (h2 : z.2 ≤ hi) : Spec.estimate x K c n g M (k * z.1) z.2 = 1e6 * A := by
  have hm0 := hm z.1 (List.of_mem_zip (a := z.1) (b := z.2) hz).1
  rw [← estimate_eq hM (mul_nonneg hk hm0), h z hz h1 h2]
  field_simp
  ring

theorem dilution_between {w lo hi p : ℝ} (hw : 0 < w) (h1 : lo ≤ p) (h2 : p ≤ hi) :
    |(10 : ℝ) ^ (-p) - w / (10 : ℝ) ^ (-p)| ≤ max ((10 : ℝ) ^ (-lo)) (w * (10 : ℝ) ^ hi) := by
  have q1 : (0 : ℝ) < (10 : ℝ) ^ (-p) := by positivity
  have q2 : (10 : ℝ) ^ (-p) ≤ (10 : ℝ) ^ (-lo) := Real.rpow_le_rpow_of_exponent_le (by norm_num) (by linarith)
  have q3 : w / (10 : ℝ) ^ (-p) ≤ w * (10 : ℝ) ^ hi := by
    rw [Real.rpow_neg (by norm_num), div_inv_eq_mul]
    exact mul_le_mul_of_nonneg_left (Real.rpow_le_rpow_of_exponent_le (by norm_num) h2) hw.le
  have q4 : 0 < w / (10 : ℝ) ^ (-p) := by positivity
  rw [abs_le]
  have m1 := le_max_left ((10 : ℝ) ^ (-lo)) (w * (10 : ℝ) ^ hi)
  have m2 := le_max_right ((10 : ℝ) ^ (-lo)) (w * (10 : ℝ) ^ hi)
  constructor <;> linarith

/-! ## The property -/

/-- **C149**: a burette that delivers `k` times what it records, with an acid of molinity `c`: solving with `k c`
gives the true alkalinity but for the misjudged dilution. -/
theorem C149_solve (w : World) (f : String) (S : Flt) (kw : Dict Val) (x K : String → ℝ)
    (A c n g lo hi M k μ : ℝ) (tm pH : List ℝ) (h : PHRun w f S kw x K (k * c) n g lo hi M tm pH)
    (hin : ∃ p ∈ pH, lo ≤ p ∧ p ≤ hi) (hk : 0 ≤ k) (hd : Delivers x K A c n g lo hi M k tm pH)
    (hμ : ∀ m ∈ tm, m ≤ μ * M) :
    ∃ (r : SolvePH) (T : List Flt) (a : ℝ), files_solve w f (fin (k * c)) S kw = .ok (.pH r (pH.map fin) T) ∧
      r.alkalinity = fin a ∧ |a - 1e6 * A| ≤ misjudged K lo hi k μ := by
  obtain ⟨r, T, h1, -, h2⟩ := C122_formula w f S kw x K (k * c) n g lo hi M tm pH h hin
  have hw : 0 < K "k_water" := (h.sample.constants "k_water" (by decide)).2
  have hM := h.mass
  refine ⟨r, T, _, h1, h2, ?_⟩
  obtain ⟨l1, l2⟩ := windowMean_pairs (a := 1e6 * A - misjudged K lo hi k μ) (b := 1e6 * A + misjudged K lo hi k μ)
    (e := Spec.estimate x K (k * c) n g M) h.lengths hin (by
      intro z hz z1 z2
      have hm := (List.of_mem_zip (a := z.1) (b := z.2) hz).1
      have hm0 := h.masses _ hm
      rw [estimate_recorded, hd.estimate hM hk h.masses hz z1 z2]
      have b1 := dilution_between hw z1 z2
      have b2 : |(k - 1) * (z.1 / M) * ((10 : ℝ) ^ (-z.2) - K "k_water" / (10 : ℝ) ^ (-z.2))|
          ≤ |k - 1| * μ * max ((10 : ℝ) ^ (-lo)) (K "k_water" * (10 : ℝ) ^ hi) := by
        rw [abs_mul, abs_mul, abs_of_nonneg (div_nonneg hm0 hM.le)]
        have hμ' : z.1 / M ≤ μ := by rw [div_le_iff₀ hM]; exact hμ _ hm
        exact mul_le_mul (mul_le_mul_of_nonneg_left hμ' (abs_nonneg _)) b1 (abs_nonneg _)
          (mul_nonneg (abs_nonneg _) ((div_nonneg hm0 hM.le).trans hμ'))
      obtain ⟨c1, c2⟩ := abs_le.mp b2
      unfold misjudged
      constructor <;> linarith)
  rw [abs_le]
  constructor <;> linarith

/-- **C149**: a calibration of such a file finds `k` times the molinity, but for the misjudged dilution and the
residual at which it stops. -/
theorem C149_calibrate (w : World) (f : String) (S : Flt) (kw : Dict Val) (x K : String → ℝ)
    (A c c' n g lo hi M k μ : ℝ) (tm pH : List ℝ) (h : PHRun w f S kw x K (k * c) n g lo hi M tm pH)
    (hin : ∃ p ∈ pH, lo ≤ p ∧ p ≤ hi) (hk : 0 ≤ k) (hd : Delivers x K A c n g lo hi M k tm pH)
    (hμ : ∀ m ∈ tm, m ≤ μ * M) (hreg : Regular w f S kw) (hgl : kw.get? "gran_logic" = none)
    (res : LsqResult Flt) (hcal : files_calibrate w f (fin (1e6 * A)) S kw = .ok res) (hx : res.x = fin c')
    (hc' : 0 ≤ c' * g) :
    ∃ ρ : ℝ, res.fun_ = [fin ρ] ∧
      |(c' - k * c) * acidSlope K n g lo hi M tm pH| ≤ |ρ| + misjudged K lo hi k μ := by
  obtain ⟨r, T, a, h1, h2, h3⟩ := C149_solve w f S kw x K A c n g lo hi M k μ tm pH h hin hk hd hμ
  obtain ⟨r', T', a', ρ, h1', h2', hρ, he⟩ := C121_calibrated w f S kw x K (k * c) c' n g lo hi M (1e6 * A) tm pH h hin
    hreg hgl res hcal hx hc'
  obtain rfl : r = r' := by
    have := h1.symm.trans h1'
    simp only [Except.ok.injEq, SolveRes.pH.injEq] at this
    exact this.1
  obtain rfl : a = a' := Flt.fin.inj (h2.symm.trans h2')
  refine ⟨ρ, hρ, ?_⟩
  rw [he]
  rw [abs_sub_comm] at h3
  exact (abs_add_le _ _).trans (by linarith)

/-- **C149**: so a sample titrated with the same burette and acid, and solved with the molinity found with the
reference, gets its true alkalinity but for the misjudged dilutions and that residual. -/
theorem C149_sample (w w' : World) (f f' : String) (S S' : Flt) (kw kw' : Dict Val) (x K x' K' : String → ℝ)
    (A A' c c' n g lo hi lo' hi' M M' k μ μ' : ℝ) (tm pH tm' pH' : List ℝ)
    (h : PHRun w f S kw x K (k * c) n g lo hi M tm pH)
    (hin : ∃ p ∈ pH, lo ≤ p ∧ p ≤ hi) (hk : 0 ≤ k) (hd : Delivers x K A c n g lo hi M k tm pH)
    (hμ : ∀ m ∈ tm, m ≤ μ * M) (hreg : Regular w f S kw) (hgl : kw.get? "gran_logic" = none)
    (res : LsqResult Flt) (hcal : files_calibrate w f (fin (1e6 * A)) S kw = .ok res) (hx : res.x = fin c')
    (hc' : 0 ≤ c' * g) (hs : 0 < acidSlope K n g lo hi M tm pH)
    (h' : PHRun w' f' S' kw' x' K' (k * c) n g lo' hi' M' tm' pH')
    (hin' : ∃ p ∈ pH', lo' ≤ p ∧ p ≤ hi') (hd' : Delivers x' K' A' c n g lo' hi' M' k tm' pH')
    (hμ' : ∀ m ∈ tm', m ≤ μ' * M') :
    ∃ (ρ : ℝ) (r : SolvePH) (T : List Flt) (a : ℝ), res.fun_ = [fin ρ] ∧
      files_solve w' f' (fin c') S' kw' = .ok (.pH r (pH'.map fin) T) ∧ r.alkalinity = fin a ∧
      |a - 1e6 * A'| ≤ misjudged K' lo' hi' k μ' + (|ρ| + misjudged K lo hi k μ)
        * (|acidSlope K' n g lo' hi' M' tm' pH'| / acidSlope K n g lo hi M tm pH) := by
  obtain ⟨ρ, hρ, hb⟩ := C149_calibrate w f S kw x K A c c' n g lo hi M k μ tm pH h hin hk hd hμ hreg hgl res hcal hx hc'
  obtain ⟨r, T, a, h1, h2, h3⟩ := C149_solve w' f' S' kw' x' K' A' c n g lo' hi' M' k μ' tm' pH' h' hin' hk hd' hμ'
  obtain ⟨r₁, r₂, T₁, T₂, a₁, e1, e2, e3, e4⟩ := C121_line w' f' S' kw' x' K' (k * c) c' n g lo' hi' M' tm' pH' h' hc' hin'
  obtain rfl : r = r₁ := by
    have := h1.symm.trans e1
    simp only [Except.ok.injEq, SolveRes.pH.injEq] at this
    exact this.1
  obtain rfl : a = a₁ := Flt.fin.inj (h2.symm.trans e3)
  refine ⟨ρ, r₂, T₂, _, hρ, e2, e4, ?_⟩
  have hb' : |c' - k * c| ≤ (|ρ| + misjudged K lo hi k μ) / acidSlope K n g lo hi M tm pH := by
    rw [le_div_iff₀ hs]
    rwa [abs_mul, abs_of_pos hs] at hb
  have hm := mul_le_mul_of_nonneg_right hb' (abs_nonneg (acidSlope K' n g lo' hi' M' tm' pH'))
  rw [← abs_mul] at hm
  calc |a + (c' - k * c) * acidSlope K' n g lo' hi' M' tm' pH' - 1e6 * A'|
      = |(a - 1e6 * A') + (c' - k * c) * acidSlope K' n g lo' hi' M' tm' pH'| := by congr 1; ring
    _ ≤ |a - 1e6 * A'| + |(c' - k * c) * acidSlope K' n g lo' hi' M' tm' pH'| := abs_add_le _ _
    _ ≤ _ := by
      refine add_le_add h3 (hm.trans (le_of_eq ?_))
      ring

/-- **C149**: the masses (or volumes) of the samples off by a constant factor, too: where the true masses of sample are
`j` times, and those of titrant `k` times, the recorded ones, everything is as with a burette off by `k / j`. -/
theorem C149_balance (x K : String → ℝ) (A c n g lo hi M k j : ℝ) (tm pH : List ℝ) (hM : 0 < M) (hk : 0 ≤ k)
    (hj : 0 < j) (hm : ∀ m ∈ tm, 0 ≤ m)
    (h : ∀ z ∈ tm.zip pH, lo ≤ z.2 → z.2 ≤ hi →
      (mixture x K (k * z.1) (j * M) c g).alk 3 ((10 : ℝ) ^ (-z.2)) * (k * z.1 + j * M)
        = A * (j * M) - k * z.1 * c * n) :
    Delivers x K A c n g lo hi M (k / j) tm pH := by
  intro z hz z1 z2
  have h0 := mul_nonneg hk (hm z.1 (List.of_mem_zip (a := z.1) (b := z.2) hz).1)
  have h1 := h z hz z1 z2
  have hjM := mul_pos hj hM
  have e : k / j * z.1 = k * z.1 / j := by ring
  rw [mixture_protons hjM.ne' (by linarith)] at h1
  rw [mixture_protons hM.ne' (by rw [e]; positivity), e]
  field_simp
  field_simp at h1
  linear_combination h1

theorem Spec.BuretteRow.titration {w : World} {kw : Dict Val} {cols : List String} {r : Row} {A c k e s : ℝ} {f : String}
    {S : Flt} {g : ℝ} (h : BuretteRow w kw cols r A c k e s f S g) (hk : 0 ≤ k) :
    TitrationPH w kw cols r (1e6 * A) (k * c) e s f S g := by
  obtain ⟨hf, st, x, K, n, lo, hi, M, μ, tm, pH, hst, hrun, hs, rfl, hin, hd, hμ⟩ := h
  obtain ⟨sr, T, a, h1, h2, h3⟩ := C149_solve w f S st x K A c n g lo hi M k μ tm pH hrun hin hk hd hμ
  exact ⟨hf, st, x, K, n, lo, hi, M, tm, pH, hst, hrun, hs, hin, _, a, h1, h2, h3⟩

/-- **C149**: a data set of such titrations, each batch with its acid and its burette.  Every row of a batch that has
a reference gets `k` times the molinity of the acid within `κ`, and its true alkalinity within the misjudged dilution
and what `κ` makes. -/
theorem C149_dataset (w : World) (hw : ByName w) (ho : ReportsEvaluated w.opt) (ho' : FiniteTrials w.opt)
    (kw : Dict Val) (df df' : DF) (hkw : kw.keys.Nodup)
    (h : dataset_calibrate w kw df = (.ok (), df'))
    (hl : ∀ r ∈ df'.rows, Label (r "analysis_batch")) (c k κ : Val → ℝ) (hk : ∀ b, 0 ≤ k b)
    (href : List.Forall₂ (fun r r' => IsReference r' → ∃ A e s τ f S g,
      BuretteRow w kw df.cols r A (c (r' "analysis_batch")) (k (r' "analysis_batch")) e s f S g ∧ 0 < s ∧
      CalibratedTo w kw df.cols r (1e6 * A) τ f S g ∧ (e + τ) / s ≤ κ (r' "analysis_batch")) df.rows df'.rows) :
    List.Forall₂ (fun r r' =>
      (∃ q ∈ df'.rows, IsReference q ∧ q "analysis_batch" = r' "analysis_batch") →
      (∃ c', r' "titrant_molinity" = .num (fin c') ∧
        |c' - k (r' "analysis_batch") * c (r' "analysis_batch")| ≤ κ (r' "analysis_batch")) ∧
      ∀ A e s f S g,
        BuretteRow w kw df.cols r A (c (r' "analysis_batch")) (k (r' "analysis_batch")) e s f S g → 0 ≤ g →
        κ (r' "analysis_batch") ≤ k (r' "analysis_batch") * c (r' "analysis_batch") →
        ∃ a, r' "alkalinity" = .num (fin a) ∧ |a - 1e6 * A| ≤ e + |s| * κ (r' "analysis_batch"))
      df.rows df'.rows := by
  have hmain := C121_pH w hw ho ho' kw df df' hkw h hl (fun b => k b * c b) κ (href.imp fun r r' hr hi => by
    obtain ⟨A, e, s, τ, f, S, g, h1, h2, h3, h4⟩ := hr hi
    exact ⟨1e6 * A, e, s, τ, f, S, g, h1.titration (hk _), h2, h3, h4⟩)
  refine hmain.imp fun r r' hr hq => ?_
  obtain ⟨h1, h2⟩ := hr hq
  refine ⟨h1, fun A e s f S g hb hg hκ => ?_⟩
  obtain ⟨a, h3, h4, -⟩ := h2 _ _ _ _ _ _ (hb.titration (hk _)) hg hκ
  exact ⟨a, h3, h4⟩

/-- **C149**: likewise in the Gran mode, where the sample and acid obey the strong-acid balance with the masses that
the burette delivers: solved with `k c`, the alkalinity is off by at most what `C142_gran` gives for the protons in
the misjudged mass, at most `m'` times `|k - 1|`, at the acid end of the window. -/
theorem C149_gran (w : World) (f : String) (S : Flt) (kw : Dict Val) (A c n lo hi M k m' : ℝ)
    (pts : List (ℝ × ℝ)) (h : GranRun w f S kw n lo hi M pts) (hcn : 0 < k * c * n)
    (hm : ∀ p ∈ pts, lo ≤ p.2 → p.2 ≤ hi → 0 ≤ p.1 ∧ p.1 ≤ m')
    (hid : ∀ p ∈ pts, lo ≤ p.2 → p.2 ≤ hi → (k * p.1 + M) * (10 : ℝ) ^ (-p.2) = k * p.1 * c * n - A * M)
    (p q : ℝ × ℝ) (hp : p ∈ granPlot M lo hi pts) (hq : q ∈ granPlot M lo hi pts) (D : ℝ)
    (hD : D = (1 + Real.sqrt (granPlot M lo hi pts).length) * (|k - 1| * m' * (10 : ℝ) ^ (-lo)))
    (hsteep : 2 * D < k * c * n * |p.1 - q.1|)
    (sr : SolveRes) (hs : files_solve w f (fin (k * c)) S kw = .ok sr) :
    ∃ A', sr.alkalinity = fin (1e6 * A') ∧
      |A' - A| * M * (k * c * n * |p.1 - q.1| - 2 * D)
        ≤ k * c * n * D * (|A * M / (k * c * n) - p.1| + |A * M / (k * c * n) - q.1|) := by
  refine C142_gran w f S kw A (k * c) n lo hi M _ pts h hcn (fun z hz z1 z2 => ?_) p q hp hq D hD hsteep sr hs
  obtain ⟨m0, m1⟩ := hm z hz z1 z2
  have e : (z.1 + M) * (10 : ℝ) ^ (-z.2) - (z.1 * (k * c) * n - A * M) = -((k - 1) * z.1 * (10 : ℝ) ^ (-z.2)) := by
    linear_combination hid z hz z1 z2
  have q1 : (0 : ℝ) < (10 : ℝ) ^ (-z.2) := by positivity
  have q2 : (10 : ℝ) ^ (-z.2) ≤ (10 : ℝ) ^ (-lo) := Real.rpow_le_rpow_of_exponent_le (by norm_num) (by linarith)
  rw [e, abs_neg, abs_mul, abs_mul, abs_of_nonneg m0, abs_of_pos q1]
  exact mul_le_mul (mul_le_mul_of_nonneg_left m1 (abs_nonneg _)) q2 q1.le
    (mul_nonneg (abs_nonneg _) (m0.trans m1))

/-! ### A case: a burette that delivers a quarter more than it records, acid of 0.08 mol/kg -/

theorem bu_exact (p : ℝ) : ∃ q A : ℝ, Delivers pContents pConstants A 0.08 2 1 3 4 0.1 1.25 [0.001, 0.002] [p, q] := by
  have hv : (mixture pContents pConstants (1.25 * 0.002) 0.1 0.08 1).Valid := by
    constructor <;> norm_num [mixture, mixContent, pContents, pConstants] <;>
      split_ifs <;> norm_num
  let A : ℝ := ((mixture pContents pConstants (1.25 * 0.001) 0.1 0.08 1).alk 3 ((10 : ℝ) ^ (-p)) * (1.25 * 0.001 + 0.1)
    + 1.25 * 0.001 * 0.08 * 2) / 0.1
  obtain ⟨h, hh, ha⟩ := Sol.alk_exists hv (by norm_num [mixture, pConstants]) 3
    ((A * 0.1 - 1.25 * 0.002 * 0.08 * 2) / (1.25 * 0.002 + 0.1))
  refine ⟨-Real.logb 10 h, A, ?_⟩
  intro z hz _ _
  simp only [List.zip_cons_cons, List.zip_nil_right, List.mem_cons, List.not_mem_nil, or_false] at hz
  rcases hz with rfl | rfl
  · simp only [A]
    ring
  · simp only [neg_neg, Real.rpow_logb (by norm_num : (0 : ℝ) < 10) (by norm_num) hh, ha]
    ring

/-- calibrated, by an optimiser that stops where it starts, and solved -/
example (p : ℝ) (hp : 3 ≤ p ∧ p ≤ 4) : ∃ (q A : ℝ) (res : LsqResult Flt) (r : SolvePH) (T : List Flt) (a : ℝ),
    Delivers pContents pConstants A 0.08 2 1 3 4 0.1 1.25 [0.001, 0.002] [p, q] ∧
    files_calibrate (calWorld p q) "a.dat" (fin (1e6 * A)) (fin 35) pArgs = .ok res ∧ res.x = fin 0.1 ∧
    files_solve (calWorld p q) "a.dat" (fin 0.1) (fin 35) pArgs = .ok (.pH r ([p, q].map fin) T) ∧
    r.alkalinity = fin a ∧ |a - 1e6 * A| ≤ 3 * misjudged pConstants 3 4 1.25 0.02 := by
  obtain ⟨q, A, hd⟩ := bu_exact p
  have hrun : PHRun (calWorld p q) "a.dat" (fin 35) pArgs pContents pConstants (1.25 * 0.08) 2 1 3 4 0.1
      [0.001, 0.002] [p, q] := by
    rw [show (1.25 * 0.08 : ℝ) = 0.1 by norm_num]
    exact cal_run p q
  have hin : ∃ y ∈ [p, q], (3 : ℝ) ≤ y ∧ y ≤ 4 := ⟨p, by simp, hp.1, hp.2⟩
  have hμ : ∀ m ∈ [(0.001 : ℝ), 0.002], m ≤ 0.02 * 0.1 := by
    intro m hm
    simp only [List.mem_cons, List.not_mem_nil, or_false] at hm
    rcases hm with rfl | rfl <;> norm_num
  obtain ⟨r, T, a, h1, h2, h3⟩ := C149_solve _ _ _ _ _ _ _ _ _ _ _ _ _ _ 0.02 _ _ hrun hin (by norm_num) hd hμ
  rw [show (1.25 * 0.08 : ℝ) = 0.1 by norm_num] at h1
  obtain ⟨cv, totals, ks, hl, htm, hM, h3', h4⟩ := p_loads p q
  have hc := C32_same_solver_titrant (calWorld p q) "a.dat" "ph" (fin (1e6 * A)) (fin 35) (fin 0.1) pArgs
    cv totals ks _ _ _ lsqOnce_finite hl cal_typed htm hM (by
      intro m hm
      simp only [List.mem_cons, List.not_mem_nil, or_false] at hm
      rcases hm with rfl | rfl <;> norm_num) rfl (by decide) (by rw [h3', h4]; rfl)
  have hs : solveRes (calWorld p q) "a.dat" (fin 35) (fin (1e6 * A)) pArgs (fin 0.1) ()
      = (.ok [fin (a - 1e6 * A)], ()) := by
    simp only [solveRes, h1, bind_ok, pure_ok, SolveRes.alkalinity, h2, sub_fin, PyS.lift]
  have hcal : files_calibrate (calWorld p q) "a.dat" (fin (1e6 * A)) (fin 35) pArgs
      = .ok ⟨fin 0.1, [fin (a - 1e6 * A)]⟩ := by
    rw [hc]
    show (lsqOnce.run (solveRes (calWorld p q) "a.dat" (fin 35) (fin (1e6 * A)) pArgs) (fin 0.1) ()).1 = _
    simp [Lsq.run, Lsq.loop, lsqOnce, allFinite, PyS.bind_apply, hs]
  have hs0 : 0 < acidSlope pConstants 2 1 3 4 0.1 [0.001, 0.002] [p, q] := lt_of_lt_of_le (by norm_num) (dt_slope p q hp).1
  obtain ⟨ρ, r', T', a', e1, e2, e3, e4⟩ := C149_sample _ _ _ _ _ _ _ _ _ _ _ _ _ _ _ _ _ _ _ _ _ _ _ _ _ 0.02 0.02
    _ _ _ _ hrun hin (by norm_num) hd hμ (cal_regular p q) rfl _ hcal rfl (by norm_num) hs0 hrun hin hd hμ
  obtain rfl : a - 1e6 * A = ρ := by simpa using e1
  rw [abs_of_pos hs0, div_self hs0.ne', mul_one] at e4
  exact ⟨q, A, _, r', T', a', hd, hcal, rfl, e2, e3, by linarith⟩

/-- the acid, strengthened, and the alkalinity for a burette that delivers 1 % more than it records -/
noncomputable def buS : ℝ := (0.10202 * (8e-5 / 0.102) - 0.10101 * (3e-5 / 0.101)) / 0.001
noncomputable def buA : ℝ := (0.001 * buS - 0.10101 * (3e-5 / 0.101)) / 0.1

theorem bu_gran : ∀ p ∈ [((0.001 : ℝ), fgP), (0.002, fgQ)], (3 : ℝ) ≤ p.2 → p.2 ≤ 4 →
    (1.01 * p.1 + 0.1) * (10 : ℝ) ^ (-p.2) = 1.01 * p.1 * (buS / 1.01) * 1 - buA * 0.1 := by
  intro p hp _ _
  simp only [List.mem_cons, List.not_mem_nil, or_false] at hp
  rcases hp with rfl | rfl
  · simp only [fgP, neg_neg]
    rw [Real.rpow_logb (by norm_num) (by norm_num) (by norm_num)]; norm_num [buA, buS]
  · simp only [fgQ, neg_neg]
    rw [Real.rpow_logb (by norm_num) (by norm_num) (by norm_num)]; norm_num [buA, buS]

/-- in the Gran mode: about 200 µmol/kg, found within 3 -/
example : ∃ (sr : SolveRes) (A' : ℝ),
    files_solve (calWorld fgP fgQ) "a.dat" (fin (1.01 * (buS / 1.01))) (fin 35) fgArgs = .ok sr ∧
    sr.alkalinity = fin (1e6 * A') ∧ 1.9e-4 ≤ buA ∧ |A' - buA| ≤ 3e-6 := by
  obtain ⟨sr, hs⟩ := C116_succeeds (calWorld fgP fgQ) "a.dat" (fin 35) (fin (1.01 * (buS / 1.01))) fgArgs 1 3 4 0.1 _
    fg_run fg_two rfl rfl rfl
  have w1 := fg_window (3e-5 / 0.101) (by norm_num) (by norm_num)
  have w2 := fg_window (8e-5 / 0.102) (by norm_num) (by norm_num)
  have hlen : (granPlot 0.1 3 4 [(0.001, fgP), (0.002, fgQ)]).length ≤ 2 := by
    unfold granPlot
    rw [List.length_map]
    exact List.length_filter_le _ _
  have hsq : Real.sqrt (granPlot 0.1 3 4 [(0.001, fgP), (0.002, fgQ)]).length ≤ 2 := by
    rw [Real.sqrt_le_left (by norm_num)]
    have : ((granPlot 0.1 3 4 [(0.001, fgP), (0.002, fgQ)]).length : ℝ) ≤ 2 := by exact_mod_cast hlen
    linarith
  have hsq0 := Real.sqrt_nonneg ((granPlot 0.1 3 4 [(0.001, fgP), (0.002, fgQ)]).length : ℝ)
  have h10 : (10 : ℝ) ^ (-3 : ℝ) = 1e-3 := by rw [Real.rpow_neg (by norm_num)]; norm_num
  have s1 : 0.05 ≤ buS := by norm_num [buS]
  have s2 : buS ≤ 0.0501 := by norm_num [buS]
  have a1 : 1.9e-4 ≤ buA := by norm_num [buA, buS]
  have a2 : buA ≤ 2.1e-4 := by norm_num [buA, buS]
  have hk : 1.01 * (buS / 1.01) * 1 = buS := by ring
  obtain ⟨D, hD⟩ : ∃ D, D = (1 + Real.sqrt (granPlot 0.1 3 4 [(0.001, fgP), (0.002, fgQ)]).length)
      * (|1.01 - 1| * 0.002 * (10 : ℝ) ^ (-3 : ℝ)) := ⟨_, rfl⟩
  have hD1 : 0 ≤ D := by rw [hD]; positivity
  have hD2 : D ≤ 6e-8 := by
    rw [hD, h10, show |(1.01 : ℝ) - 1| = 0.01 by norm_num [abs_of_pos]]
    norm_num at hsq ⊢
    linarith
  obtain ⟨A', h1, h2⟩ := C149_gran _ _ _ _ buA (buS / 1.01) 1 3 4 0.1 1.01 0.002 _ fg_run
    (by rw [hk]; linarith) (by
      intro y hy _ _
      simp only [List.mem_cons, List.not_mem_nil, or_false] at hy
      rcases hy with rfl | rfl <;> norm_num) bu_gran
    _ _ (List.mem_map.mpr ⟨(0.001, fgP), by simpa [fgP] using w1, rfl⟩)
    (List.mem_map.mpr ⟨(0.002, fgQ), by simpa [fgQ] using w2, rfl⟩) D hD
    (by
      rw [hk, show |(0.001 : ℝ) - 0.002| = 0.001 by norm_num]
      linarith) sr hs
  refine ⟨sr, A', hs, h1, a1, ?_⟩
  have hv0 : 0 ≤ buA * 0.1 / buS := by positivity
  have hv1 : buA * 0.1 / buS ≤ 0.001 := by
    rw [div_le_iff₀ (by linarith)]
    linarith
  have g1 : buS * D * (-(buA * 0.1 / buS - 0.001) + -(buA * 0.1 / buS - 0.002)) ≤ (0.0501 * 6e-8) * 0.003 := by
    refine mul_le_mul (mul_le_mul s2 hD2 hD1 (by norm_num)) (by linarith) (by linarith) (by norm_num)
  rw [hk, show |(0.001 : ℝ) - 0.002| = 0.001 by norm_num,
    abs_of_nonpos (a := buA * 0.1 / buS - 0.001) (by linarith),
    abs_of_nonpos (a := buA * 0.1 / buS - 0.002) (by linarith)] at h2
  have h2 := h2.trans g1
  have g2 : (4.9e-6 : ℝ) ≤ 0.1 * (buS * 0.001 - 2 * D) := by norm_num at hD2 s1 ⊢; linarith
  have g3 := mul_le_mul_of_nonneg_left g2 (abs_nonneg (A' - buA))
  rw [mul_assoc] at h2
  have h4 := g3.trans h2
  norm_num at h4 ⊢
  linarith

/-- a sample weighed as 0.1 kg that is 0.08 kg, with a burette that is right -/
example (p : ℝ) : ∃ q A : ℝ, Delivers pContents pConstants A 0.08 2 1 3 4 0.1 (1 / 0.8) [0.001, 0.002] [p, q] := by
  have hv : (mixture pContents pConstants (1 * 0.002) (0.8 * 0.1) 0.08 1).Valid := by
    constructor <;> norm_num [mixture, mixContent, pContents, pConstants] <;>
      split_ifs <;> norm_num
  let A : ℝ := ((mixture pContents pConstants (1 * 0.001) (0.8 * 0.1) 0.08 1).alk 3 ((10 : ℝ) ^ (-p))
    * (1 * 0.001 + 0.8 * 0.1) + 1 * 0.001 * 0.08 * 2) / (0.8 * 0.1)
  obtain ⟨h, hh, ha⟩ := Sol.alk_exists hv (by norm_num [mixture, pConstants]) 3
    ((A * (0.8 * 0.1) - 1 * 0.002 * 0.08 * 2) / (1 * 0.002 + 0.8 * 0.1))
  refine ⟨-Real.logb 10 h, A, C149_balance _ _ _ _ _ _ _ _ _ 1 0.8 _ _ (by norm_num) (by norm_num) (by norm_num) ?_ ?_⟩
  · intro m hm
    simp only [List.mem_cons, List.not_mem_nil, or_false] at hm
    rcases hm with rfl | rfl <;> norm_num
  intro z hz _ _
  simp only [List.zip_cons_cons, List.zip_nil_right, List.mem_cons, List.not_mem_nil, or_false] at hz
  rcases hz with rfl | rfl
  · simp only [A]
    ring
  · simp only [neg_neg, Real.rpow_logb (by norm_num : (0 : ℝ) < 10) (by norm_num) hh, ha]
    ring

/-! ### A case: a data set of a reference and a sample -/

theorem bu_masses : ∀ m ∈ [(0.001 : ℝ), 0.002], m ≤ 0.02 * 0.1 := by
  intro m hm
  simp only [List.mem_cons, List.not_mem_nil, or_false] at hm
  rcases hm with rfl | rfl <;> norm_num

theorem bu_misjudged : misjudged pConstants 3 4 1.25 0.02 = 50 := by
  have h1 : (10 : ℝ) ^ (-3 : ℝ) = 1e-3 := by rw [Real.rpow_neg (by norm_num)]; norm_num
  have h2 : (10 : ℝ) ^ (4 : ℝ) = 1e4 := by norm_num
  rw [misjudged, h1, h2, pConstants, max_eq_right (by norm_num), abs_of_pos (by norm_num)]
  norm_num

theorem bu_calibrate_to {p q A : ℝ} (hp : 3 ≤ p ∧ p ≤ 4)
    (hd : Delivers pContents pConstants A 0.08 2 1 3 4 0.1 1.25 [0.001, 0.002] [p, q]) (cert : Flt) :
    ∃ ρ : ℝ, |ρ| ≤ 50 ∧ ∀ st, SettingsOf keys_calibrate (calWorld p q) [] dtCols (dtRow cert) st →
      files_calibrate (calWorld p q) "a.dat" (fin (1e6 * A)) (fin 35) st = .ok ⟨fin 0.1, [fin ρ]⟩ := by
  have hin : ∃ y ∈ [p, q], (3 : ℝ) ≤ y ∧ y ≤ 4 := ⟨p, by simp, hp.1, hp.2⟩
  have hk : (1.25 * 0.08 : ℝ) = 0.1 := by norm_num
  refine ⟨windowMean 3 4 [p, q] (List.zipWith (estimate pContents pConstants 0.1 2 1 0.1) [0.001, 0.002] [p, q])
    - 1e6 * A, ?_, fun st hst => ?_⟩
  · obtain ⟨r, T, h1, -, h2⟩ := C122_formula _ _ _ _ _ _ _ _ _ _ _ _ _ _ (cal_run p q) hin
    have hrun : PHRun (calWorld p q) "a.dat" (fin 35) pArgs pContents pConstants (1.25 * 0.08) 2 1 3 4 0.1
        [0.001, 0.002] [p, q] := by
      rw [hk]
      exact cal_run p q
    obtain ⟨r', T', a, e1, e2, e3⟩ := C149_solve _ _ _ _ _ _ _ _ _ _ _ _ _ _ 0.02 _ _ hrun hin (by norm_num) hd bu_masses
    rw [hk] at e1
    obtain rfl : r = r' := by
      have := h1.symm.trans e1
      simp only [Except.ok.injEq, SolveRes.pH.injEq] at this
      exact this.1
    rwa [← Flt.fin.inj (h2.symm.trans e2), bu_misjudged] at e3
  have hag := (dt_cal_settings (calWorld p q) cert).agree hst calibrate_keys calibrate_keys
  have hsame := (dt_cal_settings (calWorld p q) cert).same hst
  have hrun := hag.phRun (dt_byName p q) hst.1 (dt_run p q)
  obtain ⟨r, T, h1, -, h2⟩ := C122_formula _ _ _ _ _ _ _ _ _ _ _ _ _ _ hrun hin
  obtain ⟨cv, totals, ks, hl, htm, hM, h3, h4⟩ := p_loads p q
  have hl' : load (calWorld p q) "a.dat" (fin 35) st = .ok (cv, totals, ks) := by
    rw [← hag.load (dt_byName p q), dt_load]; exact hl
  obtain ⟨tts, ht, -⟩ := titrant_totals_sulfate hst.1 hrun.sulfate hrun.no_phosphate hrun.no_fluoride
  have htyped : Typed st "ph" (fin 0.1) (ttArgs tts) := by
    refine ⟨?_, ?_, ht, ?_⟩
    · unfold solve_mode argVal
      rw [← hsame "solve_mode"]
      exact cal_typed.mode
    · rw [← hsame.argNum]; rfl
    · rw [← emf_opts_congr hsame]; exact ⟨_, rfl⟩
  have hgl : st.get? "gran_logic" = none := by rw [← hsame]; rfl
  have hc := C32_same_solver_titrant (calWorld p q) "a.dat" "ph" (fin (1e6 * A)) (fin 35) (fin 0.1) st
    cv totals ks _ _ _ lsqOnce_finite hl' htyped htm hM (by
      intro m hm
      simp only [List.mem_cons, List.not_mem_nil, or_false] at hm
      rcases hm with rfl | rfl <;> norm_num) hgl (by decide) (by rw [h3, h4]; rfl)
  have hs : solveRes (calWorld p q) "a.dat" (fin 35) (fin (1e6 * A)) st (fin 0.1) ()
      = (.ok [fin (windowMean 3 4 [p, q] (List.zipWith (estimate pContents pConstants 0.1 2 1 0.1) [0.001, 0.002] [p, q])
        - 1e6 * A)], ()) := by
    simp only [solveRes, h1, bind_ok, pure_ok, SolveRes.alkalinity, h2, sub_fin, PyS.lift]
  rw [hc]
  show (lsqOnce.run (solveRes (calWorld p q) "a.dat" (fin 35) (fin (1e6 * A)) st) (fin 0.1) ()).1 = _
  simp only [Lsq.run, Lsq.loop, lsqOnce, PyS.bind_apply, hs]
  simp [allFinite]

theorem bu_row {p q A : ℝ} (hp : 3 ≤ p ∧ p ≤ 4)
    (hd : Delivers pContents pConstants A 0.08 2 1 3 4 0.1 1.25 [0.001, 0.002] [p, q]) (cert : Flt) :
    BuretteRow (calWorld p q) [] dtCols (dtRow cert) A 0.08 1.25 50
      (acidSlope pConstants 2 1 3 4 0.1 [0.001, 0.002] [p, q]) "a.dat" (fin 35) 1 where
  file := dt_file cert
  run := by
    rw [show (1.25 * 0.08 : ℝ) = 0.1 by norm_num]
    exact ⟨dtArgs, pContents, pConstants, 2, 3, 4, 0.1, 0.02, _, _, dt_solve_settings _ cert, dt_run p q, rfl,
      bu_misjudged.symm, ⟨p, by simp, hp.1, hp.2⟩, hd, bu_masses⟩

/-- every hypothesis of `C149_dataset` is met -/
example (p : ℝ) (hp : 3 ≤ p ∧ p ≤ 4) : ∃ (q A : ℝ) (df' : DF) (r1 r2 : Row) (c a : ℝ),
    Delivers pContents pConstants A 0.08 2 1 3 4 0.1 1.25 [0.001, 0.002] [p, q] ∧
    dataset_calibrate (calWorld p q) [] ⟨dtCols, [dtRow (fin (1e6 * A)), dtRow nan]⟩ = (.ok (), df') ∧
    df'.rows = [r1, r2] ∧ r2 "titrant_molinity" = .num (fin c) ∧ |c - 1.25 * 0.08| ≤ 0.01 ∧
    r2 "alkalinity" = .num (fin a) ∧ |a - 1e6 * A| ≤ 450 := by
  obtain ⟨q, A, hd⟩ := bu_exact p
  obtain ⟨ρ, hρ, hcal⟩ := bu_calibrate_to hp hd (fin (1e6 * A))
  obtain ⟨df', r1, r2, h, hr, hb, h1, h2⟩ := cell_frame (calWorld p q) pArgs A 0.1
    (by rw [dt_keys]; decide) (by rw [dt_keys]; decide) (by rw [dt_keys]; decide)
    (by rw [dt_keys]; decide) (by rw [dt_keys]; decide) hcal
  have hmain := C149_dataset (calWorld p q) (dt_byName p q) lsqOnce_reports lsqOnce_finite [] _ df'
    (by decide) h (fun r hr => by rw [hb r hr]; exact .inr ⟨_, rfl, by simp⟩) (fun _ => 0.08) (fun _ => 1.25)
    (fun _ => 0.01) (fun _ => by norm_num)
  rw [hr] at hmain hb
  simp only [List.forall₂_cons, List.Forall₂.nil, and_true] at hmain
  obtain ⟨s1, s2⟩ := dt_slope p q hp
  have hs0 : 0 < acidSlope pConstants 2 1 3 4 0.1 [0.001, 0.002] [p, q] := lt_of_lt_of_le (by norm_num) s1
  obtain ⟨-, g2⟩ := hmain
    ⟨fun _ => ⟨A, _, _, 50, "a.dat", fin 35, 1, bu_row hp hd _, hs0,
      { certified := rfl
        typed := ⟨dtArgs, dt_cal_settings _ _, ⟨_, rfl⟩, ⟨_, rfl⟩, dt_temps p q⟩
        small := fun st hst res hres ρ' hρ' => by
          rw [hcal st hst] at hres
          rw [← Except.ok.inj hres] at hρ'
          simp only [List.cons.injEq, fin_inj, and_true] at hρ'
          rw [← hρ']; exact hρ
        found := fun st hst res hres => by
          rw [hcal st hst] at hres
          rw [← Except.ok.inj hres]
          exact ⟨0.1, rfl, by norm_num⟩ }, by
        rw [div_le_iff₀ hs0]
        norm_num at s1 ⊢
        linarith⟩,
      fun hi => absurd hi h2⟩
  obtain ⟨⟨c, hc, hcc⟩, g2⟩ := g2 ⟨r1, by simp, h1, by rw [hb r1 (by simp), hb r2 (by simp)]⟩
  obtain ⟨a, ha, hae⟩ := g2 _ _ _ _ _ _ (bu_row hp hd _) zero_le_one (by norm_num)
  refine ⟨q, A, df', r1, r2, c, a, hd, h, hr, hc, hcc, ha, hae.trans ?_⟩
  rw [abs_of_pos hs0]
  norm_num at s2 ⊢
  linarith

end Calk
