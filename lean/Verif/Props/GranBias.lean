import Verif.Props.Mixed
import Verif.Props.WrongConstants

/-!
# Property C146: what Gran mode leaves out
-/

namespace Calk
open Flt

/-! ## Specification -/

/-- the most that the contents of the sample, the hydroxide and the bisulfate can add to or take from the protons of
a mixture of up to `m` kg of acid with the sample, in mol, at a pH from `lo` to `hi`; by the two ends of the window -/
noncomputable def Spec.leftOut (x K : String → ℝ) (c g M lo hi m : ℝ) : ℝ :=
  (m + M) * (K "k_water" / (10 : ℝ) ^ (-hi))
    + M * (1e-6 * (contents.map fun k => x k
      * max |uptake K ((10 : ℝ) ^ (-lo)) k| |uptake K ((10 : ℝ) ^ (-hi)) k|).sum)
    + m * (c * g) * held (K "k_bisulfate") ((10 : ℝ) ^ (-lo))

open Spec

/-! ## Lemmas -/

theorem mixture_protons {x K : String → ℝ} {m M c g h : ℝ} (hM : M ≠ 0) (hm : m + M ≠ 0) :
    (mixture x K m M c g).alk 3 h * (m + M) = -((m + M) * h) + (m + M) * (K "k_water" / h)
      + M * (1e-6 * (contents.map fun k => x k * uptake K h k).sum) - m * (c * g) * held (K "k_bisulfate") h := by
  have h1 := mixture_mass_sub (x := x) (K := K) (m := m) (m' := 0) (M := M) (c := c) (g := g) (h := h) hm
    (by simpa using hM)
  rw [zero_add, mixture_zero x K c g hM] at h1
  have h2 := sampleAlk_eq x K h
  unfold sampleAlk at h2
  unfold held
  linear_combination h1 + M * h2

theorem uptake_le_ends {K : String → ℝ} (hK : ∀ k ∈ allConstants, 0 < K k) {a b h : ℝ} (ha : 0 < a) (hah : a ≤ h)
    (hhb : h ≤ b) (k : String) : |uptake K h k| ≤ max |uptake K b k| |uptake K a k| := by
  have h1 := uptake_anti hK ha hah k
  have h2 := uptake_anti hK (lt_of_lt_of_le ha hah) hhb k
  rcases le_total 0 (uptake K h k) with h0 | h0
  · rw [abs_of_nonneg h0]
    exact (h1.trans (le_abs_self _)).trans (le_max_right _ _)
  · rw [abs_of_nonpos h0]
    exact ((neg_le_neg h2).trans (neg_le_abs _)).trans (le_max_left _ _)

theorem contents_sum_le {x u v : String → ℝ} (hx : ∀ k ∈ contents, 0 ≤ x k) (hu : ∀ k, |u k| ≤ v k) :
    |(contents.map fun k => x k * u k).sum| ≤ (contents.map fun k => x k * v k).sum := by
  have : ∀ l : List String, (∀ k ∈ l, 0 ≤ x k) →
      |(l.map fun k => x k * u k).sum| ≤ (l.map fun k => x k * v k).sum := by
    intro l hl
    induction l with
    | nil => simp
    | cons k l ih =>
      simp only [List.map_cons, List.sum_cons]
      refine (abs_add_le _ _).trans (add_le_add ?_ (ih fun j hj => hl j (List.mem_cons_of_mem _ hj)))
      rw [abs_mul, abs_of_nonneg (hl k (List.mem_cons_self ..))]
      exact mul_le_mul_of_nonneg_left (hu k) (hl k (List.mem_cons_self ..))
  exact this _ hx

/-! ## Properties -/

/-- **C146**: at a point whose pH is that of the charge balance of the mixture with a sample of alkalinity `A`, the
Gran function misses the straight line that Gran mode takes it for by no more than what the contents, the hydroxide
and the bisulfate can do at the two ends of the window. -/
theorem C146_line (x K : String → ℝ) (hx : ∀ k ∈ contents, 0 ≤ x k) (hK : ∀ k ∈ allConstants, 0 < K k)
    (A c n g lo hi M m m' p : ℝ) (hM : 0 < M) (hm : 0 ≤ m) (hmm : m ≤ m') (hg : 0 ≤ c * g) (hlo : lo ≤ p)
    (hhi : p ≤ hi)
    (hbal : (mixture x K m M c g).alk 3 ((10 : ℝ) ^ (-p)) * (m + M) = A * M - m * c * n) :
    |(m + M) * (10 : ℝ) ^ (-p) - (m * c * n - A * M)| ≤ leftOut x K c g M lo hi m' := by
  have hmM : 0 < m + M := by linarith
  have hm' : 0 ≤ m' := hm.trans hmm
  rw [mixture_protons hM.ne' hmM.ne'] at hbal
  set h := (10 : ℝ) ^ (-p)
  have hh : 0 < h := Real.rpow_pos_of_pos (by norm_num) _
  have ha : 0 < (10 : ℝ) ^ (-hi) := Real.rpow_pos_of_pos (by norm_num) _
  have hah : (10 : ℝ) ^ (-hi) ≤ h := Real.rpow_le_rpow_of_exponent_le (by norm_num) (by linarith)
  have hhb : h ≤ (10 : ℝ) ^ (-lo) := Real.rpow_le_rpow_of_exponent_le (by norm_num) (by linarith)
  have hKw : 0 < K "k_water" := hK _ (by decide)
  have hKs : 0 < K "k_bisulfate" := hK _ (by decide)
  rw [show (m + M) * h - (m * c * n - A * M) = (m + M) * (K "k_water" / h)
    + M * (1e-6 * (contents.map fun k => x k * uptake K h k).sum) - m * (c * g) * held (K "k_bisulfate") h by
      linear_combination -hbal]
  unfold leftOut
  have h1 : |(m + M) * (K "k_water" / h)| ≤ (m' + M) * (K "k_water" / (10 : ℝ) ^ (-hi)) := by
    rw [abs_of_nonneg (by positivity)]
    gcongr
  have h2 := contents_sum_le hx (uptake_le_ends hK ha hah hhb)
  have h3 : |M * (1e-6 * (contents.map fun k => x k * uptake K h k).sum)|
      ≤ M * (1e-6 * (contents.map fun k => x k
        * max |uptake K ((10 : ℝ) ^ (-lo)) k| |uptake K ((10 : ℝ) ^ (-hi)) k|).sum) := by
    rw [abs_mul, abs_mul, abs_of_pos hM, abs_of_pos (show (0 : ℝ) < 1e-6 by norm_num)]
    gcongr
  have h4 : |m * (c * g) * held (K "k_bisulfate") h| ≤ m' * (c * g) * held (K "k_bisulfate") ((10 : ℝ) ^ (-lo)) := by
    have e : held (K "k_bisulfate") h ≤ held (K "k_bisulfate") ((10 : ℝ) ^ (-lo)) := by
      unfold held
      rw [div_le_div_iff₀ (by positivity) (by linarith)]
      nlinarith
    have e0 : 0 ≤ held (K "k_bisulfate") h := by unfold held; positivity
    rw [abs_of_nonneg (by positivity)]
    have := mul_nonneg hm' hg
    gcongr
  refine (abs_sub _ _).trans (add_le_add ((abs_add_le _ _).trans (add_le_add h1 h3)) h4)

/-- **C146**: a file whose points in the window follow the charge balance of the mixture with a sample of alkalinity
`A`, solved in `ph_gran` mode: the alkalinity is off by at most what `C142_gran` gives for the moles left out. -/
theorem C146_gran (w : World) (f : String) (S : Flt) (kw : Dict Val) (x K : String → ℝ)
    (hx : ∀ k ∈ contents, 0 ≤ x k) (hK : ∀ k ∈ allConstants, 0 < K k) (A c n g lo hi M m' : ℝ)
    (pts : List (ℝ × ℝ)) (h : GranRun w f S kw n lo hi M pts) (hcn : 0 < c * n) (hg : 0 ≤ c * g)
    (hm : ∀ p ∈ pts, lo ≤ p.2 → p.2 ≤ hi → 0 ≤ p.1 ∧ p.1 ≤ m')
    (hbal : ∀ p ∈ pts, lo ≤ p.2 → p.2 ≤ hi →
      (mixture x K p.1 M c g).alk 3 ((10 : ℝ) ^ (-p.2)) * (p.1 + M) = A * M - p.1 * c * n)
    (p q : ℝ × ℝ) (hp : p ∈ granPlot M lo hi pts) (hq : q ∈ granPlot M lo hi pts) (D : ℝ)
    (hD : D = (1 + Real.sqrt (granPlot M lo hi pts).length) * leftOut x K c g M lo hi m')
    (hsteep : 2 * D < c * n * |p.1 - q.1|) (sr : SolveRes) (hs : files_solve w f (fin c) S kw = .ok sr) :
    ∃ A', sr.alkalinity = fin (1e6 * A') ∧
      |A' - A| * M * (c * n * |p.1 - q.1| - 2 * D)
        ≤ c * n * D * (|A * M / (c * n) - p.1| + |A * M / (c * n) - q.1|) :=
  C142_gran w f S kw A c n lo hi M _ pts h hcn
    (fun p hp h1 h2 => C146_line x K hx hK A c n g lo hi M p.1 m' p.2 h.mass (hm p hp h1 h2).1 (hm p hp h1 h2).2 hg
      h1 h2 (hbal p hp h1 h2)) p q hp hq D hD hsteep sr hs

/-- **C146**: such a file solved in both modes: `ph` mode, told what the sample holds, gives `A` itself, so that the
two modes differ by no more than that. -/
theorem C146_modes (w : World) (f : String) (S : Flt) (kw kw' : Dict Val) (x K : String → ℝ)
    (hx : ∀ k ∈ contents, 0 ≤ x k) (hK : ∀ k ∈ allConstants, 0 < K k) (A c n g lo hi M m' : ℝ) (tm pH : List ℝ)
    (h : PHRun w f S kw x K c n g lo hi M tm pH) (h' : GranRun w f S kw' n lo hi M (tm.zip pH)) (hcn : 0 < c * n)
    (hm : ∀ m ∈ tm, m ≤ m')
    (hbal : ∀ i, (hp : i < pH.length) → (ht : i < tm.length) →
      (mixture x K tm[i] M c g).alk 3 ((10 : ℝ) ^ (-pH[i])) * (tm[i] + M) = A * M - tm[i] * c * n)
    (p q : ℝ × ℝ) (hp : p ∈ granPlot M lo hi (tm.zip pH)) (hq : q ∈ granPlot M lo hi (tm.zip pH)) (D : ℝ)
    (hD : D = (1 + Real.sqrt (granPlot M lo hi (tm.zip pH)).length) * leftOut x K c g M lo hi m')
    (hsteep : 2 * D < c * n * |p.1 - q.1|) (sr : SolveRes) (hs : files_solve w f (fin c) S kw' = .ok sr) :
    ∃ (sr' : SolveRes) (A' : ℝ), files_solve w f (fin c) S kw = .ok sr' ∧ sr'.alkalinity = fin (1e6 * A) ∧
      sr.alkalinity = fin (1e6 * A') ∧
      |A' - A| * M * (c * n * |p.1 - q.1| - 2 * D)
        ≤ c * n * D * (|A * M / (c * n) - p.1| + |A * M / (c * n) - q.1|) := by
  have hin : ∃ p ∈ pH, lo ≤ p ∧ p ≤ hi := by
    obtain ⟨z, hz, -⟩ := List.mem_map.mp hp
    obtain ⟨hz, hw⟩ := List.mem_filter.mp hz
    simp only [Bool.and_eq_true, decide_eq_true_eq] at hw
    exact ⟨z.2, (List.of_mem_zip hz).2, hw⟩
  obtain ⟨r, T, h1, h2, -⟩ := C109_exact w f S kw x K A c n g lo hi M tm pH h hbal hin
  obtain ⟨A', h3, h4⟩ := C146_gran w f S kw' x K hx hK A c n g lo hi M m' _ h' hcn h.acid
    (fun z hz _ _ => ⟨h.masses _ (List.of_mem_zip hz).1, hm _ (List.of_mem_zip hz).1⟩)
    (fun z hz _ _ => by
      obtain ⟨i, hi, rfl⟩ := List.getElem_of_mem hz
      rw [List.getElem_zip]
      rw [List.length_zip] at hi
      exact hbal i (by omega) (by omega)) p q hp hq D hD hsteep sr hs
  exact ⟨_, A', h1, h2, h3, h4⟩

/-- **C146**: a calibration in `ph_gran` mode on such a file, against its true alkalinity: the molinity found, with
the misfit `ρ` (µmol/kg) that the optimiser reports, is off by no more than that alkalinity would be, relatively. -/
theorem C146_calibrate (w : World) (f : String) (S : Flt) (kw : Dict Val) (x K : String → ℝ)
    (hx : ∀ k ∈ contents, 0 ≤ x k) (hK : ∀ k ∈ allConstants, 0 < K k) (A c n g lo hi M m' : ℝ)
    (pts : List (ℝ × ℝ)) (h : GranRun w f S kw n lo hi M pts) (hcn : 0 < c * n) (hg : 0 ≤ c * g)
    (hm : ∀ p ∈ pts, lo ≤ p.2 → p.2 ≤ hi → 0 ≤ p.1 ∧ p.1 ≤ m')
    (hbal : ∀ p ∈ pts, lo ≤ p.2 → p.2 ≤ hi →
      (mixture x K p.1 M c g).alk 3 ((10 : ℝ) ^ (-p.2)) * (p.1 + M) = A * M - p.1 * c * n)
    (p q : ℝ × ℝ) (hp : p ∈ granPlot M lo hi pts) (hq : q ∈ granPlot M lo hi pts) (D : ℝ)
    (hD : D = (1 + Real.sqrt (granPlot M lo hi pts).length) * leftOut x K c g M lo hi m')
    (hsteep : 2 * D < c * n * |p.1 - q.1|) (sr : SolveRes) (hs : files_solve w f (fin c) S kw = .ok sr)
    (hreg : Regular w f S kw) (hgl : kw.get? "gran_logic" = none) (res : LsqResult Flt) (c' ρ : ℝ)
    (hcal : files_calibrate w f (fin (1e6 * A)) S kw = .ok res) (hρ : res.fun_ = [fin ρ]) (hx' : res.x = fin c')
    (G H : ℝ) (hG : G = c * n * D * (|A * M / (c * n) - p.1| + |A * M / (c * n) - q.1|))
    (hH : H = M * (c * n * |p.1 - q.1| - 2 * D)) :
    |c' - c| * (|A| * H - G) ≤ |c| * (G + 1e-6 * |ρ| * H) := by
  obtain ⟨A', h1, h2⟩ := C146_gran w f S kw x K hx hK A c n g lo hi M m' pts h hcn hg hm hbal p q hp hq D hD hsteep sr hs
  rw [mul_assoc, ← hG, ← hH] at h2
  have hfit : ∀ y ∈ granPlot M lo hi pts, |y.2 - (c * n) * y.1 - (-(A * M))| ≤ leftOut x K c g M lo hi m' := by
    intro y hy
    obtain ⟨z, hz, rfl⟩ := List.mem_map.mp hy
    obtain ⟨hz, hw⟩ := List.mem_filter.mp hz
    simp only [Bool.and_eq_true, decide_eq_true_eq] at hw
    have := C146_line x K hx hK A c n g lo hi M z.1 m' z.2 h.mass (hm z hz hw.1 hw.2).1
      (hm z hz hw.1 hw.2).2 hg hw.1 hw.2 (hbal z hz hw.1 hw.2)
    rwa [show (z.1 + M) * (10 : ℝ) ^ (-z.2) - (z.1 * c * n - A * M)
      = (z.1 + M) * (10 : ℝ) ^ (-z.2) - c * n * z.1 - -(A * M) by ring] at this
  have hD0 : 0 ≤ D := by
    rw [hD]
    exact mul_nonneg (by positivity) ((abs_nonneg _).trans (hfit p hp))
  have hne : p.1 ≠ q.1 := by
    intro he
    rw [he, sub_self, abs_zero, mul_zero] at hsteep
    linarith
  obtain ⟨a, b, hbest, -⟩ := C116_one_line M lo hi pts ⟨p, hp, q, hq, hne⟩
  have ha : a ≠ 0 := by
    rintro rfl
    have e1 := best_line_near hbest hfit hp
    have e2 := best_line_near hbest hfit hq
    rw [← hD] at e1 e2
    obtain ⟨-, e3⟩ := line_between (x₀ := 0) hne e1 e2
    rw [zero_sub, abs_neg, abs_of_pos hcn] at e3
    linarith
  obtain ⟨sr', hsr', hfun⟩ := calibrate_residual w f _ S kw res hreg hgl hcal
  rw [hx'] at hsr'
  have r1 := (C116_line w f S kw c n lo hi M pts h ⟨p, hp, q, hq, hne⟩ a b hbest ha sr hs).1
  have r2 := (C116_line w f S kw c' n lo hi M pts h ⟨p, hp, q, hq, hne⟩ a b hbest ha sr' hsr').1
  rw [h1] at r1
  have r1 := Flt.fin.inj r1
  rw [hρ, r2, sub_fin] at hfun
  have r3 := Flt.fin.inj (List.cons.inj hfun).1
  have hM := h.mass
  have hH0 : 0 ≤ H := by rw [hH]; exact mul_nonneg hM.le (by linarith)
  have key : (c' - c) * A' = c * ((A - A') + 1e-6 * ρ) := by
    have t : c' * A' = c * (A + 1e-6 * ρ) := by
      have e1 : A' = (-b / a) * n / M * c := by linear_combination 1e-6 * r1
      have e2 : A + 1e-6 * ρ = (-b / a) * n / M * c' := by linear_combination 1e-6 * r3
      rw [e1, e2]
      ring
    linear_combination t
  have key' : |c' - c| * |A'| ≤ |c| * (|A' - A| + 1e-6 * |ρ|) := by
    rw [← abs_mul, key, abs_mul]
    refine mul_le_mul_of_nonneg_left ((abs_add_le _ _).trans ?_) (abs_nonneg _)
    rw [abs_sub_comm A A', abs_mul, abs_of_pos (by norm_num : (0 : ℝ) < 1e-6)]
  have hA : |A| - |A' - A| ≤ |A'| := by
    have := abs_sub_abs_le_abs_sub A A'
    rw [abs_sub_comm A A'] at this
    linarith
  calc |c' - c| * (|A| * H - G) ≤ |c' - c| * (|A| * H - |A' - A| * H) := by gcongr
    _ = |c' - c| * (|A| - |A' - A|) * H := by ring
    _ ≤ |c' - c| * |A'| * H := by gcongr
    _ ≤ |c| * (|A' - A| + 1e-6 * |ρ|) * H := by gcongr
    _ = |c| * (|A' - A| * H + 1e-6 * |ρ| * H) := by ring
    _ ≤ _ := by gcongr

/-! ### A case: the titration of C109 with ten of each content, 10 µmol/kg, strong or weak -/

noncomputable def gbK (k : String) : ℝ :=
  if k = "k_water" then 1e-14
  else if k = "k_bisulfate" ∨ k = "k_fluoride" ∨ k = "k_phosphoric_1" then 10 else 1e-9

theorem gb_pos (k : String) : 0 < gbK k := by
  unfold gbK
  split_ifs <;> norm_num

theorem gb_lost {h : ℝ} (h1 : 1e-4 ≤ h) : |lost 1e-9 h| ≤ 2e-4 := by
  have h0 : (0 : ℝ) < h := lt_of_lt_of_le (by norm_num) h1
  unfold lost
  rw [abs_of_nonneg (by positivity), div_le_iff₀ (by positivity)]
  norm_num at h1 ⊢
  linarith

theorem gb_held {h : ℝ} (h1 : 1e-4 ≤ h) (h2 : h ≤ 1e-3) : 0 ≤ held 10 h ∧ held 10 h ≤ 1e-4 := by
  have h0 : (0 : ℝ) < h := lt_of_lt_of_le (by norm_num) h1
  unfold held
  refine ⟨by positivity, ?_⟩
  rw [div_le_iff₀ (by positivity)]
  norm_num at h1 h2 ⊢
  linarith

theorem gb_uptake {h : ℝ} (h1 : 1e-4 ≤ h) (h2 : h ≤ 1e-3) (k : String) : |uptake gbK h k| ≤ 2e-4 := by
  have h0 : (0 : ℝ) < h := lt_of_lt_of_le (by norm_num) h1
  have e1 := gb_lost h1
  have e2 : |-held 10 h| ≤ 2e-4 := by
    obtain ⟨a, b⟩ := gb_held h1 h2
    rw [abs_neg, abs_of_nonneg a]
    refine b.trans (by norm_num)
  have e3 : ¬ -Real.logb 10 (1e-9 : ℝ) ≤ 4.5 := by
    rw [show (1e-9 : ℝ) = (10 : ℝ) ^ (-9 : ℝ) by rw [Real.rpow_neg (by norm_num)]; norm_num,
      Real.logb_rpow (by norm_num) (by norm_num)]
    norm_num
  have e4 : |(1e-9 * h + 2 * (1e-9 * 1e-9)) / (h ^ 2 + 1e-9 * h + 1e-9 * 1e-9)| ≤ (2e-4 : ℝ) := by
    rw [abs_of_nonneg (by positivity), div_le_iff₀ (by positivity)]
    norm_num at h1 ⊢
    nlinarith
  have e5 : |(10 * 1e-9 * h + 2 * (10 * 1e-9 * 1e-9) - h ^ 3)
      / (h ^ 3 + 10 * h ^ 2 + 10 * 1e-9 * h + 10 * 1e-9 * 1e-9)| ≤ (2e-4 : ℝ) := by
    have h3 : 0 < h ^ 3 := by positivity
    have h4 : h ^ 3 ≤ 1e-3 * h ^ 2 := by nlinarith [sq_nonneg h]
    have h5 : 1e-4 * h ≤ h ^ 2 := by nlinarith
    rw [abs_div, abs_of_pos (show 0 < h ^ 3 + 10 * h ^ 2 + 10 * 1e-9 * h + 10 * 1e-9 * 1e-9 by positivity),
      div_le_iff₀ (by positivity), abs_le]
    norm_num at h1 h4 h5 ⊢
    constructor <;> linarith
  unfold uptake
  simp only [gbK, String.reduceEq, if_true, if_false, or_true, or_false, true_or, if_neg e3]
  split_ifs <;> assumption

noncomputable def gbArgs : Dict Val :=
  [ ("solve_mode", .str "pH_Gran"), ("analyte_mass", .num (fin 0.1)), ("titrant_amount_unit", .str "kg"),
    ("titrant_normality", .num (fin 2)) ] ++
  (("dic" :: (optionalContents ++ saltContents)).map fun k => (k, Val.num (fin (pContents k)))) ++
  allConstants.map fun k => (k, Val.num (fin (gbK k)))

theorem gb_load (w : World) : load w "a.dat" (fin 35) gbArgs = load w "a.dat" (fin 35) (wcArgs gbK) := rfl

theorem gb_run : GranRun (pWorld fgP fgQ) "a.dat" (fin 35) gbArgs 2 3 4 0.1 ([0.001, 0.002].zip [fgP, fgQ]) := by
  refine ⟨?_, ⟨"pH_Gran", rfl, by decide⟩, .inl rfl, .inr ⟨rfl, rfl⟩, .inr ⟨rfl, rfl⟩, by norm_num, by norm_num⟩
  obtain ⟨cv, totals, ks, h, h1, h2, h3⟩ := wc_load gbK fgP fgQ
  exact ⟨cv, totals, ks, by rw [gb_load]; exact h, by rw [h1]; rfl, h2, by rw [h3]; rfl⟩

/-- what the contents add at a point -/
noncomputable def gbB (h : ℝ) : ℝ := 1e-6 * (contents.map fun k => pContents k * uptake gbK h k).sum

theorem gb_bound {h : ℝ} (h1 : 1e-4 ≤ h) (h2 : h ≤ 1e-3) : |gbB h| ≤ 2e-8 := by
  have h3 := contents_sum_le (x := pContents) (fun _ _ => by norm_num [pContents]) (gb_uptake h1 h2)
  simp only [contents, List.map_cons, List.map_nil, List.sum_cons, List.sum_nil, pContents] at h3
  unfold gbB
  rw [abs_mul, abs_of_pos (by norm_num)]
  simp only [contents, List.map_cons, List.map_nil, List.sum_cons, List.sum_nil, pContents]
  norm_num at h3 ⊢
  linarith

/-- the acid and the sample for which the two points are exact -/
theorem gb_exact : ∃ c A : ℝ, 0.0249 ≤ c ∧ c ≤ 0.0251 ∧ 1.9e-4 ≤ A ∧ A ≤ 2.1e-4 ∧
    ∀ i, (hp : i < [fgP, fgQ].length) → (ht : i < [(0.001 : ℝ), 0.002].length) →
      (mixture pContents gbK [(0.001 : ℝ), 0.002][i] 0.1 c 1).alk 3 ((10 : ℝ) ^ (-[fgP, fgQ][i]))
        * ([(0.001 : ℝ), 0.002][i] + 0.1) = A * 0.1 - [(0.001 : ℝ), 0.002][i] * c * 2 := by
  have b1 := abs_le.mp (gb_bound (h := 3e-5 / 0.101) (by norm_num) (by norm_num))
  have b2 := abs_le.mp (gb_bound (h := 8e-5 / 0.102) (by norm_num) (by norm_num))
  have s1 := gb_held (h := 3e-5 / 0.101) (by norm_num) (by norm_num)
  have s2 := gb_held (h := 8e-5 / 0.102) (by norm_num) (by norm_num)
  generalize hB1 : gbB (3e-5 / 0.101) = B1 at b1
  generalize hB2 : gbB (8e-5 / 0.102) = B2 at b2
  generalize hS1 : held 10 (3e-5 / 0.101) = S1 at s1
  generalize hS2 : held 10 (8e-5 / 0.102) = S2 at s2
  let r1 : ℝ := 3e-5 - 0.101 * (1e-14 / (3e-5 / 0.101)) - 0.1 * B1
  let r2 : ℝ := 8e-5 - 0.102 * (1e-14 / (8e-5 / 0.102)) - 0.1 * B2
  let d : ℝ := 0.002 * (2 - S2) - 0.001 * (2 - S1)
  have hd : 0 < d := by show 0 < 0.002 * (2 - S2) - 0.001 * (2 - S1); norm_num at s1 s2 ⊢; linarith
  let c : ℝ := (r2 - r1) / d
  have hc : c * d = r2 - r1 := div_mul_cancel₀ _ hd.ne'
  have c1 : 0.0249 ≤ c := by
    rw [le_div_iff₀ hd]
    simp only [d, r1, r2]; norm_num at s1 s2 b1 b2 ⊢; linarith
  have c2 : c ≤ 0.0251 := by
    rw [div_le_iff₀ hd]
    simp only [d, r1, r2]; norm_num at s1 s2 b1 b2 ⊢; linarith
  let A : ℝ := (0.001 * c * (2 - S1) - r1) / 0.1
  have hA : A * 0.1 = 0.001 * c * (2 - S1) - r1 := div_mul_cancel₀ _ (by norm_num)
  have cs : 0 ≤ c * S1 ∧ c * S1 ≤ 0.0251 * 1e-4 :=
    ⟨mul_nonneg (by linarith) s1.1, mul_le_mul c2 s1.2 s1.1 (by norm_num)⟩
  have k1 : gbK "k_water" = 1e-14 := by simp [gbK]
  have k2 : gbK "k_bisulfate" = 10 := by simp [gbK]
  refine ⟨c, A, c1, c2, ?_, ?_, ?_⟩
  · simp only [r1] at hA
    norm_num at hA cs b1 c1 c2 ⊢
    linarith
  · simp only [r1] at hA
    norm_num at hA cs b1 c1 c2 ⊢
    linarith
  · intro i hp ht
    match i, ht with
    | 0, _ =>
      simp only [List.getElem_cons_zero]
      rw [mixture_protons (by norm_num) (by norm_num), fgP, neg_neg,
        Real.rpow_logb (by norm_num) (by norm_num) (by norm_num), k1, k2, hS1]
      have := hB1
      unfold gbB at this
      rw [this, hA]
      simp only [r1]
      ring
    | 1, _ =>
      simp only [List.getElem_cons_succ, List.getElem_cons_zero]
      rw [mixture_protons (by norm_num) (by norm_num), fgQ, neg_neg,
        Real.rpow_logb (by norm_num) (by norm_num) (by norm_num), k1, k2, hS2]
      have := hB2
      unfold gbB at this
      rw [this, hA]
      simp only [r1, r2, d] at hc ⊢
      clear_value c
      linear_combination hc

/-- the two modes agree on it up to 5 µmol/kg, of about 200 -/
example : ∃ (c A A' : ℝ) (sr sr' : SolveRes), 1.9e-4 ≤ A ∧ |A' - A| ≤ 5e-6 ∧
    files_solve (pWorld fgP fgQ) "a.dat" (fin c) (fin 35) (wcArgs gbK) = .ok sr ∧ sr.alkalinity = fin (1e6 * A) ∧
    files_solve (pWorld fgP fgQ) "a.dat" (fin c) (fin 35) gbArgs = .ok sr' ∧ sr'.alkalinity = fin (1e6 * A') := by
  obtain ⟨c, A, c1, c2, a1, a2, hbal⟩ := gb_exact
  obtain ⟨sr, hs⟩ := C116_succeeds (pWorld fgP fgQ) "a.dat" (fin 35) (fin c) gbArgs 2 3 4 0.1 _
    gb_run fg_two rfl rfl rfl
  have w1 := fg_window (3e-5 / 0.101) (by norm_num) (by norm_num)
  have w2 := fg_window (8e-5 / 0.102) (by norm_num) (by norm_num)
  have hlen : (granPlot 0.1 3 4 ([0.001, 0.002].zip [fgP, fgQ])).length ≤ 2 := by
    unfold granPlot
    rw [List.length_map]
    exact List.length_filter_le _ _
  have hsq : Real.sqrt (granPlot 0.1 3 4 ([0.001, 0.002].zip [fgP, fgQ])).length ≤ 2 := by
    rw [Real.sqrt_le_left (by norm_num)]
    have : ((granPlot 0.1 3 4 ([0.001, 0.002].zip [fgP, fgQ])).length : ℝ) ≤ 2 := by exact_mod_cast hlen
    linarith
  have hsq0 := Real.sqrt_nonneg ((granPlot 0.1 3 4 ([0.001, 0.002].zip [fgP, fgQ])).length : ℝ)
  have e3 : (10 : ℝ) ^ (-3 : ℝ) = 1e-3 := by rw [Real.rpow_neg (by norm_num)]; norm_num
  have e4 : (10 : ℝ) ^ (-4 : ℝ) = 1e-4 := by rw [Real.rpow_neg (by norm_num)]; norm_num
  have hout : 0 ≤ leftOut pContents gbK c 1 0.1 3 4 0.002 ∧ leftOut pContents gbK c 1 0.1 3 4 0.002 ≤ 1e-8 := by
    unfold leftOut
    rw [e3, e4]
    have k1 : gbK "k_water" = 1e-14 := by simp [gbK]
    have k2 : gbK "k_bisulfate" = 10 := by simp [gbK]
    have hs := gb_held (h := 1e-3) (by norm_num) (by norm_num)
    have hm : ∀ k, max |uptake gbK 1e-3 k| |uptake gbK 1e-4 k| ≤ 2e-4 := fun k =>
      max_le (gb_uptake (by norm_num) (by norm_num) k) (gb_uptake (by norm_num) (by norm_num) k)
    have hm0 : ∀ k, 0 ≤ max |uptake gbK 1e-3 k| |uptake gbK 1e-4 k| := fun k =>
      (abs_nonneg _).trans (le_max_left _ _)
    have hcs : 0 ≤ c * held 10 1e-3 ∧ c * held 10 1e-3 ≤ 0.0251 * 1e-4 :=
      ⟨mul_nonneg (by linarith) hs.1, mul_le_mul c2 hs.2 hs.1 (by norm_num)⟩
    generalize hu : (fun k => max |uptake gbK 1e-3 k| |uptake gbK 1e-4 k|) = u
    replace hm : ∀ k, u k ≤ 2e-4 := fun k => by rw [← hu]; exact hm k
    replace hm0 : ∀ k, 0 ≤ u k := fun k => by rw [← hu]; exact hm0 k
    have hu' : ∀ k, max |uptake gbK 1e-3 k| |uptake gbK 1e-4 k| = u k := fun k => by rw [← hu]
    simp only [hu', k1, k2, contents, List.map_cons, List.map_nil, List.sum_cons, List.sum_nil, pContents]
    have i1 := hm "dic"
    have i2 := hm "total_borate"
    have i3 := hm "total_phosphate"
    have i4 := hm "total_silicate"
    have i5 := hm "total_ammonia"
    have i6 := hm "total_sulfide"
    have i7 := hm "total_alpha"
    have i8 := hm "total_beta"
    have i9 := hm "total_fluoride"
    have i10 := hm "total_sulfate"
    have j1 := hm0 "dic"
    have j2 := hm0 "total_borate"
    have j3 := hm0 "total_phosphate"
    have j4 := hm0 "total_silicate"
    have j5 := hm0 "total_ammonia"
    have j6 := hm0 "total_sulfide"
    have j7 := hm0 "total_alpha"
    have j8 := hm0 "total_beta"
    have j9 := hm0 "total_fluoride"
    have j10 := hm0 "total_sulfate"
    generalize held 10 1e-3 = y at hcs
    rw [show (0.002 : ℝ) * (c * 1) * y = 0.002 * (c * y) by ring]
    norm_num at i1 i2 i3 i4 i5 i6 i7 i8 i9 i10 hcs ⊢
    constructor <;> linarith
  generalize hL : leftOut pContents gbK c 1 0.1 3 4 0.002 = L at hout
  have run : PHRun (pWorld fgP fgQ) "a.dat" (fin 35) (wcArgs gbK) pContents gbK c 2 1 3 4 0.1
      [0.001, 0.002] [fgP, fgQ] :=
    { wc_run gb_pos fgP fgQ with acid := by linarith }
  have hD : 0 ≤ (1 + Real.sqrt (granPlot 0.1 3 4 ([0.001, 0.002].zip [fgP, fgQ])).length) * L ∧
      (1 + Real.sqrt (granPlot 0.1 3 4 ([0.001, 0.002].zip [fgP, fgQ])).length) * L ≤ 3 * 1e-8 :=
    ⟨mul_nonneg (by linarith) hout.1, mul_le_mul (by linarith) hout.2 hout.1 (by norm_num)⟩
  obtain ⟨sr', A', h1, h2, h3, h4⟩ := C146_modes (pWorld fgP fgQ) "a.dat" (fin 35) (wcArgs gbK) gbArgs pContents gbK
    (fun _ _ => by norm_num [pContents]) (fun k _ => gb_pos k) A c 2 1 3 4 0.1 0.002 [0.001, 0.002] [fgP, fgQ] run gb_run
    (by linarith) (by simp only [List.mem_cons, List.not_mem_nil, or_false]; rintro m (rfl | rfl) <;> norm_num) hbal
    _ _ (List.mem_map.mpr ⟨(0.001, fgP), by simpa [fgP] using w1, rfl⟩)
    (List.mem_map.mpr ⟨(0.002, fgQ), by simpa [fgQ] using w2, rfl⟩) _ rfl
    (by
      rw [show |(0.001 : ℝ) - 0.002| = 0.001 by norm_num, hL]
      linarith [hD.2]) sr hs
  refine ⟨c, A, A', sr', sr, a1, ?_, h1, h2, hs, h3⟩
  rw [show |(0.001 : ℝ) - 0.002| = 0.001 by norm_num, hL] at h4
  generalize (1 + Real.sqrt (granPlot 0.1 3 4 ([0.001, 0.002].zip [fgP, fgQ])).length) * L = D at h4 hD
  have hc0 : 0 < c * 2 := by linarith
  have hV : 0 ≤ A * 0.1 / (c * 2) ∧ A * 0.1 / (c * 2) ≤ 0.001 :=
    ⟨div_nonneg (by linarith) hc0.le, by rw [div_le_iff₀ hc0]; norm_num at a2 c1 ⊢; linarith⟩
  generalize A * 0.1 / (c * 2) = V at h4 hV
  have hT : |V - 0.001| + |V - 0.002| ≤ 0.003 := by
    rw [abs_of_nonpos (by linarith [hV.2]), abs_of_nonpos (by linarith [hV.2])]
    linarith [hV.1]
  have hright : c * 2 * D * (|V - 0.001| + |V - 0.002|) ≤ 0.0502 * 3e-8 * 0.003 := by
    have : c * 2 * D ≤ 0.0502 * 3e-8 := mul_le_mul (by linarith) (by linarith [hD.2]) hD.1 (by norm_num)
    exact mul_le_mul this hT (by positivity) (by norm_num)
  have hleft : |A' - A| * 4e-6 ≤ |A' - A| * 0.1 * (c * 2 * 0.001 - 2 * D) := by
    rw [mul_assoc]
    refine mul_le_mul_of_nonneg_left ?_ (abs_nonneg _)
    norm_num at c1 hD ⊢
    linarith [hD.2]
  norm_num at hleft hright h4 ⊢
  linarith

noncomputable def gbCal : Dict Val := gbArgs ++ [("titrant_molinity_init", .num (fin 0.025))]

/-- the same with a calibration: every hypothesis of `C146_calibrate` about it is met -/
example (A : ℝ) : GranRun (calWorld fgP fgQ) "a.dat" (fin 35) gbCal 2 3 4 0.1 ([0.001, 0.002].zip [fgP, fgQ]) ∧
    Regular (calWorld fgP fgQ) "a.dat" (fin 35) gbCal ∧ gbCal.get? "gran_logic" = none ∧
    ∃ (res : LsqResult Flt) (ρ : ℝ), files_calibrate (calWorld fgP fgQ) "a.dat" (fin (1e6 * A)) (fin 35) gbCal = .ok res ∧
      res.fun_ = [fin ρ] ∧ res.x = fin 0.025 := by
  obtain ⟨cv, totals, ks, h, h1, h2, h3, h4⟩ := wc_loads gbK fgP fgQ
  have hl : ∀ w : World, load w "a.dat" (fin 35) gbCal = load w "a.dat" (fin 35) (wcArgs gbK) := fun _ => rfl
  have hrun : GranRun (calWorld fgP fgQ) "a.dat" (fin 35) gbCal 2 3 4 0.1 ([0.001, 0.002].zip [fgP, fgQ]) :=
    ⟨⟨cv, totals, ks, by rw [hl]; exact h, by rw [h1]; rfl, h2, by rw [h3]; rfl⟩, ⟨"pH_Gran", rfl, by decide⟩, .inl rfl,
      .inr ⟨rfl, rfl⟩, .inr ⟨rfl, rfl⟩, by norm_num, by norm_num⟩
  have hty : Typed gbCal "ph_gran" (fin 0.025) (ttArgs []) := by
    refine ⟨?_, rfl, rfl, ?_⟩
    · have : solve_mode gbCal = .ok (lowerS "pH_Gran") := rfl
      rw [this]; decide
    · exact ⟨_, rfl⟩
  obtain ⟨sr, hs⟩ := C116_succeeds (calWorld fgP fgQ) "a.dat" (fin 35) (fin 0.025) gbCal 2 3 4 0.1 _
    hrun fg_two rfl rfl rfl
  have ha := (C116_line _ _ _ _ _ _ _ _ _ _ hrun fg_two _ _ (ideal_best fg_ideal) (by norm_num) sr hs).1
  have hl' : load (calWorld fgP fgQ) "a.dat" (fin 35) gbCal = .ok (cv, totals, ks) := by rw [hl]; exact h
  have hc := C32_same_solver (calWorld fgP fgQ) "a.dat" "ph_gran" (fin (1e6 * A)) (fin 35) (fin 0.025)
    gbCal cv totals ks hl' hty rfl (by decide) (by rw [h3, h4]; rfl)
  refine ⟨hrun, ⟨lsqOnce_reports, cv, totals, ks, "ph_gran", fin 0.025, _, hl', hty, by decide, by rw [h3, h4]; rfl,
    .inl rfl⟩, rfl, ⟨fin 0.025, [fin (1e6 * (-(-(2e-4 * 0.1)) / (0.05 * 1)) * 0.025 * 2 / 0.1 - 1e6 * A)]⟩, _, ?_, rfl, rfl⟩
  have hs' : solveRes (calWorld fgP fgQ) "a.dat" (fin 35) (fin (1e6 * A)) gbCal (fin 0.025) ()
      = (.ok [fin (1e6 * (-(-(2e-4 * 0.1)) / (0.05 * 1)) * 0.025 * 2 / 0.1 - 1e6 * A)], ()) := by
    simp only [solveRes, hs, bind_ok, pure_ok, ha, sub_fin, PyS.lift]
  rw [hc]
  show (lsqOnce.run (solveRes (calWorld fgP fgQ) "a.dat" (fin 35) (fin (1e6 * A)) gbCal) (fin 0.025) ()).1 = _
  simp only [Lsq.run, Lsq.loop, lsqOnce, PyS.bind_apply, hs']
  simp [allFinite]

end Calk
