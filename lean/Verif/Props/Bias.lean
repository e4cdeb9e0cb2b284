import Verif.Props.Tolerance
import Verif.Props.FileErrors

/-!
# Property C122: which way errors in the inputs push the alkalinity (pH mode)
-/

namespace Calk
open Flt

/-! ## Specification -/

/-- alkalinity (mol/kg) that the sample itself, without titrant, would have at an acidity of `h` -/
noncomputable def Spec.sampleAlk (x K : String → ℝ) (h : ℝ) : ℝ := (mixture x K 0 1 0 0).alk 3 h

/-- what a kg of titrant brings: protons less those on its own sulfate, and the water's OH less H -/
noncomputable def Spec.titrantAcid (K : String → ℝ) (c n g h : ℝ) : ℝ :=
  c * (n - g * (h / (K "k_bisulfate" + h))) + (K "k_water" / h - h)

/-- the estimate (µmol/kg) from a point with `m` kg of titrant per `M` kg of sample, at a pH of `p` -/
noncomputable def Spec.estimate (x K : String → ℝ) (c n g M m p : ℝ) : ℝ :=
  1e6 * (Spec.sampleAlk x K ((10 : ℝ) ^ (-p)) + m / M * Spec.titrantAcid K c n g ((10 : ℝ) ^ (-p)))

open Spec

theorem mixture_zero (x K : String → ℝ) {M : ℝ} (c g : ℝ) (hM : M ≠ 0) :
    mixture x K 0 M c g = mixture x K 0 1 0 0 := by
  have : ∀ k, mixContent x 0 M c g k = mixContent x 0 1 0 0 k := by
    intro k
    unfold mixContent
    simp only [zero_mul, ite_self, add_zero, zero_add, mul_one, div_one]
    field_simp
  unfold mixture
  simp only [this]

theorem estimate_eq {x K : String → ℝ} {c n g M m p : ℝ} (hM : 0 < M) (hm : 0 ≤ m) :
    1e6 * ((mixture x K m M c g).alk 3 ((10 : ℝ) ^ (-p)) * (m + M) + m * c * n) / M
      = estimate x K c n g M m p := by
  have h := mixture_mass_sub (x := x) (K := K) (m := m) (m' := 0) (M := M) (c := c) (g := g)
    (h := (10 : ℝ) ^ (-p)) (by positivity) (by simpa using hM.ne')
  rw [zero_add, mixture_zero x K c g hM.ne'] at h
  unfold estimate sampleAlk titrantAcid
  rw [div_eq_iff hM.ne']
  have e : m / M * M = m := div_mul_cancel₀ _ hM.ne'
  linear_combination 1e6 * h - 1e6 * (c * (n - g * ((10 : ℝ) ^ (-p) / (K "k_bisulfate" + (10 : ℝ) ^ (-p))))
    + (K "k_water" / (10 : ℝ) ^ (-p) - (10 : ℝ) ^ (-p))) * e

/-- **C122**: the alkalinity reported in pH mode is the mean, over the points in the window, of the
sample's own alkalinity at the pH measured, plus titrant per kg of sample times what the titrant
brings. -/
theorem C122_formula (w : World) (f : String) (S : Flt) (kw : Dict Val) (x K : String → ℝ)
    (c n g lo hi M : ℝ) (tm pH : List ℝ) (h : PHRun w f S kw x K c n g lo hi M tm pH)
    (hin : ∃ p ∈ pH, lo ≤ p ∧ p ≤ hi) :
    ∃ (r : SolvePH) (T : List Flt), files_solve w f (fin c) S kw = .ok (.pH r (pH.map fin) T) ∧
      r.alkalinity_all = (List.zipWith (estimate x K c n g M) tm pH).map fin ∧
      r.alkalinity = fin (windowMean lo hi pH (List.zipWith (estimate x K c n g M) tm pH)) := by
  obtain ⟨r, T, est, hr, hl, he, hall, ha⟩ := C109_estimates w f S kw x K c n g lo hi M tm pH h hin
  have : est = List.zipWith (estimate x K c n g M) tm pH := by
    apply List.ext_getElem
    · simp [hl, h.lengths]
    · intro i hi1 hi2
      have hp : i < pH.length := by rw [← hl]; exact hi1
      have ht : i < tm.length := by rw [h.lengths]; exact hp
      rw [List.getElem_zipWith, he i hp ht hi1, estimate_eq h.mass (h.masses _ (List.getElem_mem ht))]
  subst this
  exact ⟨r, T, hr, hall, ha⟩

/-- contents that take up protons, and those that bring them -/
def Spec.baseContents : List String :=
  ["dic", "total_borate", "total_silicate", "total_ammonia", "total_sulfide"]
def Spec.acidContents : List String := ["total_fluoride", "total_sulfate"]
def Spec.otherContents : List String := ["total_phosphate", "total_alpha", "total_beta"]

theorem sampleAlk_content {x x' K : String → ℝ} {h : ℝ} (hh : 0 < h) (hK : ∀ k ∈ allConstants, 0 < K k)
    (hb : ∀ k ∈ baseContents, x k ≤ x' k) (ha : ∀ k ∈ acidContents, x' k ≤ x k)
    (ho : ∀ k ∈ otherContents, x' k = x k) : sampleAlk x K h ≤ sampleAlk x' K h := by
  have hc : ∀ y : String → ℝ, ∀ k, mixContent y 0 1 0 0 k = y k * 1e-6 := by
    intro y k
    unfold mixContent
    simp
  have hbase : ∀ {T T' k : ℝ}, T ≤ T' → 0 < k → base (T * 1e-6) k h ≤ base (T' * 1e-6) k h := by
    intro T T' k h1 h2
    unfold base
    gcongr
  have hacid : ∀ {T T' k : ℝ}, T ≤ T' → 0 < k → acid (T * 1e-6) k h ≤ acid (T' * 1e-6) k h := by
    intro T T' k h1 h2
    unfold acid
    gcongr
  have hcarb : ∀ {T T' k k' : ℝ}, T ≤ T' → 0 < k → 0 < k' →
      carbAlk (T * 1e-6) k k' h ≤ carbAlk (T' * 1e-6) k k' h := by
    intro T T' k k' h1 h2 h3
    unfold carbAlk
    gcongr
  have e1 := hcarb (hb "dic" (by decide)) (hK "k_carbonic_1" (by decide)) (hK "k_carbonic_2" (by decide))
  have e2 := hbase (hb "total_borate" (by decide)) (hK "k_borate" (by decide))
  have e3 := hbase (hb "total_silicate" (by decide)) (hK "k_silicate" (by decide))
  have e4 := hbase (hb "total_ammonia" (by decide)) (hK "k_ammonia" (by decide))
  have e5 := hbase (hb "total_sulfide" (by decide)) (hK "k_sulfide" (by decide))
  have e6 := hacid (ha "total_fluoride" (by decide)) (hK "k_fluoride" (by decide))
  have e7 := hacid (ha "total_sulfate" (by decide)) (hK "k_bisulfate" (by decide))
  unfold sampleAlk Sol.alk mixture
  simp only [hc, ho "total_phosphate" (by decide), ho "total_alpha" (by decide),
    ho "total_beta" (by decide), if_true, or_true]
  linarith

theorem sampleAlk_pH {x K : String → ℝ} {a b : ℝ} (hx : ∀ k ∈ "dic" :: (optionalContents ++ saltContents), 0 ≤ x k)
    (hK : ∀ k ∈ allConstants, 0 < K k) (ha : 0 < a) (hab : a ≤ b) :
    sampleAlk x K b ≤ sampleAlk x K a := by
  have hv := mixture_valid (x := x) (K := K) (m := 0) (M := 1) (c := 0) (g := 0) (by norm_num) le_rfl
    (by norm_num) hx hK
  have := (alk_fall hv ha le_rfl hab).1
  unfold sampleAlk
  linarith

theorem titrantAcid_mono {K : String → ℝ} {c c' n g a b : ℝ} (hK : ∀ k ∈ allConstants, 0 < K k)
    (hc : c ≤ c') (hc0 : 0 ≤ c) (hg : 0 ≤ g) (hgn : g ≤ n) (ha : 0 < a) (hab : a ≤ b) :
    titrantAcid K c n g b ≤ titrantAcid K c' n g a := by
  have hs := hK "k_bisulfate" (by decide)
  have hw := hK "k_water" (by decide)
  have f1 : a / (K "k_bisulfate" + a) ≤ b / (K "k_bisulfate" + b) := by
    rw [div_le_div_iff₀ (by positivity) (by linarith)]
    nlinarith
  have f2 : b / (K "k_bisulfate" + b) ≤ 1 := by rw [div_le_one (by linarith)]; linarith
  have f3 : K "k_water" / b ≤ K "k_water" / a := by gcongr
  have g1 := mul_le_mul_of_nonneg_left f1 hg
  have g2 : g * (b / (K "k_bisulfate" + b)) ≤ n := (mul_le_of_le_one_right hg f2).trans hgn
  unfold titrantAcid
  have : c * (n - g * (b / (K "k_bisulfate" + b))) ≤ c' * (n - g * (a / (K "k_bisulfate" + a))) :=
    mul_le_mul hc (by linarith) (by linarith) (hc0.trans hc)
  linarith

theorem titrantAcid_nonneg {K : String → ℝ} {c n g h : ℝ} (hK : ∀ k ∈ allConstants, 0 < K k)
    (hc0 : 0 ≤ c) (hg : 0 ≤ g) (hh : 0 < h) (hle : h ≤ c * (n - g)) : 0 ≤ titrantAcid K c n g h := by
  have hs := hK "k_bisulfate" (by decide)
  have hw := hK "k_water" (by decide)
  have f2 : h / (K "k_bisulfate" + h) ≤ 1 := by rw [div_le_one (by linarith)]; linarith
  have f3 : 0 ≤ K "k_water" / h := by positivity
  have g2 := mul_le_mul_of_nonneg_left (mul_le_of_le_one_right hg f2) hc0
  unfold titrantAcid
  nlinarith

/-- **C122**: which way errors go.  Compare two titrations, in the same window, with the same constants
and kind of acid, in which the same points are used.  If the second has, at every point used, the same
or a higher pH and the same or more titrant (and more of it than its own acidity: no pH below that of
the titrant), the same or a stronger titrant, a smaller sample, and contents that take up more or bring
fewer protons, then it has the same or a higher alkalinity. -/
theorem C122_directions (w w' : World) (f f' : String) (S S' : Flt) (kw kw' : Dict Val)
    (x x' K : String → ℝ) (c c' n g lo hi M M' : ℝ) (tm tm' pH pH' : List ℝ)
    (h : PHRun w f S kw x K c n g lo hi M tm pH) (h' : PHRun w' f' S' kw' x' K c' n g lo hi M' tm' pH')
    (hin : ∃ p ∈ pH, lo ≤ p ∧ p ≤ hi) (hg : 0 ≤ g) (hgn : g ≤ n) (hc0 : 0 ≤ c)
    (hstrong : (10 : ℝ) ^ (-lo) ≤ c * (n - g))
    (hb : ∀ k ∈ baseContents, x k ≤ x' k) (ha : ∀ k ∈ acidContents, x' k ≤ x k)
    (ho : ∀ k ∈ otherContents, x' k = x k) (hc : c ≤ c') (hM : M' ≤ M)
    (htm : List.Forall₂ (· ≤ ·) tm tm')
    (hpH : List.Forall₂ (fun p p' => ((lo ≤ p ∧ p ≤ hi) ↔ (lo ≤ p' ∧ p' ≤ hi)) ∧
      (lo ≤ p ∧ p ≤ hi → p ≤ p')) pH pH') :
    ∃ (r r' : SolvePH) (T T' : List Flt) (a a' : ℝ),
      files_solve w f (fin c) S kw = .ok (.pH r (pH.map fin) T) ∧
      files_solve w' f' (fin c') S' kw' = .ok (.pH r' (pH'.map fin) T') ∧
      r.alkalinity = fin a ∧ r'.alkalinity = fin a' ∧ a ≤ a' := by
  obtain ⟨p, hp, hp1⟩ := hin
  have hin' : ∃ p ∈ pH', lo ≤ p ∧ p ≤ hi := by
    obtain ⟨p', hp', hq⟩ := forall₂_mem hpH hp
    exact ⟨p', hp', hq.1.mp hp1⟩
  obtain ⟨r, T, h1, -, h2⟩ := C122_formula w f S kw x K c n g lo hi M tm pH h ⟨p, hp, hp1⟩
  obtain ⟨r', T', h1', -, h2'⟩ := C122_formula w' f' S' kw' x' K c' n g lo hi M' tm' pH' h' hin'
  refine ⟨r, r', T, T', _, _, h1, h1', h2, h2', ?_⟩
  have hK : ∀ k ∈ allConstants, 0 < K k := fun k hk => (h.sample.constants k hk).2
  have hx : ∀ k ∈ "dic" :: (optionalContents ++ saltContents), 0 ≤ x' k :=
    fun k hk => (h'.sample.contents k hk).2
  have hest : ∀ m m' p p' : ℝ, 0 ≤ m → m ≤ m' → lo ≤ p → p ≤ p' →
      estimate x K c n g M m p ≤ estimate x' K c' n g M' m' p' := by
    intro m m' p p' hm0 hm hlo hpp
    have hM0 := h'.mass
    have q1 : (0 : ℝ) < (10 : ℝ) ^ (-p) := by positivity
    have q2 : (0 : ℝ) < (10 : ℝ) ^ (-p') := by positivity
    have q3 : (10 : ℝ) ^ (-p') ≤ (10 : ℝ) ^ (-p) := Real.rpow_le_rpow_of_exponent_le (by norm_num) (by linarith)
    have q4 : (10 : ℝ) ^ (-p) ≤ (10 : ℝ) ^ (-lo) := Real.rpow_le_rpow_of_exponent_le (by norm_num) (by linarith)
    have s1 := sampleAlk_content q1 hK hb ha ho
    have s2 := sampleAlk_pH hx hK q2 q3
    have t1 := titrantAcid_nonneg hK hc0 hg q1 (q4.trans hstrong)
    have t2 := titrantAcid_mono hK hc hc0 hg hgn q2 q3
    have d : m / M ≤ m' / M' := div_le_div₀ (hm0.trans hm) hm hM0 hM
    have d0 : 0 ≤ m' / M' := div_nonneg (hm0.trans hm) hM0.le
    have := mul_le_mul d t2 t1 d0
    unfold estimate
    linarith
  have hm0 := h.masses
  clear h h' h1 h1' h2 h2' hp hin'
  have hlen : ((pH.filter fun p => decide (lo ≤ p) && decide (p ≤ hi)).length : ℝ)
      = (pH'.filter fun p => decide (lo ≤ p) && decide (p ≤ hi)).length := by
    congr 1
    induction hpH with
    | nil => rfl
    | @cons a b l l' hab _ ih =>
      by_cases hw : lo ≤ a ∧ a ≤ hi
      · have hw' := hab.1.mp hw
        simp [hw.1, hw.2, hw'.1, hw'.2, ih]
      · have hw' : ¬ (lo ≤ b ∧ b ≤ hi) := fun hh => hw (hab.1.mpr hh)
        have z1 : (decide (lo ≤ a) && decide (a ≤ hi)) = false := by
          simpa only [Bool.and_eq_false_iff, decide_eq_false_iff_not, not_and_or] using hw
        have z2 : (decide (lo ≤ b) && decide (b ≤ hi)) = false := by
          simpa only [Bool.and_eq_false_iff, decide_eq_false_iff_not, not_and_or] using hw'
        simp only [List.filter_cons, z1, z2, Bool.false_eq_true, if_false, ih]
  unfold windowMean
  rw [hlen]
  refine div_le_div_of_nonneg_right ?_ (by positivity)
  clear hlen
  induction hpH generalizing tm tm' with
  | nil => simp
  | @cons a b l l' hab _ ih =>
    cases htm with
    | nil => simp
    | @cons m m' t t' hmm htt =>
      have ih := ih t t' htt fun q hq => hm0 q (List.mem_cons_of_mem _ hq)
      by_cases hw : lo ≤ a ∧ a ≤ hi
      · have hw' := hab.1.mp hw
        have := hest m m' a b (hm0 m (List.mem_cons_self ..)) hmm hw.1 (hab.2 hw)
        simp only [List.map_cons, List.zipWith_cons_cons, hw.1, hw.2, hw'.1, hw'.2, decide_true,
          Bool.and_true, mask_cons_true, List.sum_cons]
        linarith
      · have hw' : ¬ (lo ≤ b ∧ b ≤ hi) := fun hh => hw (hab.1.mpr hh)
        have z1 : (decide (lo ≤ a) && decide (a ≤ hi)) = false := by
          simpa only [Bool.and_eq_false_iff, decide_eq_false_iff_not, not_and_or] using hw
        have z2 : (decide (lo ≤ b) && decide (b ≤ hi)) = false := by
          simpa only [Bool.and_eq_false_iff, decide_eq_false_iff_not, not_and_or] using hw'
        simp only [List.map_cons, List.zipWith_cons_cons, z1, z2, mask_cons_false]
        exact ih

/-- it applies: the titration of C109 with a higher reading at the first point -/
example (p p' q : ℝ) (hp : 3 ≤ p) (hpp : p ≤ p') (hp' : p' ≤ 4) : ∃ (r r' : SolvePH) (T T' : List Flt) (a a' : ℝ),
    files_solve (pWorld p q) "a.dat" (fin 0.1) (fin 35) pArgs = .ok (.pH r ([p, q].map fin) T) ∧
    files_solve (pWorld p' q) "a.dat" (fin 0.1) (fin 35) pArgs = .ok (.pH r' ([p', q].map fin) T') ∧
    r.alkalinity = fin a ∧ r'.alkalinity = fin a' ∧ a ≤ a' :=
  C122_directions _ _ _ _ _ _ _ _ _ _ _ _ _ _ _ _ _ _ _ _ _ _ _ (p_run p q) (p_run p' q)
    ⟨p, by simp, hp, hpp.trans hp'⟩ zero_le_one (by norm_num) (by norm_num)
    (by rw [Real.rpow_neg (by norm_num)]; norm_num) (fun _ _ => le_rfl) (fun _ _ => le_rfl) (fun _ _ => rfl)
    le_rfl le_rfl (.cons le_rfl (.cons le_rfl .nil))
    (.cons ⟨⟨fun _ => ⟨hp.trans hpp, hp'⟩, fun _ => ⟨hp, hpp.trans hp'⟩⟩, fun _ => hpp⟩
      (.cons ⟨Iff.rfl, fun _ => le_rfl⟩ .nil))

end Calk
