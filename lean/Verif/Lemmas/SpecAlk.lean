import Verif.Spec
import Mathlib.Topology.Order.IntermediateValue
import Mathlib.Topology.Algebra.Order.Field

/-! Analysis of the textbook alkalinity function. -/

namespace Calk.Spec

theorem carbAlk_anti {T K1 K2 a b : ℝ} (hT : 0 ≤ T) (h1 : 0 < K1) (h2 : 0 < K2)
    (ha : 0 < a) (hab : a ≤ b) : carbAlk T K1 K2 b ≤ carbAlk T K1 K2 a := by
  have hb : 0 < b := lt_of_lt_of_le ha hab
  unfold carbAlk
  rw [div_le_div_iff₀ (by positivity) (by positivity), mul_assoc T, mul_assoc T]
  apply mul_le_mul_of_nonneg_left _ hT
  have e1 : 0 ≤ K1 * a * b * (b - a) := by
    have := sub_nonneg.mpr hab; positivity
  have e2 : 0 ≤ K1 * K2 * (b - a) * (b + a) := by
    have := sub_nonneg.mpr hab; positivity
  have e3 : 0 ≤ K1 * K1 * K2 * (b - a) := by
    have := sub_nonneg.mpr hab; positivity
  nlinarith

theorem base_anti {T K a b : ℝ} (hT : 0 ≤ T) (hK : 0 < K) (ha : 0 < a) (hab : a ≤ b) :
    base T K b ≤ base T K a := by
  unfold base
  apply div_le_div_of_nonneg_left (by positivity) (by positivity) (by linarith)

theorem acid_eq {T K h : ℝ} (hK : 0 < K) (hh : 0 < h) : acid T K h = T - base T K h := by
  unfold acid base
  have : K + h ≠ 0 := by positivity
  field_simp
  ring

theorem acid_mono {T K a b : ℝ} (hT : 0 ≤ T) (hK : 0 < K) (ha : 0 < a) (hab : a ≤ b) :
    acid T K a ≤ acid T K b := by
  rw [acid_eq hK ha, acid_eq hK (lt_of_lt_of_le ha hab)]
  have := base_anti hT hK ha hab
  linarith

theorem phosAlk_anti {T K1 K2 K3 a b : ℝ} (hT : 0 ≤ T) (h1 : 0 < K1) (h2 : 0 < K2)
    (h3 : 0 < K3) (ha : 0 < a) (hab : a ≤ b) :
    phosAlk T K1 K2 K3 b ≤ phosAlk T K1 K2 K3 a := by
  have hb : 0 < b := lt_of_lt_of_le ha hab
  have hd := sub_nonneg.mpr hab
  unfold phosAlk
  rw [div_le_div_iff₀ (by positivity) (by positivity), mul_assoc T, mul_assoc T]
  apply mul_le_mul_of_nonneg_left _ hT
  obtain ⟨d, hd', rfl⟩ : ∃ d, 0 ≤ d ∧ b = a + d := ⟨b - a, hd, by ring⟩
  rw [← sub_nonneg]
  have : (K1 * K2 * a + 2 * (K1 * K2 * K3) - a ^ 3) *
        ((a + d) ^ 3 + K1 * (a + d) ^ 2 + K1 * K2 * (a + d) + K1 * K2 * K3) -
      (K1 * K2 * (a + d) + 2 * (K1 * K2 * K3) - (a + d) ^ 3) *
        (a ^ 3 + K1 * a ^ 2 + K1 * K2 * a + K1 * K2 * K3)
      = (K1 * K2 * (K1 * K2 * K3)) * d
        + 2 * (K1 * K2 * K3) * K1 * (2 * a * d + d ^ 2)
        + 3 * (K1 * K2 * K3) * (3 * a ^ 2 * d + 3 * a * d ^ 2 + d ^ 3)
        + K1 * K2 * K1 * (a * (a + d) * d)
        + 2 * (K1 * K2) * (a * (a + d) * (2 * a * d + d ^ 2))
        + K1 * (a ^ 2 * (a + d) ^ 2 * d) := by ring
  rw [this]
  positivity

theorem extraAlk_anti {T K a b : ℝ} (hT : 0 ≤ T) (hK : 0 < K) (ha : 0 < a) (hab : a ≤ b) :
    extraAlk T K b ≤ extraAlk T K a := by
  unfold extraAlk
  split
  · exact neg_le_neg (acid_mono hT hK ha hab)
  · exact base_anti hT hK ha hab

theorem Sol.alk_strictAnti {s : Sol} (hs : s.Valid) (scale : ℕ) {a b : ℝ} (ha : 0 < a)
    (hab : a < b) : s.alk scale b < s.alk scale a := by
  have hb : 0 < b := ha.trans hab
  have hle := hab.le
  have t1 : s.kw / b ≤ s.kw / a := div_le_div_of_nonneg_left hs.kw ha hle
  have t2 := carbAlk_anti hs.dic hs.k1 hs.k2 ha hle
  have t3 := base_anti hs.tb hs.kb ha hle
  have t4 := phosAlk_anti hs.tp hs.kp1 hs.kp2 hs.kp3 ha hle
  have t5 := base_anti hs.tsi hs.ksi ha hle
  have t6 := base_anti hs.tnh3 hs.knh3 ha hle
  have t7 := base_anti hs.th2s hs.kh2s ha hle
  have t8 := extraAlk_anti hs.ta hs.ka ha hle
  have t9 := extraAlk_anti hs.tbeta hs.kbeta ha hle
  have t10 : (if scale = 1 ∨ scale = 3 then acid s.tf s.kf a else 0) ≤
      (if scale = 1 ∨ scale = 3 then acid s.tf s.kf b else 0) := by
    split
    · exact acid_mono hs.tf hs.kf ha hle
    · exact le_rfl
  have t11 : (if scale = 3 then acid s.ts s.ks a else 0) ≤
      (if scale = 3 then acid s.ts s.ks b else 0) := by
    split
    · exact acid_mono hs.ts hs.ks ha hle
    · exact le_rfl
  unfold Sol.alk
  linarith

theorem carbAlk_bound {T K1 K2 h : ℝ} (hT : 0 ≤ T) (h1 : 0 < K1) (h2 : 0 < K2) (hh : 0 < h) :
    0 ≤ carbAlk T K1 K2 h ∧ carbAlk T K1 K2 h ≤ 2 * T := by
  unfold carbAlk
  constructor
  · positivity
  · rw [div_le_iff₀ (by positivity)]
    have : 0 ≤ T * (2 * h ^ 2 + K1 * h) := by positivity
    nlinarith

theorem base_bound {T K h : ℝ} (hT : 0 ≤ T) (hK : 0 < K) (hh : 0 < h) :
    0 ≤ base T K h ∧ base T K h ≤ T := by
  unfold base
  constructor
  · positivity
  · rw [div_le_iff₀ (by positivity)]
    have : 0 ≤ T * h := by positivity
    nlinarith

theorem acid_bound {T K h : ℝ} (hT : 0 ≤ T) (hK : 0 < K) (hh : 0 < h) :
    0 ≤ acid T K h ∧ acid T K h ≤ T := by
  have := base_bound hT hK hh
  rw [acid_eq hK hh]
  constructor <;> linarith

theorem phosAlk_bound {T K1 K2 K3 h : ℝ} (hT : 0 ≤ T) (h1 : 0 < K1) (h2 : 0 < K2) (h3 : 0 < K3)
    (hh : 0 < h) : -T ≤ phosAlk T K1 K2 K3 h ∧ phosAlk T K1 K2 K3 h ≤ 2 * T := by
  unfold phosAlk
  have hD : 0 < h ^ 3 + K1 * h ^ 2 + K1 * K2 * h + K1 * K2 * K3 := by positivity
  constructor
  · rw [le_div_iff₀ hD]
    have : 0 ≤ T * (K1 * h ^ 2 + 2 * (K1 * K2 * h) + 3 * (K1 * K2 * K3)) := by positivity
    nlinarith
  · rw [div_le_iff₀ hD]
    have : 0 ≤ T * (3 * h ^ 3 + 2 * (K1 * h ^ 2) + K1 * K2 * h) := by positivity
    nlinarith

theorem extraAlk_bound {T K h : ℝ} (hT : 0 ≤ T) (hK : 0 < K) (hh : 0 < h) :
    -T ≤ extraAlk T K h ∧ extraAlk T K h ≤ T := by
  have h1 := base_bound hT hK hh
  have h2 := acid_bound hT hK hh
  unfold extraAlk
  split <;> constructor <;> linarith

/-- Everything except water and protons is bounded. -/
theorem Sol.alk_bound {s : Sol} (hs : s.Valid) (scale : ℕ) :
    ∃ B, 0 ≤ B ∧ ∀ h, 0 < h → s.kw / h - h - B ≤ s.alk scale h ∧ s.alk scale h ≤ s.kw / h - h + B := by
  refine ⟨2 * s.dic + s.tb + 2 * s.tp + s.tsi + s.tnh3 + s.th2s + s.ta + s.tbeta + s.tf + s.ts,
    ?_, ?_⟩
  · have := hs.dic; have := hs.tb; have := hs.tp; have := hs.tsi; have := hs.tnh3
    have := hs.th2s; have := hs.ta; have := hs.tbeta; have := hs.tf; have := hs.ts
    positivity
  · intro h hh
    have b2 := carbAlk_bound hs.dic hs.k1 hs.k2 hh
    have b3 := base_bound hs.tb hs.kb hh
    have b4 := phosAlk_bound hs.tp hs.kp1 hs.kp2 hs.kp3 hh
    have b5 := base_bound hs.tsi hs.ksi hh
    have b6 := base_bound hs.tnh3 hs.knh3 hh
    have b7 := base_bound hs.th2s hs.kh2s hh
    have b8 := extraAlk_bound hs.ta hs.ka hh
    have b9 := extraAlk_bound hs.tbeta hs.kbeta hh
    have b10 : 0 ≤ (if scale = 1 ∨ scale = 3 then acid s.tf s.kf h else 0) ∧
        (if scale = 1 ∨ scale = 3 then acid s.tf s.kf h else 0) ≤ s.tf := by
      split
      · exact acid_bound hs.tf hs.kf hh
      · exact ⟨le_rfl, hs.tf⟩
    have b11 : 0 ≤ (if scale = 3 then acid s.ts s.ks h else 0) ∧
        (if scale = 3 then acid s.ts s.ks h else 0) ≤ s.ts := by
      split
      · exact acid_bound hs.ts hs.ks hh
      · exact ⟨le_rfl, hs.ts⟩
    have := hs.dic; have := hs.tp
    unfold Sol.alk
    constructor <;> linarith

theorem Sol.alk_continuousOn {s : Sol} (hs : s.Valid) (scale : ℕ) :
    ContinuousOn (s.alk scale) (Set.Ioi 0) := by
  have hb : ∀ (T : ℝ) {K : ℝ}, 0 < K → ContinuousOn (base T K) (Set.Ioi 0) := by
    intro T K hK
    apply ContinuousOn.div (by fun_prop) (by fun_prop)
    intro x hx
    have : (0 : ℝ) < x := hx
    positivity
  have ha : ∀ (T : ℝ) {K : ℝ}, 0 < K → ContinuousOn (acid T K) (Set.Ioi 0) := by
    intro T K hK
    apply ContinuousOn.div (by fun_prop) (by fun_prop)
    intro x hx
    have : (0 : ℝ) < x := hx
    positivity
  have he : ∀ (T : ℝ) {K : ℝ}, 0 < K → ContinuousOn (extraAlk T K) (Set.Ioi 0) := by
    intro T K hK
    by_cases h : -Real.logb 10 K ≤ 4.5
    · have : extraAlk T K = fun x => -(acid T K x) := by funext x; simp only [extraAlk, if_pos h]
      rw [this]; exact (ha T hK).neg
    · have : extraAlk T K = fun x => base T K x := by funext x; simp only [extraAlk, if_neg h]
      rw [this]; exact hb T hK
  have hc : ContinuousOn (carbAlk s.dic s.k1 s.k2) (Set.Ioi 0) := by
    apply ContinuousOn.div (by fun_prop) (by fun_prop)
    intro x hx
    have : (0 : ℝ) < x := hx
    have := hs.k1; have := hs.k2
    positivity
  have hp : ContinuousOn (phosAlk s.tp s.kp1 s.kp2 s.kp3) (Set.Ioi 0) := by
    apply ContinuousOn.div (by fun_prop) (by fun_prop)
    intro x hx
    have : (0 : ℝ) < x := hx
    have := hs.kp1; have := hs.kp2; have := hs.kp3
    positivity
  have hw : ContinuousOn (fun h => s.kw / h) (Set.Ioi (0:ℝ)) := by
    apply ContinuousOn.div (by fun_prop) (by fun_prop)
    intro x hx
    exact (ne_of_gt hx)
  have hF : ContinuousOn (fun h => if scale = 1 ∨ scale = 3 then acid s.tf s.kf h else 0)
      (Set.Ioi (0:ℝ)) := by
    split
    · exact ha _ hs.kf
    · fun_prop
  have hS : ContinuousOn (fun h => if scale = 3 then acid s.ts s.ks h else 0)
      (Set.Ioi (0:ℝ)) := by
    split
    · exact ha _ hs.ks
    · fun_prop
  unfold Sol.alk
  exact ((((((((((continuousOn_id.neg.add hw).add hc).add (hb _ hs.kb)).add hp).add
    (hb _ hs.ksi)).add (hb _ hs.knh3)).add (hb _ hs.kh2s)).add (he _ hs.ka)).add
    (he _ hs.kbeta)).sub hF).sub hS

theorem Sol.alk_exists {s : Sol} (hs : s.Valid) (hkw : 0 < s.kw) (scale : ℕ) (A : ℝ) :
    ∃ h, 0 < h ∧ s.alk scale h = A := by
  obtain ⟨B, hB, hb⟩ := s.alk_bound hs scale
  set lo := min 1 (s.kw / (|A| + B + 1)) with hlo
  set hi := max 1 (|A| + B + s.kw) with hhi
  have hden : 0 < |A| + B + 1 := by positivity
  have hlo0 : 0 < lo := lt_min one_pos (div_pos hkw hden)
  have hlohi : lo ≤ hi := (min_le_left _ _).trans (le_max_left _ _)
  have hhi0 : 0 < hi := hlo0.trans_le hlohi
  have h1 : A ≤ s.alk scale lo := by
    have := (hb lo hlo0).1
    have h2 : |A| + B + 1 ≤ s.kw / lo := by
      rw [le_div_iff₀ hlo0]
      have : lo ≤ s.kw / (|A| + B + 1) := min_le_right _ _
      rw [le_div_iff₀ hden] at this
      linarith
    have h3 : lo ≤ 1 := min_le_left _ _
    have := le_abs_self A
    linarith
  have h2 : s.alk scale hi ≤ A := by
    have := (hb hi hhi0).2
    have h3 : s.kw / hi ≤ s.kw := div_le_self hkw.le (le_max_left _ _)
    have h4 : |A| + B + s.kw ≤ hi := le_max_right _ _
    have := neg_abs_le A
    linarith
  have hc : ContinuousOn (s.alk scale) (Set.Icc lo hi) :=
    (s.alk_continuousOn hs scale).mono (fun x hx => hlo0.trans_le hx.1)
  obtain ⟨h, hh, rfl⟩ := intermediate_value_Icc' hlohi hc ⟨h2, h1⟩
  exact ⟨h, hlo0.trans_le hh.1, rfl⟩

end Calk.Spec
