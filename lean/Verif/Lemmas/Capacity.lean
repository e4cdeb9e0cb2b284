import Verif.Spec
import Mathlib.Tactic.Linarith
import Mathlib.Tactic.Positivity
import Mathlib.Tactic.FieldSimp
import Mathlib.Tactic.Ring

/-!
# How fast alkalinity falls with acidity

Between two acidities `a ≤ b`, both at least `lo`, alkalinity falls by at least `b - a` and at most
`b - a` times one plus a bound on the buffering.
-/

namespace Calk.Spec
noncomputable section

/-- buffering of a proton exchange with constant `K`, at most -/
def mono (K lo : ℝ) : ℝ := K / (K + lo) ^ 2

/-- a bound for the buffering of a solution at acidities of `lo` and more, relative to water -/
def Sol.buffering (s : Sol) (lo : ℝ) : ℝ :=
  s.kw / lo ^ 2 + s.dic * (mono s.k1 lo + mono s.k2 lo + 2 * s.k2 / lo ^ 2) + s.tb * mono s.kb lo
    + s.tp * (mono s.kp1 lo + mono s.kp2 lo + mono s.kp3 lo + (2 * s.kp2 + 7 * s.kp3) / lo ^ 2)
    + s.tsi * mono s.ksi lo + s.tnh3 * mono s.knh3 lo + s.th2s * mono s.kh2s lo + s.ta * mono s.ka lo
    + s.tbeta * mono s.kbeta lo + s.tf * mono s.kf lo + s.ts * mono s.ks lo

theorem mono_nonneg {K lo : ℝ} (hK : 0 < K) (hlo : 0 < lo) : 0 ≤ mono K lo := by
  unfold mono; positivity

/-- `X / ((K + a) (K + b))` bound -/
theorem mono_bound {K lo a b : ℝ} (hK : 0 < K) (hlo : 0 < lo) (ha : lo ≤ a) (hb : lo ≤ b) :
    K ≤ mono K lo * ((K + a) * (K + b)) := by
  unfold mono
  rw [div_mul_eq_mul_div, le_div_iff₀ (by positivity)]
  have : (K + lo) ^ 2 ≤ (K + a) * (K + b) := by nlinarith
  nlinarith

theorem base_fall {T K lo a b : ℝ} (hT : 0 ≤ T) (hK : 0 < K) (hlo : 0 < lo) (ha : lo ≤ a) (hab : a ≤ b) :
    0 ≤ base T K a - base T K b ∧ base T K a - base T K b ≤ T * mono K lo * (b - a) := by
  have h1 : 0 < K + a := by linarith
  have h2 : 0 < K + b := by linarith
  have e : base T K a - base T K b = T * (b - a) * (K / ((K + a) * (K + b))) := by
    unfold base; field_simp; ring
  have hm : K / ((K + a) * (K + b)) ≤ mono K lo := by
    rw [div_le_iff₀ (by positivity)]
    exact mono_bound hK hlo ha (ha.trans hab)
  have hTb : 0 ≤ T * (b - a) := mul_nonneg hT (by linarith)
  rw [e]
  refine ⟨by positivity, ?_⟩
  calc _ ≤ T * (b - a) * mono K lo := mul_le_mul_of_nonneg_left hm hTb
    _ = _ := by ring

theorem acid_fall {T K lo a b : ℝ} (hT : 0 ≤ T) (hK : 0 < K) (hlo : 0 < lo) (ha : lo ≤ a) (hab : a ≤ b) :
    0 ≤ acid T K b - acid T K a ∧ acid T K b - acid T K a ≤ T * mono K lo * (b - a) := by
  have h1 : 0 < K + a := by linarith
  have h2 : 0 < K + b := by linarith
  have e : acid T K b - acid T K a = base T K a - base T K b := by
    unfold acid base; field_simp; ring
  rw [e]
  exact base_fall hT hK hlo ha hab

theorem extra_fall {T K lo a b : ℝ} (hT : 0 ≤ T) (hK : 0 < K) (hlo : 0 < lo) (ha : lo ≤ a) (hab : a ≤ b) :
    0 ≤ extraAlk T K a - extraAlk T K b ∧
      extraAlk T K a - extraAlk T K b ≤ T * mono K lo * (b - a) := by
  unfold extraAlk
  split
  · have := acid_fall hT hK hlo ha hab
    constructor <;> linarith [this.1, this.2]
  · exact base_fall hT hK hlo ha hab

theorem water_fall {kw lo a b : ℝ} (hw : 0 ≤ kw) (hlo : 0 < lo) (ha : lo ≤ a) (hab : a ≤ b) :
    0 ≤ kw / a - kw / b ∧ kw / a - kw / b ≤ kw / lo ^ 2 * (b - a) := by
  have h1 : 0 < a := by linarith
  have h2 : 0 < b := by linarith
  have e : kw / a - kw / b = kw * (b - a) / (a * b) := by field_simp
  have hk : 0 ≤ kw * (b - a) := mul_nonneg hw (by linarith)
  rw [e]
  refine ⟨by positivity, ?_⟩
  rw [div_mul_eq_mul_div]
  exact div_le_div_of_nonneg_left hk (by positivity) (by nlinarith)

theorem carb_fall {T K1 K2 lo a b : ℝ} (hT : 0 ≤ T) (hK1 : 0 < K1) (hK2 : 0 < K2) (hlo : 0 < lo)
    (ha : lo ≤ a) (hab : a ≤ b) :
    0 ≤ carbAlk T K1 K2 a - carbAlk T K1 K2 b ∧ carbAlk T K1 K2 a - carbAlk T K1 K2 b
      ≤ T * (mono K1 lo + mono K2 lo + 2 * K2 / lo ^ 2) * (b - a) := by
  have hb := ha.trans hab
  have h1 : 0 < a := by linarith
  have h2 : 0 < b := by linarith
  have hDa : 0 < a ^ 2 + K1 * a + K1 * K2 := by positivity
  have hDb : 0 < b ^ 2 + K1 * b + K1 * K2 := by positivity
  have e : carbAlk T K1 K2 a - carbAlk T K1 K2 b = T * (b - a) *
      ((K1 * (a * b) + K1 * (K1 * K2) + 2 * (K1 * K2) * (a + b))
        / ((a ^ 2 + K1 * a + K1 * K2) * (b ^ 2 + K1 * b + K1 * K2))) := by
    unfold carbAlk; field_simp; ring
  have m1 := mono_bound hK1 hlo ha hb
  have m2 := mono_bound hK2 hlo ha hb
  have n1 := mono_nonneg hK1 hlo
  have n2 := mono_nonneg hK2 hlo
  have hlab : lo ^ 2 ≤ a * b := by nlinarith
  have q : (K1 * (a * b) + K1 * (K1 * K2) + 2 * (K1 * K2) * (a + b))
        / ((a ^ 2 + K1 * a + K1 * K2) * (b ^ 2 + K1 * b + K1 * K2))
      ≤ mono K1 lo + mono K2 lo + 2 * K2 / lo ^ 2 := by
    rw [div_le_iff₀ (by positivity)]
    have t1 : K1 * (a * b) ≤ mono K1 lo * ((a ^ 2 + K1 * a + K1 * K2) * (b ^ 2 + K1 * b + K1 * K2)) := by
      calc K1 * (a * b) ≤ mono K1 lo * ((K1 + a) * (K1 + b)) * (a * b) :=
            mul_le_mul_of_nonneg_right m1 (by positivity)
        _ = mono K1 lo * ((a ^ 2 + K1 * a) * (b ^ 2 + K1 * b)) := by ring
        _ ≤ _ := by
          apply mul_le_mul_of_nonneg_left _ n1
          apply mul_le_mul _ _ (by positivity) (by positivity)
          · have : 0 < K1 * K2 := by positivity
            linarith
          · have : 0 < K1 * K2 := by positivity
            linarith
    have t2 : K1 * (K1 * K2) ≤ mono K2 lo * ((a ^ 2 + K1 * a + K1 * K2) * (b ^ 2 + K1 * b + K1 * K2)) := by
      calc K1 * (K1 * K2) = K2 * (K1 * K1) := by ring
        _ ≤ mono K2 lo * ((K2 + a) * (K2 + b)) * (K1 * K1) :=
            mul_le_mul_of_nonneg_right m2 (by positivity)
        _ = mono K2 lo * ((K1 * a + K1 * K2) * (K1 * b + K1 * K2)) := by ring
        _ ≤ _ := by
          apply mul_le_mul_of_nonneg_left _ n2
          apply mul_le_mul _ _ (by positivity) (by positivity)
          · have : 0 < a ^ 2 := by positivity
            linarith
          · have : 0 < b ^ 2 := by positivity
            linarith
    have t3 : 2 * (K1 * K2) * (a + b)
        ≤ 2 * K2 / lo ^ 2 * ((a ^ 2 + K1 * a + K1 * K2) * (b ^ 2 + K1 * b + K1 * K2)) := by
      have g : 2 * (K1 * K2) * (a + b) * (a * b)
          ≤ 2 * K2 * ((a ^ 2 + K1 * a + K1 * K2) * (b ^ 2 + K1 * b + K1 * K2)) := by
        have : (a ^ 2 + K1 * a + K1 * K2) * (b ^ 2 + K1 * b + K1 * K2) - K1 * (a + b) * (a * b)
            = a ^ 2 * b ^ 2 + a ^ 2 * (K1 * K2) + K1 * a * (K1 * b) + K1 * a * (K1 * K2)
              + K1 * K2 * (b ^ 2 + K1 * b + K1 * K2) := by ring
        have hp : 0 ≤ (a ^ 2 + K1 * a + K1 * K2) * (b ^ 2 + K1 * b + K1 * K2) - K1 * (a + b) * (a * b) := by
          rw [this]; positivity
        nlinarith
      rw [div_mul_eq_mul_div, le_div_iff₀ (by positivity)]
      calc _ ≤ 2 * (K1 * K2) * (a + b) * (a * b) := mul_le_mul_of_nonneg_left hlab (by positivity)
        _ ≤ _ := g
    linarith
  have hTb : 0 ≤ T * (b - a) := mul_nonneg hT (by linarith)
  rw [e]
  refine ⟨by positivity, ?_⟩
  calc _ ≤ T * (b - a) * _ := mul_le_mul_of_nonneg_left q hTb
    _ = _ := by ring

theorem phos_fall {T K1 K2 K3 lo a b : ℝ} (hT : 0 ≤ T) (hK1 : 0 < K1) (hK2 : 0 < K2) (hK3 : 0 < K3)
    (hlo : 0 < lo) (ha : lo ≤ a) (hab : a ≤ b) :
    0 ≤ phosAlk T K1 K2 K3 a - phosAlk T K1 K2 K3 b ∧ phosAlk T K1 K2 K3 a - phosAlk T K1 K2 K3 b
      ≤ T * (mono K1 lo + mono K2 lo + mono K3 lo + (2 * K2 + 7 * K3) / lo ^ 2) * (b - a) := by
  have hb := ha.trans hab
  have h1 : 0 < a := by linarith
  have h2 : 0 < b := by linarith
  have hDa : 0 < a ^ 3 + K1 * a ^ 2 + K1 * K2 * a + K1 * K2 * K3 := by positivity
  have hDb : 0 < b ^ 3 + K1 * b ^ 2 + K1 * K2 * b + K1 * K2 * K3 := by positivity
  obtain ⟨Da, hDae⟩ : ∃ x, x = a ^ 3 + K1 * a ^ 2 + K1 * K2 * a + K1 * K2 * K3 := ⟨_, rfl⟩
  obtain ⟨Db, hDbe⟩ : ∃ x, x = b ^ 3 + K1 * b ^ 2 + K1 * K2 * b + K1 * K2 * K3 := ⟨_, rfl⟩
  rw [← hDae] at hDa
  rw [← hDbe] at hDb
  have e : phosAlk T K1 K2 K3 a - phosAlk T K1 K2 K3 b = T * (b - a) *
      ((K1 * (a * b) ^ 2 + K1 * K2 * K1 * (a * b) + K1 * K2 * K3 * (K1 * K2)
        + 2 * (K1 * K2) * (a * b) * (a + b) + 2 * (K1 * K2 * K3) * K1 * (a + b)
        + 3 * (K1 * K2 * K3) * (a ^ 2 + a * b + b ^ 2)) / (Da * Db)) := by
    unfold phosAlk
    rw [← hDae, ← hDbe]
    field_simp
    rw [hDae, hDbe]
    ring
  have m1 := mono_bound hK1 hlo ha hb
  have m2 := mono_bound hK2 hlo ha hb
  have m3 := mono_bound hK3 hlo ha hb
  have n1 := mono_nonneg hK1 hlo
  have n2 := mono_nonneg hK2 hlo
  have n3 := mono_nonneg hK3 hlo
  have hlab : lo ^ 2 ≤ a * b := by nlinarith
  have prod : ∀ {x y : ℝ}, 0 ≤ x → x ≤ Da → 0 ≤ y → y ≤ Db → x * y ≤ Da * Db :=
    fun hx hx' hy hy' => mul_le_mul hx' hy' hy hDa.le
  have t1 : K1 * (a * b) ^ 2 ≤ mono K1 lo * (Da * Db) := by
    calc K1 * (a * b) ^ 2 ≤ mono K1 lo * ((K1 + a) * (K1 + b)) * (a * b) ^ 2 :=
          mul_le_mul_of_nonneg_right m1 (by positivity)
      _ = mono K1 lo * ((a ^ 3 + K1 * a ^ 2) * (b ^ 3 + K1 * b ^ 2)) := by ring
      _ ≤ _ := mul_le_mul_of_nonneg_left (prod (by positivity)
        (by have : 0 < K1 * K2 * a + K1 * K2 * K3 := by positivity
            linarith) (by positivity)
        (by have : 0 < K1 * K2 * b + K1 * K2 * K3 := by positivity
            linarith)) n1
  have t2 : K1 * K2 * K1 * (a * b) ≤ mono K2 lo * (Da * Db) := by
    calc K1 * K2 * K1 * (a * b) = K2 * (K1 ^ 2 * (a * b)) := by ring
      _ ≤ mono K2 lo * ((K2 + a) * (K2 + b)) * (K1 ^ 2 * (a * b)) :=
          mul_le_mul_of_nonneg_right m2 (by positivity)
      _ = mono K2 lo * ((K1 * a ^ 2 + K1 * K2 * a) * (K1 * b ^ 2 + K1 * K2 * b)) := by ring
      _ ≤ _ := mul_le_mul_of_nonneg_left (prod (by positivity)
        (by have : 0 < a ^ 3 + K1 * K2 * K3 := by positivity
            linarith) (by positivity)
        (by have : 0 < b ^ 3 + K1 * K2 * K3 := by positivity
            linarith)) n2
  have t3 : K1 * K2 * K3 * (K1 * K2) ≤ mono K3 lo * (Da * Db) := by
    calc K1 * K2 * K3 * (K1 * K2) = K3 * (K1 * K2) ^ 2 := by ring
      _ ≤ mono K3 lo * ((K3 + a) * (K3 + b)) * (K1 * K2) ^ 2 :=
          mul_le_mul_of_nonneg_right m3 (by positivity)
      _ = mono K3 lo * ((K1 * K2 * a + K1 * K2 * K3) * (K1 * K2 * b + K1 * K2 * K3)) := by ring
      _ ≤ _ := mul_le_mul_of_nonneg_left (prod (by positivity)
        (by have : 0 < a ^ 3 + K1 * a ^ 2 := by positivity
            linarith) (by positivity)
        (by have : 0 < b ^ 3 + K1 * b ^ 2 := by positivity
            linarith)) n3
  have c1 : K1 * (a * b) ^ 2 * (a + b) + K1 * K2 * K1 * (a * b) * (a + b)
      + K1 * K2 * (a * b) * (a ^ 2 + b ^ 2) ≤ Da * Db := by
    have : Da * Db - (K1 * (a * b) ^ 2 * (a + b) + K1 * K2 * K1 * (a * b) * (a + b)
      + K1 * K2 * (a * b) * (a ^ 2 + b ^ 2))
        = a ^ 3 * b ^ 3 + a ^ 3 * (K1 * K2 * K3) + K1 ^ 2 * (a * b) ^ 2 + K1 * a ^ 2 * (K1 * K2 * K3)
          + K1 * K2 * a * (K1 * K2 * b) + K1 * K2 * a * (K1 * K2 * K3)
          + K1 * K2 * K3 * Db := by
      rw [hDae, hDbe]; ring
    have hp : 0 ≤ Da * Db - (K1 * (a * b) ^ 2 * (a + b) + K1 * K2 * K1 * (a * b) * (a + b)
      + K1 * K2 * (a * b) * (a ^ 2 + b ^ 2)) := by
      rw [this]; positivity
    linarith
  have p1 : 0 ≤ K1 * (a * b) ^ 2 * (a + b) := by positivity
  have p2 : 0 ≤ K1 * K2 * K1 * (a * b) * (a + b) := by positivity
  have p3 : 0 ≤ K1 * K2 * (a * b) * (a ^ 2 + b ^ 2) := by positivity
  have t4 : 2 * (K1 * K2) * (a * b) * (a + b) + 2 * (K1 * K2 * K3) * K1 * (a + b)
        + 3 * (K1 * K2 * K3) * (a ^ 2 + a * b + b ^ 2) ≤ (2 * K2 + 7 * K3) / lo ^ 2 * (Da * Db) := by
    rw [div_mul_eq_mul_div, le_div_iff₀ (by positivity)]
    have hab2 : a ^ 2 + a * b + b ^ 2 ≤ 3 / 2 * (a ^ 2 + b ^ 2) := by nlinarith [sq_nonneg (a - b)]
    calc _ ≤ (2 * (K1 * K2) * (a * b) * (a + b) + 2 * (K1 * K2 * K3) * K1 * (a + b)
        + 3 * (K1 * K2 * K3) * (a ^ 2 + a * b + b ^ 2)) * (a * b) :=
          mul_le_mul_of_nonneg_left hlab (by positivity)
      _ = 2 * K2 * (K1 * (a * b) ^ 2 * (a + b)) + 2 * K3 * (K1 * K2 * K1 * (a * b) * (a + b))
          + 3 * K3 * (K1 * K2 * (a * b) * (a ^ 2 + a * b + b ^ 2)) := by ring
      _ ≤ 2 * K2 * (Da * Db) + 2 * K3 * (Da * Db) + 3 * K3 * (3 / 2 * (Da * Db)) := by
        have g1 : K1 * (a * b) ^ 2 * (a + b) ≤ Da * Db := by linarith
        have g2 : K1 * K2 * K1 * (a * b) * (a + b) ≤ Da * Db := by linarith
        have g3 : K1 * K2 * (a * b) * (a ^ 2 + a * b + b ^ 2) ≤ 3 / 2 * (Da * Db) := by
          calc _ ≤ K1 * K2 * (a * b) * (3 / 2 * (a ^ 2 + b ^ 2)) :=
                mul_le_mul_of_nonneg_left hab2 (by positivity)
            _ = 3 / 2 * (K1 * K2 * (a * b) * (a ^ 2 + b ^ 2)) := by ring
            _ ≤ _ := by linarith
        have := mul_le_mul_of_nonneg_left g1 (show 0 ≤ 2 * K2 by positivity)
        have := mul_le_mul_of_nonneg_left g2 (show 0 ≤ 2 * K3 by positivity)
        have := mul_le_mul_of_nonneg_left g3 (show 0 ≤ 3 * K3 by positivity)
        linarith
      _ ≤ _ := by
        have h0 : 0 ≤ K3 * (Da * Db) := by positivity
        have h1 : (2 * K2 + 7 * K3) * (Da * Db) - (2 * K2 * (Da * Db) + 2 * K3 * (Da * Db)
          + 3 * K3 * (3 / 2 * (Da * Db))) = 1 / 2 * (K3 * (Da * Db)) := by ring
        linarith
  have q : (K1 * (a * b) ^ 2 + K1 * K2 * K1 * (a * b) + K1 * K2 * K3 * (K1 * K2)
        + 2 * (K1 * K2) * (a * b) * (a + b) + 2 * (K1 * K2 * K3) * K1 * (a + b)
        + 3 * (K1 * K2 * K3) * (a ^ 2 + a * b + b ^ 2)) / (Da * Db)
      ≤ mono K1 lo + mono K2 lo + mono K3 lo + (2 * K2 + 7 * K3) / lo ^ 2 := by
    rw [div_le_iff₀ (by positivity)]
    linarith
  have hTb : 0 ≤ T * (b - a) := mul_nonneg hT (by linarith)
  rw [e]
  refine ⟨by positivity, ?_⟩
  calc _ ≤ T * (b - a) * _ := mul_le_mul_of_nonneg_left q hTb
    _ = _ := by ring

theorem buffering_nonneg {s : Sol} (hv : s.Valid) {lo : ℝ} (hlo : 0 < lo) : 0 ≤ s.buffering lo := by
  obtain ⟨_, _, _, _, _, _, _, _, _, _, _, _, _, _, _, _, _, _, _, _, _, _, _, _⟩ := hv
  unfold Sol.buffering mono
  positivity

/-- Alkalinity falls at least as fast as acidity rises, and faster only by the buffering. -/
theorem alk_fall {s : Sol} (hv : s.Valid) {lo a b : ℝ} (hlo : 0 < lo) (ha : lo ≤ a) (hab : a ≤ b) :
    b - a ≤ s.alk 3 a - s.alk 3 b ∧ s.alk 3 a - s.alk 3 b ≤ (1 + s.buffering lo) * (b - a) := by
  have w := water_fall hv.kw hlo ha hab
  have c := carb_fall hv.dic hv.k1 hv.k2 hlo ha hab
  have p := phos_fall hv.tp hv.kp1 hv.kp2 hv.kp3 hlo ha hab
  have b1 := base_fall hv.tb hv.kb hlo ha hab
  have b2 := base_fall hv.tsi hv.ksi hlo ha hab
  have b3 := base_fall hv.tnh3 hv.knh3 hlo ha hab
  have b4 := base_fall hv.th2s hv.kh2s hlo ha hab
  have x1 := extra_fall hv.ta hv.ka hlo ha hab
  have x2 := extra_fall hv.tbeta hv.kbeta hlo ha hab
  have a1 := acid_fall hv.tf hv.kf hlo ha hab
  have a2 := acid_fall hv.ts hv.ks hlo ha hab
  simp only [Sol.alk, Sol.buffering]
  norm_num
  constructor
  · linarith [w.1, c.1, p.1, b1.1, b2.1, b3.1, b4.1, x1.1, x2.1, a1.1, a2.1]
  · have e : ∀ (u v x y z t p q r m n k : ℝ), (1 + (u + v + x + y + z + t + p + q + r + m + n)) * k
        = k + u * k + v * k + x * k + y * k + z * k + t * k + p * k + q * k + r * k + m * k + n * k := by
      intros; ring
    rw [e]
    linarith [w.2, c.2, p.2, b1.2, b2.2, b3.2, b4.2, x1.2, x2.2, a1.2, a2.2]

end
end Calk.Spec
