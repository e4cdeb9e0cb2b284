import Verif.Model.Rounded
import Verif.Lemmas.SolvePH

/-! Helper lemmas: how rounding errors add up. -/

namespace Calk
open Flt Spec

/-! ## on real numbers -/

/-- `y` is the positive number `x` up to a factor between `Q^-k` and `Q^k` -/
structure Rel (Q : ℝ) (k : ℕ) (y x : ℝ) : Prop where
  pos : 0 < x
  lo : x ≤ Q ^ k * y
  hi : y ≤ Q ^ k * x

/-- `y` is `x` up to an error of `(Q^k - 1) M`, where `M` bounds the size of `x` -/
structure Err (Q : ℝ) (k : ℕ) (M y x : ℝ) : Prop where
  size : |x| ≤ M
  err : |y - x| ≤ (Q ^ k - 1) * M

section real
variable {Q u : ℝ} {k l : ℕ} {x y a b M N : ℝ}

theorem Rel.pos' (hQ : 1 ≤ Q) (h : Rel Q k y x) : 0 < y := by
  by_contra hc
  have h1 := h.lo
  have : Q ^ k * y ≤ 0 := mul_nonpos_of_nonneg_of_nonpos (by positivity) (not_lt.mp hc)
  linarith [h.pos]

theorem Rel.refl (hx : 0 < x) : Rel Q 0 x x := ⟨hx, by simp, by simp⟩

theorem Rel.mono (hQ : 1 ≤ Q) (h : Rel Q k y x) (hkl : k ≤ l) : Rel Q l y x := by
  have hp := pow_le_pow_right₀ hQ hkl
  exact ⟨h.pos, h.lo.trans (mul_le_mul_of_nonneg_right hp (h.pos' hQ).le),
    h.hi.trans (mul_le_mul_of_nonneg_right hp h.pos.le)⟩

theorem Rel.toErr (hQ : 1 ≤ Q) (h : Rel Q k y x) : Err Q k x y x := by
  refine ⟨by rw [abs_of_pos h.pos], abs_le.mpr ⟨?_, ?_⟩⟩
  · -- x - y ≤ (Q^k - 1) x
    have h1 : (1:ℝ) ≤ Q ^ k := one_le_pow₀ hQ
    have hy := h.pos' hQ
    by_cases hxy : x ≤ y
    · nlinarith [h.pos]
    · have h3 : x - y ≤ (Q ^ k - 1) * y := by linarith [h.lo]
      have h4 : (Q ^ k - 1) * y ≤ (Q ^ k - 1) * x :=
        mul_le_mul_of_nonneg_left (not_le.mp hxy).le (by linarith)
      linarith
  · linarith [h.hi]

theorem Rel.round (hQ : 1 ≤ Q) (hu : Q * (1 - u) = 1) (h : Rel Q k y x)
    (hz : |a - y| ≤ u * |y|) : Rel Q (k + 1) a x := by
  have hy := h.pos' hQ
  rw [abs_of_pos hy] at hz
  obtain ⟨h1, h2⟩ := abs_le.mp hz
  have hu1 : 1 + u ≤ Q := by nlinarith [sq_nonneg u, sq_nonneg (Q - 1)]
  have hp : (0:ℝ) < Q ^ k := by positivity
  refine ⟨h.pos, ?_, ?_⟩
  · have : y ≤ Q * a := by
      have h3 : (1 - u) * y ≤ a := by linarith
      have := mul_le_mul_of_nonneg_left h3 (by linarith : (0:ℝ) ≤ Q)
      nlinarith
    calc x ≤ Q ^ k * y := h.lo
      _ ≤ Q ^ k * (Q * a) := mul_le_mul_of_nonneg_left this hp.le
      _ = Q ^ (k + 1) * a := by ring
  · calc a ≤ (1 + u) * y := by linarith
      _ ≤ Q * y := mul_le_mul_of_nonneg_right hu1 hy.le
      _ ≤ Q * (Q ^ k * x) := mul_le_mul_of_nonneg_left h.hi (by linarith)
      _ = Q ^ (k + 1) * x := by ring

theorem Rel.add (hQ : 1 ≤ Q) (h : Rel Q k y x) (h' : Rel Q k b a) : Rel Q k (y + b) (x + a) :=
  ⟨add_pos h.pos h'.pos, by linarith [h.lo, h'.lo], by linarith [h.hi, h'.hi]⟩

theorem Rel.mul (hQ : 1 ≤ Q) (h : Rel Q k y x) (h' : Rel Q l b a) : Rel Q (k + l) (y * b) (x * a) := by
  have hy := h.pos' hQ
  have hb := h'.pos' hQ
  refine ⟨mul_pos h.pos h'.pos, ?_, ?_⟩
  · calc x * a ≤ (Q ^ k * y) * (Q ^ l * b) :=
          mul_le_mul h.lo h'.lo h'.pos.le (by positivity)
      _ = Q ^ (k + l) * (y * b) := by ring
  · calc y * b ≤ (Q ^ k * x) * (Q ^ l * a) :=
          mul_le_mul h.hi h'.hi hb.le (mul_nonneg (by positivity) h.pos.le)
      _ = Q ^ (k + l) * (x * a) := by ring

theorem Rel.inv (hQ : 1 ≤ Q) (h : Rel Q k y x) : Rel Q k y⁻¹ x⁻¹ := by
  have hy := h.pos' hQ
  have hx := h.pos
  refine ⟨inv_pos.mpr hx, ?_, ?_⟩
  · rw [← div_eq_mul_inv, inv_eq_one_div, div_le_div_iff₀ hx hy]; linarith [h.hi]
  · rw [← div_eq_mul_inv, inv_eq_one_div, div_le_div_iff₀ hy hx]; linarith [h.lo]

theorem Rel.div (hQ : 1 ≤ Q) (h : Rel Q k y x) (h' : Rel Q l b a) : Rel Q (k + l) (y / b) (x / a) := by
  rw [div_eq_mul_inv, div_eq_mul_inv]; exact h.mul hQ (h'.inv hQ)

theorem Rel.pow (hQ : 1 ≤ Q) (h : Rel Q k y x) (n : ℕ) : Rel Q (k * n) (y ^ n) (x ^ n) := by
  have hy := h.pos' hQ
  refine ⟨pow_pos h.pos n, ?_, ?_⟩
  · rw [pow_mul, ← mul_pow]; exact pow_le_pow_left₀ h.pos.le h.lo n
  · rw [pow_mul, ← mul_pow]; exact pow_le_pow_left₀ hy.le h.hi n

theorem Rel.trans (hQ : 1 ≤ Q) (h : Rel Q k b y) (h' : Rel Q l y x) : Rel Q (k + l) b x := by
  refine ⟨h'.pos, ?_, ?_⟩
  · calc x ≤ Q ^ l * y := h'.lo
      _ ≤ Q ^ l * (Q ^ k * b) := mul_le_mul_of_nonneg_left h.lo (by positivity)
      _ = Q ^ (k + l) * b := by ring
  · calc b ≤ Q ^ k * y := h.hi
      _ ≤ Q ^ k * (Q ^ l * x) := mul_le_mul_of_nonneg_left h'.hi (by positivity)
      _ = Q ^ (k + l) * x := by ring

theorem Err.nonneg (h : Err Q k M y x) : 0 ≤ M := (abs_nonneg _).trans h.size

theorem Err.refl (x : ℝ) : Err Q 0 |x| x x := ⟨le_rfl, by simp⟩

theorem Err.refl_nonneg (hx : 0 ≤ x) : Err Q 0 x x x := ⟨by rw [abs_of_nonneg hx], by simp⟩

theorem Err.mono (hQ : 1 ≤ Q) (h : Err Q k M y x) (hkl : k ≤ l) (hMN : M ≤ N) : Err Q l N y x := by
  have hp := pow_le_pow_right₀ hQ hkl
  have h1 : (1:ℝ) ≤ Q ^ k := one_le_pow₀ hQ
  exact ⟨h.size.trans hMN, h.err.trans (mul_le_mul (by linarith) hMN h.nonneg (by linarith))⟩

theorem Err.abs_le' (h : Err Q k M y x) : |y| ≤ Q ^ k * M := by
  have : |y| ≤ |y - x| + |x| := by
    have := abs_add_le (y - x) x; simpa using this
  have h1 := h.size
  have h2 := h.err
  linarith

theorem Err.round (hQ : 1 ≤ Q) (hu0 : 0 ≤ u) (hu : Q * (1 - u) = 1) (h : Err Q k M y x)
    (hz : |a - y| ≤ u * |y|) : Err Q (k + 1) M a x := by
  refine ⟨h.size, ?_⟩
  have hu1 : u ≤ Q - 1 := by nlinarith [sq_nonneg u, sq_nonneg (Q - 1)]
  have h1 : |a - x| ≤ |a - y| + |y - x| := abs_sub_le _ _ _
  have h2 := h.abs_le'
  have h3 : u * |y| ≤ (Q - 1) * (Q ^ k * M) :=
    mul_le_mul hu1 h2 (abs_nonneg _) (by linarith)
  have h4 := h.err
  have : (Q ^ (k + 1) - 1) * M = (Q - 1) * (Q ^ k * M) + (Q ^ k - 1) * M := by ring
  linarith

theorem Err.add (hQ : 1 ≤ Q) (h : Err Q k M y x) (h' : Err Q k N b a) :
    Err Q k (M + N) (y + b) (x + a) := by
  refine ⟨(abs_add_le _ _).trans (add_le_add h.size h'.size), ?_⟩
  have h1 : |y + b - (x + a)| ≤ |y - x| + |b - a| := by
    rw [show y + b - (x + a) = (y - x) + (b - a) by ring]; exact abs_add_le _ _
  have h2 := h.err
  have h3 := h'.err
  nlinarith

theorem Err.neg (h : Err Q k M y x) : Err Q k M (-y) (-x) := by
  refine ⟨by rw [abs_neg]; exact h.size, ?_⟩
  rw [show -y - -x = -(y - x) by ring, abs_neg]; exact h.err

theorem Err.mul (hQ : 1 ≤ Q) (h : Err Q k M y x) (h' : Err Q l N b a) :
    Err Q (k + l) (M * N) (y * b) (x * a) := by
  refine ⟨by rw [abs_mul]; exact mul_le_mul h.size h'.size (abs_nonneg _) h.nonneg, ?_⟩
  have e : y * b - x * a = (y - x) * b + x * (b - a) := by ring
  have h1 : |y * b - x * a| ≤ |y - x| * |b| + |x| * |b - a| := by
    rw [e, ← abs_mul, ← abs_mul]; exact abs_add_le _ _
  have p1 : (1:ℝ) ≤ Q ^ k := one_le_pow₀ hQ
  have p2 : (1:ℝ) ≤ Q ^ l := one_le_pow₀ hQ
  have h2 : |y - x| * |b| ≤ ((Q ^ k - 1) * M) * (Q ^ l * N) :=
    mul_le_mul h.err h'.abs_le' (abs_nonneg _) (mul_nonneg (by linarith) h.nonneg)
  have h3 : |x| * |b - a| ≤ M * ((Q ^ l - 1) * N) :=
    mul_le_mul h.size h'.err (abs_nonneg _) h.nonneg
  have : (Q ^ (k + l) - 1) * (M * N) = ((Q ^ k - 1) * M) * (Q ^ l * N) + M * ((Q ^ l - 1) * N) := by
    rw [pow_add]; ring
  linarith

theorem Err.div (hQ : 1 ≤ Q) (h : Err Q k M y x) (h' : Rel Q l b a) :
    Err Q (k + l) (M / a) (y / b) (x / a) := by
  rw [div_eq_mul_inv, div_eq_mul_inv, div_eq_mul_inv]
  exact h.mul hQ ((h'.inv hQ).toErr hQ)

end real

/-! ## on floats -/

/-- The result `s` comes from adding up the list in some order and grouping, rounding after every
addition. -/
inductive Sums (F : Arith) : List Flt → Flt → Prop
  | nil : Sums F [] (fin 0)
  | one (x : Flt) : Sums F [x] x
  | node {xs ys zs : List Flt} {a b : Flt} (hx : xs ≠ []) (hy : ys ≠ []) (hp : zs.Perm (xs ++ ys))
      (ha : Sums F xs a) (hb : Sums F ys b) : Sums F zs (F.add a b)

/-- The arithmetic is accurate: every `+ - * /` has relative error at most `u`, powers are within
`e` such steps, sums are made of such additions.  (Finite results only; numbers never leave the
range in which this is so.) -/
structure Accurate (F : Arith) (u : ℝ) (e : ℕ) : Prop where
  u0 : 0 ≤ u
  u1 : u < 1
  rnd : ∀ x : ℝ, ∃ y : ℝ, F.rnd (fin x) = fin y ∧ |y - x| ≤ u * |x|
  pow10 : ∀ x : ℝ, ∃ y : ℝ, F.pow10 (fin x) = fin y ∧ Rel (1 / (1 - u)) e y ((10:ℝ) ^ x)
  pow : ∀ x : ℝ, 0 < x → ∀ n : ℕ, ∃ y : ℝ, F.pow (fin x) n = fin y ∧ Rel (1 / (1 - u)) e y (x ^ n)
  sum : ∀ xs, Sums F xs (F.sum xs)

/-- a float close to a positive number -/
def FRel (Q : ℝ) (k : ℕ) (v : Flt) (x : ℝ) : Prop := ∃ y, v = fin y ∧ Rel Q k y x
/-- a float close to a number -/
def FErr (Q : ℝ) (k : ℕ) (M : ℝ) (v : Flt) (x : ℝ) : Prop := ∃ y, v = fin y ∧ Err Q k M y x

section flt
variable {F : Arith} {u : ℝ} {e : ℕ} (hF : Accurate F u e)
include hF

theorem Accurate.one_le : (1:ℝ) ≤ 1 / (1 - u) := by
  rw [le_div_iff₀ (by linarith [hF.u1])]; linarith [hF.u0]

theorem Accurate.inv : (1 / (1 - u)) * (1 - u) = 1 := by
  have : (1 - u) ≠ 0 := by linarith [hF.u1]
  field_simp

variable {k l : ℕ} {x a M N : ℝ} {v w : Flt}

theorem Accurate.frel_mono (h : FRel (1 / (1 - u)) k v x) (hkl : k ≤ l) : FRel (1 / (1 - u)) l v x := by
  obtain ⟨y, rfl, hy⟩ := h
  exact ⟨y, rfl, hy.mono hF.one_le hkl⟩

theorem Accurate.ferr_mono (h : FErr (1 / (1 - u)) k M v x) (hkl : k ≤ l) (hMN : M ≤ N) :
    FErr (1 / (1 - u)) l N v x := by
  obtain ⟨y, rfl, hy⟩ := h
  exact ⟨y, rfl, hy.mono hF.one_le hkl hMN⟩

theorem Accurate.frel_err (h : FRel (1 / (1 - u)) k v x) : FErr (1 / (1 - u)) k x v x := by
  obtain ⟨y, rfl, hy⟩ := h
  exact ⟨y, rfl, hy.toErr hF.one_le⟩

theorem Accurate.frel_add (h : FRel (1 / (1 - u)) k v x) (h' : FRel (1 / (1 - u)) l w a) :
    FRel (1 / (1 - u)) (max k l + 1) (F.add v w) (x + a) := by
  obtain ⟨y, rfl, hy⟩ := h
  obtain ⟨b, rfl, hb⟩ := h'
  obtain ⟨z, hz, hzu⟩ := hF.rnd (y + b)
  exact ⟨z, by simp only [Arith.add, add_fin, hz],
    (Rel.add hF.one_le (hy.mono hF.one_le (le_max_left k l)) (hb.mono hF.one_le (le_max_right k l))).round
      hF.one_le hF.inv hzu⟩

theorem Accurate.frel_mul (h : FRel (1 / (1 - u)) k v x) (h' : FRel (1 / (1 - u)) l w a) :
    FRel (1 / (1 - u)) (k + l + 1) (F.mul v w) (x * a) := by
  obtain ⟨y, rfl, hy⟩ := h
  obtain ⟨b, rfl, hb⟩ := h'
  obtain ⟨z, hz, hzu⟩ := hF.rnd (y * b)
  exact ⟨z, by simp only [Arith.mul, mul_fin, hz],
    (Rel.mul hF.one_le hy hb).round hF.one_le hF.inv hzu⟩

theorem Accurate.frel_div (h : FRel (1 / (1 - u)) k v x) (h' : FRel (1 / (1 - u)) l w a) :
    FRel (1 / (1 - u)) (k + l + 1) (F.div v w) (x / a) := by
  obtain ⟨y, rfl, hy⟩ := h
  obtain ⟨b, rfl, hb⟩ := h'
  obtain ⟨z, hz, hzu⟩ := hF.rnd (y / b)
  exact ⟨z, by simp only [Arith.div, div_fin _ _ (hb.pos' hF.one_le).ne', hz],
    (Rel.div hF.one_le hy hb).round hF.one_le hF.inv hzu⟩

theorem Accurate.frel_pow (h : FRel (1 / (1 - u)) k v x) (n : ℕ) :
    FRel (1 / (1 - u)) (e + k * n) (F.pow v n) (x ^ n) := by
  obtain ⟨y, rfl, hy⟩ := h
  obtain ⟨z, hz, hzu⟩ := hF.pow y (hy.pos' hF.one_le) n
  exact ⟨z, hz, hzu.trans hF.one_le (hy.pow hF.one_le n)⟩

theorem Accurate.ferr_add (h : FErr (1 / (1 - u)) k M v x) (h' : FErr (1 / (1 - u)) l N w a) :
    FErr (1 / (1 - u)) (max k l + 1) (M + N) (F.add v w) (x + a) := by
  obtain ⟨y, rfl, hy⟩ := h
  obtain ⟨b, rfl, hb⟩ := h'
  obtain ⟨z, hz, hzu⟩ := hF.rnd (y + b)
  exact ⟨z, by simp only [Arith.add, add_fin, hz],
    (Err.add hF.one_le (hy.mono hF.one_le (le_max_left k l) le_rfl)
      (hb.mono hF.one_le (le_max_right k l) le_rfl)).round hF.one_le hF.u0 hF.inv hzu⟩

omit hF in
theorem ferr_neg {Q : ℝ} (h : FErr Q k M v x) : FErr Q k M (-v) (-x) := by
  obtain ⟨y, rfl, hy⟩ := h
  exact ⟨-y, by simp, hy.neg⟩

theorem Accurate.ferr_sub (h : FErr (1 / (1 - u)) k M v x) (h' : FErr (1 / (1 - u)) l N w a) :
    FErr (1 / (1 - u)) (max k l + 1) (M + N) (F.sub v w) (x - a) := by
  have h2 := hF.ferr_add h (ferr_neg h')
  obtain ⟨b, rfl, hb⟩ := h'
  obtain ⟨y, rfl, hy⟩ := h
  have e1 : F.sub (fin y) (fin b) = F.add (fin y) (-(fin b)) := by
    simp [Arith.sub, Arith.add, sub_eq_add_neg]
  rw [e1, sub_eq_add_neg]; exact h2

theorem Accurate.ferr_mul (h : FErr (1 / (1 - u)) k M v x) (h' : FErr (1 / (1 - u)) l N w a) :
    FErr (1 / (1 - u)) (k + l + 1) (M * N) (F.mul v w) (x * a) := by
  obtain ⟨y, rfl, hy⟩ := h
  obtain ⟨b, rfl, hb⟩ := h'
  obtain ⟨z, hz, hzu⟩ := hF.rnd (y * b)
  exact ⟨z, by simp only [Arith.mul, mul_fin, hz],
    (Err.mul hF.one_le hy hb).round hF.one_le hF.u0 hF.inv hzu⟩

theorem Accurate.ferr_div (h : FErr (1 / (1 - u)) k M v x) (h' : FRel (1 / (1 - u)) l w a) :
    FErr (1 / (1 - u)) (k + l + 1) (M / a) (F.div v w) (x / a) := by
  obtain ⟨y, rfl, hy⟩ := h
  obtain ⟨b, rfl, hb⟩ := h'
  obtain ⟨z, hz, hzu⟩ := hF.rnd (y / b)
  exact ⟨z, by simp only [Arith.div, div_fin _ _ (hb.pos' hF.one_le).ne', hz],
    (Err.div hF.one_le hy hb).round hF.one_le hF.u0 hF.inv hzu⟩

omit hF in
theorem frel_fin {Q : ℝ} (hx : 0 < x) : FRel Q 0 (fin x) x := ⟨x, rfl, .refl hx⟩
omit hF in
theorem ferr_fin {Q : ℝ} (x : ℝ) : FErr Q 0 |x| (fin x) x := ⟨x, rfl, .refl x⟩
omit hF in
theorem ferr_nonneg {Q : ℝ} (hx : 0 ≤ x) : FErr Q 0 x (fin x) x := ⟨x, rfl, .refl_nonneg hx⟩

/-- A rounded sum is close to the exact sum. -/
theorem Accurate.sums {vs : List Flt} {s : Flt} (h : Sums F vs s) :
    ∀ es : List (ℝ × ℝ), List.Forall₂ (fun v (p : ℝ × ℝ) => FErr (1 / (1 - u)) k p.2 v p.1) vs es →
      FErr (1 / (1 - u)) (k + es.length) (es.map Prod.snd).sum s (es.map Prod.fst).sum := by
  induction h with
  | nil =>
    intro es hes
    cases hes
    exact ⟨0, rfl, by simp, by simp⟩
  | one x =>
    intro es hes
    cases hes with
    | cons h1 h2 =>
      cases h2
      simpa using hF.ferr_mono h1 (Nat.le_add_right k 1) le_rfl
  | @node xs ys zs a b hx hy hp ha hb iha ihb =>
    intro es hes
    obtain ⟨es', hp', hes'⟩ := List.perm_comp_forall₂ hp.symm hes
    obtain ⟨e1, e2, h1, h2, rfl⟩ : ∃ e1 e2, List.Forall₂ (fun v (p : ℝ × ℝ) =>
        FErr (1 / (1 - u)) k p.2 v p.1) xs e1 ∧ List.Forall₂ (fun v (p : ℝ × ℝ) =>
        FErr (1 / (1 - u)) k p.2 v p.1) ys e2 ∧ es' = e1 ++ e2 := by
      refine ⟨es'.take xs.length, es'.drop xs.length, ?_, ?_, (List.take_append_drop _ _).symm⟩
      · have := List.forall₂_take xs.length hp'
        simpa using this
      · have := List.forall₂_drop xs.length hp'
        simpa using this
    have g1 := iha e1 h1
    have g2 := ihb e2 h2
    have l1 : 1 ≤ e1.length := by
      rw [← h1.length_eq]; exact List.length_pos_iff.mpr hx
    have l2 : 1 ≤ e2.length := by
      rw [← h2.length_eq]; exact List.length_pos_iff.mpr hy
    have g := hF.ferr_add g1 g2
    have hperm : es.Perm (e1 ++ e2) := hes'.symm
    rw [(hperm.map Prod.snd).sum_eq, (hperm.map Prod.fst).sum_eq, hperm.length_eq]
    simp only [List.map_append, List.sum_append, List.length_append]
    refine hF.ferr_mono g ?_ le_rfl
    omega

end flt

end Calk
