import Verif.Props.Bias
import Verif.Props.EmfErrors
import Verif.Props.SettingScope

/-!
# Property C144: what a wrong or missing content of the sample costs
-/

namespace Calk
open Flt

/-! ## Specification -/

/-- the contents of a sample -/
def Spec.contents : List String :=
  ["dic", "total_borate", "total_phosphate", "total_silicate", "total_ammonia", "total_sulfide",
    "total_alpha", "total_beta", "total_fluoride", "total_sulfate"]

/-- protons that a mole of an acid with dissociation constant `K` has lost, or still holds, at an
acidity of `h` -/
noncomputable def Spec.lost (K h : ℝ) : ℝ := K / (K + h)
noncomputable def Spec.held (K h : ℝ) : ℝ := h / (K + h)

/-- protons that a mole of a content can take up at an acidity of `h` on the way to its form at the zero
level (pK 4.5); negative if it can give some -/
noncomputable def Spec.uptake (K : String → ℝ) (h : ℝ) (k : String) : ℝ :=
  if k = "dic" then (K "k_carbonic_1" * h + 2 * (K "k_carbonic_1" * K "k_carbonic_2"))
    / (h ^ 2 + K "k_carbonic_1" * h + K "k_carbonic_1" * K "k_carbonic_2")
  else if k = "total_borate" then Spec.lost (K "k_borate") h
  else if k = "total_phosphate" then
    (K "k_phosphoric_1" * K "k_phosphoric_2" * h
      + 2 * (K "k_phosphoric_1" * K "k_phosphoric_2" * K "k_phosphoric_3") - h ^ 3)
    / (h ^ 3 + K "k_phosphoric_1" * h ^ 2 + K "k_phosphoric_1" * K "k_phosphoric_2" * h
      + K "k_phosphoric_1" * K "k_phosphoric_2" * K "k_phosphoric_3")
  else if k = "total_silicate" then Spec.lost (K "k_silicate") h
  else if k = "total_ammonia" then Spec.lost (K "k_ammonia") h
  else if k = "total_sulfide" then Spec.lost (K "k_sulfide") h
  else if k = "total_alpha" then
    if -Real.logb 10 (K "k_alpha") ≤ 4.5 then -Spec.held (K "k_alpha") h else Spec.lost (K "k_alpha") h
  else if k = "total_beta" then
    if -Real.logb 10 (K "k_beta") ≤ 4.5 then -Spec.held (K "k_beta") h else Spec.lost (K "k_beta") h
  else if k = "total_fluoride" then -Spec.held (K "k_fluoride") h
  else -Spec.held (K "k_bisulfate") h

/-- the mean of it over the points in the window -/
noncomputable def Spec.meanUptake (K : String → ℝ) (lo hi : ℝ) (pH : List ℝ) (k : String) : ℝ :=
  Spec.windowMean lo hi pH (pH.map fun p => Spec.uptake K ((10 : ℝ) ^ (-p)) k)

open Spec

/-! ## Lemmas -/

theorem sampleAlk_sub (x x' K : String → ℝ) (h : ℝ) :
    sampleAlk x' K h - sampleAlk x K h = 1e-6 * (contents.map fun k => (x' k - x k) * uptake K h k).sum := by
  have hc : ∀ y : String → ℝ, ∀ k, mixContent y 0 1 0 0 k = y k * 1e-6 := by
    intro y k
    unfold mixContent
    simp
  have e1 : ∀ T K : ℝ, base (T * 1e-6) K h = T * 1e-6 * lost K h := by intros; unfold base lost; ring
  have e2 : ∀ T K : ℝ, acid (T * 1e-6) K h = T * 1e-6 * held K h := by intros; unfold acid held; ring
  have e3 : ∀ T K : ℝ, extraAlk (T * 1e-6) K h
      = T * 1e-6 * (if -Real.logb 10 K ≤ 4.5 then -held K h else lost K h) := by
    intros; unfold extraAlk; rw [e1, e2]; split_ifs <;> ring
  simp only [contents, List.map_cons, List.map_nil, List.sum_cons, List.sum_nil, uptake, sampleAlk, Sol.alk, mixture,
    hc, e1, e2, e3, carbAlk, phosAlk, String.reduceEq, if_true, if_false, or_true]
  ring

theorem mixture_sub {x x' K : String → ℝ} {m M c g h : ℝ} (hM : M ≠ 0) (hm : m + M ≠ 0) :
    (mixture x' K m M c g).alk 3 h - (mixture x K m M c g).alk 3 h
      = M / (m + M) * (sampleAlk x' K h - sampleAlk x K h) := by
  have key : ∀ y : String → ℝ, (mixture y K m M c g).alk 3 h * (m + M)
      = sampleAlk y K h * M + m * (K "k_water" / h - h - c * g * (h / (K "k_bisulfate" + h))) := by
    intro y
    have h := mixture_mass_sub (x := y) (K := K) (m := m) (m' := 0) (M := M) (c := c) (g := g) (h := h) hm
      (by simpa using hM)
    rw [zero_add, mixture_zero y K c g hM] at h
    unfold sampleAlk
    linear_combination h
  have h1 := key x
  have h2 := key x'
  rw [div_mul_eq_mul_div, eq_div_iff hm]
  linear_combination h2 - h1

theorem estimate_sub {x x' K : String → ℝ} {c n g M m p : ℝ} :
    estimate x' K c n g M m p = estimate x K c n g M m p
      + (contents.map fun k => (x' k - x k) * uptake K ((10 : ℝ) ^ (-p)) k).sum := by
  have := sampleAlk_sub x x' K ((10 : ℝ) ^ (-p))
  unfold estimate
  linear_combination 1e6 * this

theorem windowMean_sub {x x' K : String → ℝ} {c n g lo hi M : ℝ} {tm pH : List ℝ} (hl : tm.length = pH.length) :
    windowMean lo hi pH (List.zipWith (estimate x' K c n g M) tm pH)
      = windowMean lo hi pH (List.zipWith (estimate x K c n g M) tm pH)
        + (contents.map fun k => (x' k - x k) * meanUptake K lo hi pH k).sum := by
  have hd : ∀ (l : List String) (d b : String → ℝ) (N : ℝ),
      (l.map fun k => d k * b k).sum / N = (l.map fun k => d k * (b k / N)).sum := by
    intro l d b N
    induction l with
    | nil => simp
    | cons k l ih => simp only [List.map_cons, List.sum_cons, ← ih]; ring
  unfold meanUptake windowMean
  rw [← hd, ← add_div]
  congr 1
  have : ∀ (W : ℝ → Bool) (tm pH : List ℝ), tm.length = pH.length →
      (mask (pH.map W) (List.zipWith (estimate x' K c n g M) tm pH)).sum
        = (mask (pH.map W) (List.zipWith (estimate x K c n g M) tm pH)).sum
          + (contents.map fun k => (x' k - x k)
            * (mask (pH.map W) (pH.map fun p => uptake K ((10 : ℝ) ^ (-p)) k)).sum).sum := by
    intro W tm pH hl
    induction pH generalizing tm with
    | nil => simp
    | cons p pH ih =>
      match tm, hl with
      | m :: tm, hl =>
        have ih := ih tm (by simpa using hl)
        cases hW : W p
        · simpa only [List.map_cons, List.zipWith_cons_cons, hW, mask_cons_false] using ih
        · simp only [List.map_cons, List.zipWith_cons_cons, hW, mask_cons_true, List.sum_cons, ih, mul_add]
          rw [List.sum_map_add, estimate_sub (x := x) (x' := x')]
          ring
  exact this _ tm pH hl

theorem setIfPos_head {k : String} (hk : k ≠ "dic") (a : NpVal) (r : Dict NpVal) (x : Flt) :
    setIfPos (("dic", a) :: r) k x = ("dic", a) :: setIfPos r k x := by
  unfold setIfPos
  split_ifs
  · simp only [Dict.set, if_neg (Ne.symm hk)]
  · rfl

theorem copyIfPos_head {k pk : String} (hk : k ≠ "dic") {a : NpVal} {r tp t : Dict NpVal} {x : Flt}
    (h : copyIfPos (("dic", a) :: r) tp x k pk = .ok t) :
    ∃ r', t = ("dic", a) :: r' ∧ ∀ b, copyIfPos (("dic", b) :: r) tp x k pk = .ok (("dic", b) :: r') := by
  unfold copyIfPos at h ⊢
  by_cases hx : (fin 0).lt x = true
  · simp only [if_pos hx, bind_ok_iff] at h ⊢
    obtain ⟨v, hv, h⟩ := h
    obtain rfl := Except.ok.inj h
    refine ⟨r.set k v, by simp only [Dict.set, if_neg (Ne.symm hk)], fun b => ⟨v, hv, ?_⟩⟩
    simp only [Dict.set, if_neg (Ne.symm hk), pure_ok]
  · simp only [if_neg hx] at h ⊢
    obtain rfl := Except.ok.inj h
    exact ⟨r, rfl, fun b => rfl⟩

/-- the contents of two samples that differ in DIC only -/
theorem get_totals_dic {w : World} {S : Flt} {kw kw' : Dict Val} {t tp : Dict NpVal}
    (h : get_totals w S kw = .ok (t, tp)) (hk : ∀ k, k ≠ "dic" → kw'.get? k = kw.get? k) {d : Flt}
    (hd : argNum kw' "dic" (fin 0) = .ok d) :
    ∃ a r, t = ("dic", .scalar a) :: r ∧ get_totals w S kw' = .ok (("dic", .scalar (d * fin 1e-6)) :: r, tp) := by
  have n1 : ∀ k, k ≠ "dic" → argNum kw' k (fin 0) = argNum kw k (fin 0) := by
    intro k h; simp only [argNum, hk k h]
  have n2 : ∀ k, k ≠ "dic" → argNotNull kw' k = argNotNull kw k := by
    intro k h; simp only [argNotNull, hk k h]
  have n3 : ∀ k v, k ≠ "dic" → argVal kw' k v = argVal kw k v := by
    intro k v h; simp only [argVal, hk k h]
  simp only [get_totals, bind_ok_iff, pure_ok, Except.ok.injEq, Prod.mk.injEq] at h
  obtain ⟨dic, h1, alpha, h2, beta, h3, ammonia, h4, phosphate, h5, silicate, h6, sulfide, h7,
    borate, h8, fluoride, h9, sulfate, h10, tp', h11, t1, c1, t2, c2, t3, c3, t4, c4, tb, hb,
    tf, hf, ts, hs, ht, rfl⟩ := h
  rw [setIfPos_head (by decide), setIfPos_head (by decide)] at c1
  obtain ⟨r1, rfl, c1'⟩ := copyIfPos_head (by decide) c1
  obtain ⟨r2, rfl, c2'⟩ := copyIfPos_head (by decide) c2
  obtain ⟨r3, rfl, c3'⟩ := copyIfPos_head (by decide) c3
  obtain ⟨r4, rfl, c4'⟩ := copyIfPos_head (by decide) c4
  have hset : ∀ (a v : NpVal) (r : Dict NpVal) (k : String), k ≠ "dic" →
      Dict.set (("dic", a) :: r) k v = ("dic", a) :: Dict.set r k v := by
    intro a v r k h
    simp only [Dict.set, if_neg (Ne.symm h)]
  rw [hset _ _ _ _ (by decide), hset _ _ _ _ (by decide), hset _ _ _ _ (by decide)] at ht
  refine ⟨_, _, ht.symm, ?_⟩
  simp only [get_totals, n1 "total_alpha" (by decide), n1 "total_beta" (by decide), n1 "total_ammonia" (by decide),
    n1 "total_phosphate" (by decide), n1 "total_silicate" (by decide), n1 "total_sulfide" (by decide),
    n2 "total_borate" (by decide), n2 "total_fluoride" (by decide), n2 "total_sulfate" (by decide),
    n3 "opt_k_carbonic" _ (by decide), n3 "opt_total_borate" _ (by decide), hd, h2, h3, h4, h5, h6, h7, h8, h9, h10,
    h11, bind_ok, setIfPos_head (show "total_alpha" ≠ "dic" by decide),
    setIfPos_head (show "total_beta" ≠ "dic" by decide), c1', c2', c3', c4', hb, hf, hs, pure_ok,
    hset _ _ _ _ (show "total_borate" ≠ "dic" by decide), hset _ _ _ _ (show "total_fluoride" ≠ "dic" by decide),
    hset _ _ _ _ (show "total_sulfate" ≠ "dic" by decide)]

/-- another DIC: the file loads all the same -/
theorem load_dic {w : World} {f : String} {S : Flt} {kw : Dict Val} {cv : Converted} {totals ks : Dict NpVal}
    (h : load w f S kw = .ok (cv, totals, ks)) (d : Flt) :
    ∃ totals', load w f S (kw.set "dic" (.num d)) = .ok (cv, totals', ks) := by
  obtain ⟨fname, dd, h1, h2, h3, h4⟩ := load_parts h
  obtain ⟨t, tp, tp', t1, t2, t3, t4⟩ := totals_ks_parts h4
  have e1 := kwargs_set_off (kw := kw) (v := .num d) (show keys_read_dat.contains "dic" = false by decide)
  have e2 := kwargs_set_off (kw := kw) (v := .num d) (show keys_cau.contains "dic" = false by decide)
  have e3 := kwargs_set_on (kw := kw) (v := .num d) (show keys_totals_ks.contains "dic" = true by decide)
  have e4 := Dict.filter_set_pos (fun k => keys_get_totals.contains k) (get_kwargs_for keys_totals_ks kw none)
    (k := "dic") (.num d) (by decide)
  have e5 := Dict.filter_set (fun k => keys_get_k_constants.contains k) (get_kwargs_for keys_totals_ks kw none)
    (k := "dic") (.num d) (by decide)
  obtain ⟨a, r, rfl, g⟩ := get_totals_dic (kw' := Dict.set ((get_kwargs_for keys_totals_ks kw none).filter
    fun kv => keys_get_totals.contains kv.1) "dic" (.num d)) t1 (fun k hk => Dict.get?_set_ne _ _ _ _ hk) (d := d)
    (by simp only [argNum, Dict.get?_set_self]; rfl)
  have hdil : ∃ o, dilute_totals (("dic", .scalar (d * fin 1e-6)) :: r) cv.titrant_mass cv.analyte_mass = .ok o := by
    unfold dilute_totals at t2 ⊢
    simp only [Dict.mapValsM, bind_ok_iff] at t2 ⊢
    obtain ⟨u, hu, r', hr', ht⟩ := t2
    exact ⟨_, _, rfl, r', hr', rfl⟩
  obtain ⟨o, ho⟩ := hdil
  have e6 : totals_for_ks cv tp ((get_kwargs_for keys_totals_ks kw none).set "dic" (.num d))
      = totals_for_ks cv tp (get_kwargs_for keys_totals_ks kw none) := by
    have : argVal ((get_kwargs_for keys_totals_ks kw none).set "dic" (.num d)) "dilute_totals_for_ks" (.bool false)
        = argVal (get_kwargs_for keys_totals_ks kw none) "dilute_totals_for_ks" (.bool false) := by
      simp only [argVal, Dict.get?_set_ne _ _ _ _ (show "dilute_totals_for_ks" ≠ "dic" by decide)]
    unfold totals_for_ks
    rw [this]
  have e7 : full_name f (kw.set "dic" (.num d)) = full_name f kw := by
    simp only [full_name, Dict.get?_set_ne _ _ _ _ (show "file_path" ≠ "dic" by decide)]
  refine ⟨o, ?_⟩
  unfold load
  rw [e7, h1, bind_ok, e1, h2, bind_ok, e2, h3, bind_ok, e3]
  unfold totals_ks
  simp only [e4, g, e5, e6, t3, t4, ho, bind_ok, pure_ok]

/-- the contents with another DIC -/
def Spec.withDic (x : String → ℝ) (d : ℝ) (k : String) : ℝ := if k = "dic" then d else x k

theorem GivenSample.dic {kw : Dict Val} {x K : String → ℝ} (h : GivenSample kw x K) {d : ℝ} (hd : 0 ≤ d) :
    GivenSample (kw.set "dic" (.num (fin d))) (withDic x d) K := by
  refine ⟨?_, ?_, ?_⟩
  · intro k hk
    unfold withDic
    by_cases e : k = "dic"
    · subst e
      rw [if_pos rfl, Dict.get?_set_self]
      exact ⟨rfl, hd⟩
    · rw [if_neg e, Dict.get?_set_ne _ _ _ _ e]
      exact h.contents k hk
  · intro k hk
    rw [Dict.get?_set_ne _ _ _ _ (by rintro rfl; revert hk; decide)]
    exact h.constants k hk
  · rw [onTotalScale_congr (Dict.get?_set_ne _ _ _ _ (by decide))]
    exact h.scale

theorem NumOr.dic {kw : Dict Val} {k : String} {a r : ℝ} {v : Val} (hk : k ≠ "dic") (h : NumOr kw k a r) :
    NumOr (kw.set "dic" v) k a r := by
  unfold NumOr
  rwa [Dict.get?_set_ne _ _ _ _ hk]

theorem PHRun.dic {w : World} {f : String} {S : Flt} {kw : Dict Val} {x K : String → ℝ}
    {c n g lo hi M : ℝ} {tm pH : List ℝ} (h : PHRun w f S kw x K c n g lo hi M tm pH) {d : ℝ} (hd : 0 ≤ d) :
    PHRun w f S (kw.set "dic" (.num (fin d))) (withDic x d) K c n g lo hi M tm pH where
  loads := by
    obtain ⟨cv, totals, ks, hl, h1⟩ := h.loads
    obtain ⟨totals', hl'⟩ := load_dic hl (fin d)
    exact ⟨cv, totals', ks, hl', h1⟩
  keepsTotals := h.keepsTotals
  keepsKs := h.keepsKs
  nodup := Dict.set_keys_nodup h.nodup _ _
  mode := by rw [Dict.get?_set_ne _ _ _ _ (by decide)]; exact h.mode
  sample := h.sample.dic hd
  sulfate := h.sulfate.dic (by decide)
  no_phosphate := by rw [Dict.get?_set_ne _ _ _ _ (by decide)]; exact h.no_phosphate
  no_fluoride := by rw [Dict.get?_set_ne _ _ _ _ (by decide)]; exact h.no_fluoride
  normality := h.normality.dic (by decide)
  pH_min := h.pH_min.dic (by decide)
  pH_max := h.pH_max.dic (by decide)
  window := h.window
  lengths := h.lengths
  mass := h.mass
  masses := h.masses
  acid := h.acid

/-- more protons are taken up at a higher pH -/
theorem uptake_anti {K : String → ℝ} (hK : ∀ k ∈ allConstants, 0 < K k) {a b : ℝ} (ha : 0 < a) (hab : a ≤ b)
    (k : String) : uptake K b k ≤ uptake K a k := by
  have e1 : ∀ {c : ℝ}, 0 < c → lost c b ≤ lost c a := by
    intro c hc
    unfold lost
    gcongr
  have e2 : ∀ {c : ℝ}, 0 < c → held c a ≤ held c b := by
    intro c hc
    unfold held
    rw [div_le_div_iff₀ (by positivity) (by linarith)]
    nlinarith
  have e3 : ∀ {c : ℝ}, 0 < c → (if -Real.logb 10 c ≤ 4.5 then -held c b else lost c b)
      ≤ if -Real.logb 10 c ≤ 4.5 then -held c a else lost c a := by
    intro c hc
    split_ifs
    · linarith [e2 hc]
    · exact e1 hc
  have e4 := (carb_fall (T := 1) zero_le_one (hK "k_carbonic_1" (by decide)) (hK "k_carbonic_2" (by decide)) ha
    le_rfl hab).1
  have e5 := (phos_fall (T := 1) zero_le_one (hK "k_phosphoric_1" (by decide)) (hK "k_phosphoric_2" (by decide))
    (hK "k_phosphoric_3" (by decide)) ha le_rfl hab).1
  unfold carbAlk at e4
  unfold phosAlk at e5
  simp only [one_mul] at e4 e5
  unfold uptake
  by_cases k1 : k = "dic"
  · rw [if_pos k1, if_pos k1]; linarith
  rw [if_neg k1, if_neg k1]
  by_cases k2 : k = "total_borate"
  · rw [if_pos k2, if_pos k2]; exact e1 (hK _ (by decide))
  rw [if_neg k2, if_neg k2]
  by_cases k3 : k = "total_phosphate"
  · rw [if_pos k3, if_pos k3]; linarith
  rw [if_neg k3, if_neg k3]
  by_cases k4 : k = "total_silicate"
  · rw [if_pos k4, if_pos k4]; exact e1 (hK _ (by decide))
  rw [if_neg k4, if_neg k4]
  by_cases k5 : k = "total_ammonia"
  · rw [if_pos k5, if_pos k5]; exact e1 (hK _ (by decide))
  rw [if_neg k5, if_neg k5]
  by_cases k6 : k = "total_sulfide"
  · rw [if_pos k6, if_pos k6]; exact e1 (hK _ (by decide))
  rw [if_neg k6, if_neg k6]
  by_cases k7 : k = "total_alpha"
  · rw [if_pos k7, if_pos k7]; exact e3 (hK _ (by decide))
  rw [if_neg k7, if_neg k7]
  by_cases k8 : k = "total_beta"
  · rw [if_pos k8, if_pos k8]; exact e3 (hK _ (by decide))
  rw [if_neg k8, if_neg k8]
  by_cases k9 : k = "total_fluoride"
  · rw [if_pos k9, if_pos k9]; exact neg_le_neg (e2 (hK _ (by decide)))
  rw [if_neg k9, if_neg k9]
  exact neg_le_neg (e2 (hK _ (by decide)))

/-- a mean over the points used lies between any bounds of what is averaged there -/
theorem windowMean_between {lo hi a b : ℝ} {pH : List ℝ} (hin : ∃ p ∈ pH, lo ≤ p ∧ p ≤ hi) {u : ℝ → ℝ}
    (hu : ∀ p ∈ pH, lo ≤ p → p ≤ hi → a ≤ u p ∧ u p ≤ b) :
    a ≤ windowMean lo hi pH (pH.map u) ∧ windowMean lo hi pH (pH.map u) ≤ b := by
  have key : ∀ l : List ℝ, (∀ p ∈ l, lo ≤ p → p ≤ hi → a ≤ u p ∧ u p ≤ b) →
      a * (l.filter fun p => decide (lo ≤ p) && decide (p ≤ hi)).length
        ≤ (mask (l.map fun p => decide (lo ≤ p) && decide (p ≤ hi)) (l.map u)).sum ∧
      (mask (l.map fun p => decide (lo ≤ p) && decide (p ≤ hi)) (l.map u)).sum
        ≤ b * (l.filter fun p => decide (lo ≤ p) && decide (p ≤ hi)).length := by
    intro l hl
    induction l with
    | nil => simp
    | cons p l ih =>
      obtain ⟨i1, i2⟩ := ih fun q hq => hl q (List.mem_cons_of_mem _ hq)
      by_cases hw : lo ≤ p ∧ p ≤ hi
      · obtain ⟨u1, u2⟩ := hl p List.mem_cons_self hw.1 hw.2
        simp only [List.map_cons, List.filter_cons, hw.1, hw.2, decide_true, Bool.and_true, mask_cons_true,
          List.sum_cons, if_true, List.length_cons, Nat.cast_add, Nat.cast_one]
        constructor <;> linarith
      · have z : (decide (lo ≤ p) && decide (p ≤ hi)) = false := by
          simpa only [Bool.and_eq_false_iff, decide_eq_false_iff_not, not_and_or] using hw
        simp only [List.map_cons, List.filter_cons, z, mask_cons_false, Bool.false_eq_true, if_false]
        exact ⟨i1, i2⟩
  have hN : (0 : ℝ) < (pH.filter fun p => decide (lo ≤ p) && decide (p ≤ hi)).length := by
    obtain ⟨p, hp, h1, h2⟩ := hin
    have : p ∈ pH.filter fun p => decide (lo ≤ p) && decide (p ≤ hi) := by
      simp [hp, h1, h2]
    exact_mod_cast List.length_pos_of_mem this
  obtain ⟨k1, k2⟩ := key pH hu
  unfold windowMean
  exact ⟨by rwa [le_div_iff₀ hN], by rwa [div_le_iff₀ hN]⟩

/-- the misfit of a point with other contents -/
theorem pointMisfit_contents {x x₀ K : String → ℝ} {c n g M A E : ℝ} {y : ℝ × ℝ × ℝ} (hM : 0 < M) (hm : 0 ≤ y.1) :
    pointMisfit x K c n g M A E y = pointMisfit x₀ K c n g M A E y + M / (y.1 + M)
      * (1e-6 * (contents.map fun k => (x k - x₀ k) * uptake K (readAcidity E y) k).sum) := by
  have e := mixture_sub (x := x₀) (x' := x) (K := K) (m := y.1) (M := M) (c := c) (g := g)
    (h := readAcidity E y) hM.ne' (by positivity)
  rw [sampleAlk_sub] at e
  rw [← e]
  unfold pointMisfit
  ring

/-! ## Properties -/

/-- **C144**: solve the same titration in pH mode with other contents of the sample (same constants, same
acid, same window): the alkalinity changes by exactly the sum, over the contents, of the change (µmol/kg)
times the protons that a mole takes up, averaged over the points used. -/
theorem C144_contents (w w' : World) (f f' : String) (S S' : Flt) (kw kw' : Dict Val) (x x' K : String → ℝ)
    (c n g lo hi M : ℝ) (tm pH : List ℝ) (h : PHRun w f S kw x K c n g lo hi M tm pH)
    (h' : PHRun w' f' S' kw' x' K c n g lo hi M tm pH) (hin : ∃ p ∈ pH, lo ≤ p ∧ p ≤ hi) :
    ∃ (r r' : SolvePH) (T T' : List Flt) (a : ℝ),
      files_solve w f (fin c) S kw = .ok (.pH r (pH.map fin) T) ∧
      files_solve w' f' (fin c) S' kw' = .ok (.pH r' (pH.map fin) T') ∧
      r.alkalinity = fin a ∧
      r'.alkalinity = fin (a + (contents.map fun k => (x' k - x k) * meanUptake K lo hi pH k).sum) := by
  obtain ⟨r, T, h1, -, h2⟩ := C122_formula w f S kw x K c n g lo hi M tm pH h hin
  obtain ⟨r', T', h1', -, h2'⟩ := C122_formula w' f' S' kw' x' K c n g lo hi M tm pH h' hin
  exact ⟨r, r', T, T', _, h1, h1', h2, by rw [h2', windowMean_sub (x := x) h.lengths]⟩

/-- **C144**: those averages lie between the values at the two ends of the window. -/
theorem C144_uptake (K : String → ℝ) (hK : ∀ k ∈ allConstants, 0 < K k) (lo hi : ℝ) (pH : List ℝ)
    (hin : ∃ p ∈ pH, lo ≤ p ∧ p ≤ hi) (k : String) :
    uptake K ((10 : ℝ) ^ (-lo)) k ≤ meanUptake K lo hi pH k ∧
      meanUptake K lo hi pH k ≤ uptake K ((10 : ℝ) ^ (-hi)) k := by
  refine windowMean_between hin fun p _ h1 h2 => ⟨?_, ?_⟩
  · exact uptake_anti hK (by positivity) (Real.rpow_le_rpow_of_exponent_le (by norm_num) (by linarith)) k
  · exact uptake_anti hK (by positivity) (Real.rpow_le_rpow_of_exponent_le (by norm_num) (by linarith)) k

/-- **C144**: in particular, for DIC: any titration that can be solved can be solved with another DIC, and a
DIC that is too low by `δ` makes the alkalinity too low by `δ` times a share between those of the two ends of
the window. -/
theorem C144_dic (w : World) (f : String) (S : Flt) (kw : Dict Val) (x K : String → ℝ)
    (c n g lo hi M : ℝ) (tm pH : List ℝ) (h : PHRun w f S kw x K c n g lo hi M tm pH)
    (hin : ∃ p ∈ pH, lo ≤ p ∧ p ≤ hi) (d : ℝ) (hd : 0 ≤ d) :
    ∃ (r r' : SolvePH) (T T' : List Flt) (a share : ℝ),
      files_solve w f (fin c) S kw = .ok (.pH r (pH.map fin) T) ∧
      files_solve w f (fin c) S (kw.set "dic" (.num (fin d))) = .ok (.pH r' (pH.map fin) T') ∧
      r.alkalinity = fin a ∧ r'.alkalinity = fin (a + (d - x "dic") * share) ∧
      uptake K ((10 : ℝ) ^ (-lo)) "dic" ≤ share ∧ share ≤ uptake K ((10 : ℝ) ^ (-hi)) "dic" ∧
      0 < share ∧ share < 2 := by
  obtain ⟨r, r', T, T', a, h1, h2, h3, h4⟩ := C144_contents w w f f S S kw _ x (withDic x d) K c n g lo hi M tm pH h
    (h.dic hd) hin
  have hK := fun k hk => (h.sample.constants k hk).2
  obtain ⟨u1, u2⟩ := C144_uptake K hK lo hi pH hin "dic"
  refine ⟨r, r', T, T', a, meanUptake K lo hi pH "dic", h1, h2, h3, ?_, u1, u2, ?_, ?_⟩
  · rw [h4]
    simp [contents, withDic]
  · refine lt_of_lt_of_le ?_ u1
    have k1 := hK "k_carbonic_1" (by decide)
    have k2 := hK "k_carbonic_2" (by decide)
    unfold uptake
    rw [if_pos rfl]
    positivity
  · refine lt_of_le_of_lt u2 ?_
    have k1 := hK "k_carbonic_1" (by decide)
    have k2 := hK "k_carbonic_2" (by decide)
    have hh : (0 : ℝ) < (10 : ℝ) ^ (-hi) := by positivity
    unfold uptake
    rw [if_pos rfl, div_lt_iff₀ (by positivity)]
    have := mul_pos k1 hh
    have := pow_pos hh 2
    linarith

/-- **C144**: in EMF mode: if the true contents, alkalinity and EMF0 fit every point used up to a misfit of
`η₀`, then a solve with other contents (and an optimiser that finds the minimum) is off by no more than the
bound of C120, with a misfit of `η`: what the wrong contents add, diluted, at the acidity of each point. -/
theorem C144_emf (w : World) (f : String) (S : Flt) (kw : Dict Val) (x x₀ K : String → ℝ)
    (c n g M : ℝ) (pts : List (ℝ × ℝ × ℝ)) (h : EmfRun w f S kw x K c n g M pts)
    (hmin : LsGlobalMin w.ls) (sr : SolveEmf) (T : List Flt)
    (hr : files_solve w f (fin c) S kw = .ok (.emf sr T)) (A E A' E' η₀ η : ℝ)
    (hx : sr.opt_result.x = (fin A', fin E'))
    (hη₀ : ∀ p ∈ mask sr.used pts, |pointMisfit x₀ K c n g M A E p| ≤ η₀)
    (hη : ∀ p ∈ mask sr.used pts, η₀ + M / (p.1 + M) * (1e-6 *
      |(contents.map fun k => (x k - x₀ k) * uptake K (readAcidity E p) k).sum|) ≤ η)
    (p q : ℝ × ℝ × ℝ) (hp : p ∈ mask sr.used pts) (hq : q ∈ mask sr.used pts) (hTT : p.2.2 = q.2.2)
    (lo ε : ℝ) (hlo : 0 < lo) (hl : lo ≤ readAcidity E p) (hl' : lo ≤ readAcidity E' p)
    (hε : ε = (1 + Real.sqrt (mask sr.used pts).length) * η)
    (hmore : 0 < acidExcess x K c g M E lo p q) :
    sr.alkalinity = fin (1e6 * A') ∧ sr.emf0 = fin E' ∧
    |A' - A| * M ≤ (p.1 + M) * (ε + (1 + (mixture x K p.1 M c g).buffering lo) * readAcidity E p
      * acidityOff x K c g M E lo ε p q) ∧
    (acidityOff x K c g M E lo ε p q < 1 →
      |E' - E| ≤ 8.3144621 * (p.2.2 + 273.15) / 96.4853365 *
        (acidityOff x K c g M E lo ε p q / (1 - acidityOff x K c g M E lo ε p q))) := by
  refine C120_misfit w f S kw x K c n g M pts h hmin sr T hr A E A' E' η hx ?_ p q hp hq hTT lo ε hlo hl hl' hε hmore
  intro y hy
  have hM := h.mass
  have hm := h.masses y (mask_subset _ _ hy)
  refine le_trans ?_ (hη y hy)
  rw [pointMisfit_contents (x₀ := x₀) hM hm]
  refine (abs_add_le _ _).trans (add_le_add (hη₀ y hy) (le_of_eq ?_))
  rw [abs_mul, abs_mul, abs_of_nonneg (show 0 ≤ M / (y.1 + M) by positivity),
    abs_of_pos (show (0 : ℝ) < 1e-6 by norm_num)]

/-! ### Cases -/

/-- the titration of C109 (10 µmol/kg of DIC) solved with no DIC at all: the alkalinity
is lower, by 0.11 µmol/kg at most -/
example (p q : ℝ) (hp : 3 ≤ p ∧ p ≤ 4) : ∃ (r r' : SolvePH) (T T' : List Flt) (a b : ℝ),
    files_solve (pWorld p q) "a.dat" (fin 0.1) (fin 35) pArgs = .ok (.pH r ([p, q].map fin) T) ∧
    files_solve (pWorld p q) "a.dat" (fin 0.1) (fin 35) (pArgs.set "dic" (.num (fin 0)))
      = .ok (.pH r' ([p, q].map fin) T') ∧
    r.alkalinity = fin a ∧ r'.alkalinity = fin b ∧ b < a ∧ a - 0.11 ≤ b := by
  obtain ⟨r, r', T, T', a, s, h1, h2, h3, h4, -, u, h5, -⟩ := C144_dic _ _ _ _ _ _ _ _ _ _ _ _ _ _ (p_run p q)
    ⟨p, by simp, hp⟩ 0 le_rfl
  refine ⟨r, r', T, T', a, _, h1, h2, h3, h4, ?_, ?_⟩
  · norm_num [pContents]; exact h5
  · have : uptake pConstants ((10 : ℝ) ^ (-(4 : ℝ))) "dic" ≤ 0.011 := by
      rw [Real.rpow_neg (by norm_num)]
      norm_num [uptake, pConstants]
    have := u.trans this
    norm_num [pContents] at this ⊢
    linarith

/-- the titration of C112, which is exact for 10 µmol/kg of DIC, as one of a sample that had 20 µmol/kg: less
than 0.001 µmol/kg from exact, and found within 1 µmol/kg -/
example : ∃ sr T A' E', files_solve (qWorld 400) "a.dat" (fin qAcid) (fin 35) (qArgs 400) = .ok (.emf sr T) ∧
    sr.alkalinity = fin (1e6 * A') ∧ sr.emf0 = fin E' ∧ |A' - qTrue| ≤ 1e-6 := by
  obtain ⟨sr, h, hx, hu⟩ := (q_solve 400)
  have hm : mask sr.used (qPts 400) = qPts 400 := by rw [hu]; rfl
  have c2 := (q_buffer (m := 0.001) (lo := 1.9e-4) (.inl rfl) (by norm_num)).2.2 le_rfl
  have c1 := (q_buffer (m := 0.001) (lo := 1.9e-4) (.inl rfl) (by norm_num)).1
  have hu : ∀ p ∈ qPts 400, 0.1 / (p.1 + 0.1) * (1e-6 * |(contents.map fun k =>
      (pContents k - withDic pContents 20 k) * uptake qConstants (readAcidity 400 p) k).sum|) ≤ 1e-9 := by
    intro p hp
    have e : ∀ u : String → ℝ, (contents.map fun k => (pContents k - withDic pContents 20 k) * u k).sum
        = -10 * u "dic" := by
      intro u
      simp only [contents, withDic, pContents, List.map_cons, List.map_nil, List.sum_cons, List.sum_nil,
        String.reduceEq, if_true, if_false]
      ring
    rw [e]
    simp only [qPts, List.mem_cons, List.not_mem_nil, or_false] at hp
    rcases hp with rfl | rfl <;> rw [read_nernst _ (by norm_num) (by norm_num)] <;>
      norm_num [uptake, qConstants, abs_of_neg, abs_of_pos]
  have h0 : ∀ p ∈ qPts 400, |pointMisfit (withDic pContents 20) qConstants qAcid 1 0 0.1 qTrue 400 p| ≤ 1e-9 := by
    intro p hp
    have hp0 := (q_run 400).masses p hp
    have hz : pointMisfit pContents qConstants qAcid 1 0 0.1 qTrue 400 p = 0 := by
      have hp1 : p.1 + 0.1 ≠ 0 := by positivity
      rw [pointMisfit, ← (q_exact 400 p hp).2.2, mul_div_assoc, div_self hp1, mul_one, sub_self]
    rw [pointMisfit_contents (x₀ := withDic pContents 20) (by norm_num) hp0] at hz
    rw [eq_neg_of_add_eq_zero_left hz, abs_neg, abs_mul, abs_mul, abs_of_nonneg (show 0 ≤ 0.1 / (p.1 + 0.1) by positivity),
      abs_of_pos (show (0 : ℝ) < 1e-6 by norm_num)]
    exact hu p hp
  have hex : 6e-5 ≤ acidExcess pContents qConstants qAcid 0 0.1 400 1.9e-4 (0.001, nernst 400 25 2e-4, 25)
      (0.002, nernst 400 25 9e-4, 25) := by
    unfold acidExcess
    rw [read_nernst _ (by norm_num) (by norm_num), read_nernst _ (by norm_num) (by norm_num)]
    have h1 : (1 + (mixture pContents qConstants 0.001 0.1 qAcid 0).buffering 1.9e-4)
        * ((0.001 + 0.1) * 2e-4) ≤ (1 + 0.3) * ((0.001 + 0.1) * 2e-4) := by gcongr
    norm_num at h1 ⊢
    linarith
  have hq := C144_emf _ _ _ _ _ (withDic pContents 20) _ _ _ _ _ _ (q_run 400) lsExact_contracts.2 _ _ h qTrue 400 _ _
    1e-9 2e-9 hx (by rw [hm]; exact h0) (by rw [hm]; intro p hp; have := hu p hp; linarith)
    (0.001, nernst 400 25 2e-4, 25) (0.002, nernst 400 25 9e-4, 25) (by rw [hm]; simp [qPts])
    (by rw [hm]; simp [qPts]) rfl 1.9e-4 _ (by norm_num)
    (by rw [read_nernst _ (by norm_num) (by norm_num)]; norm_num)
    (by rw [read_nernst _ (by norm_num) (by norm_num)]; norm_num) rfl (lt_of_lt_of_le (by norm_num) hex)
  obtain ⟨r1, r2, r3, -⟩ := hq
  rw [hm] at r3
  set ε' : ℝ := (1 + Real.sqrt (qPts 400).length) * 2e-9 with hε'
  have he0 : 0 ≤ ε' := by positivity
  have he : ε' ≤ 5e-9 := by
    have : Real.sqrt ((qPts 400).length : ℝ) ≤ 1.5 := by
      rw [Real.sqrt_le_left (by norm_num)]
      norm_num [qPts]
    rw [hε']
    linarith
  set off := acidityOff pContents qConstants qAcid 0 0.1 400 1.9e-4 ε' (0.001, nernst 400 25 2e-4, 25)
      (0.002, nernst 400 25 9e-4, 25) with hoff
  have ho0 : 0 ≤ off := by
    rw [hoff]; unfold acidityOff
    apply div_nonneg _ (le_trans (by norm_num) hex)
    positivity
  have ho : off ≤ 1e-4 := by
    rw [hoff]; unfold acidityOff
    rw [div_le_iff₀ (lt_of_lt_of_le (by norm_num) hex)]
    norm_num at he hex ⊢
    linarith
  refine ⟨sr, _, _, _, h, r1, r2, ?_⟩
  rw [read_nernst _ (by norm_num) (by norm_num)] at r3
  have h1 : (1 + (mixture pContents qConstants 0.001 0.1 qAcid 0).buffering 1.9e-4)
      * 2e-4 * off ≤ (1 + 0.3) * 2e-4 * 1e-4 := by gcongr
  norm_num at r3 h1 he ⊢

end Calk
