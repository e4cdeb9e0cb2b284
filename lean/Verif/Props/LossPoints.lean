import Verif.Props.LossTable
import Verif.Lemmas.Gran

/-! # What the DIC loss model is fitted to and what it returns (C85, C86) -/

namespace Calk
open Flt

/-- Assumption on scipy: on real data with increasing nodes, the interpolant passes through the
nodes. -/
def LossLib.ThroughNodes (lib : LossLib) : Prop :=
  ∀ (xi yi : List ℝ) (x ys : List Flt), xi.Pairwise (· < ·) → xi.length = yi.length →
    lib.pchip (xi.map fin) (yi.map fin) x = .ok ys →
    ∀ (i j : ℕ) (a b : ℝ), xi[i]? = some a → yi[i]? = some b → x[j]? = some (fin a) →
      ys[j]? = some (fin b)

/-- a measured value, NaN if missing -/
def measured : Option ℝ → Flt
  | some x => fin x
  | none => nan

/-- the largest value that is not missing -/
def IsMaxOf (top : ℝ) (xs : List (Option ℝ)) : Prop :=
  some top ∈ xs ∧ ∀ x, some x ∈ xs → x ≤ top

theorem foldl_fmax2_fin (ys : List ℝ) (y : ℝ) :
    ∃ t, (ys.map fin).foldl fmax2 (fin y) = fin t ∧ (t = y ∨ t ∈ ys) ∧ y ≤ t ∧ ∀ x ∈ ys, x ≤ t := by
  induction ys generalizing y with
  | nil => exact ⟨y, rfl, .inl rfl, le_rfl, by simp⟩
  | cons z ys ih =>
    have e : fmax2 (fin y) (fin z) = fin (max y z) := by
      unfold fmax2
      by_cases h : y < z
      · simp [Flt.le, Flt.isNaN, h.le]
      · rcases eq_or_lt_of_le (not_lt.mp h) with rfl | h'
        · simp [Flt.le, Flt.isNaN]
        · simp [Flt.le, Flt.isNaN, not_le.mpr h', h'.le]
    obtain ⟨t, h1, h2, h3, h4⟩ := ih (max y z)
    refine ⟨t, by rw [List.map_cons, List.foldl_cons, e, h1], ?_, (le_max_left _ _).trans h3, ?_⟩
    · rcases h2 with rfl | h
      · rcases max_choice y z with h | h <;> simp [h]
      · exact .inr (List.mem_cons_of_mem _ h)
    · intro x hx
      rcases List.mem_cons.mp hx with rfl | hx
      · exact (le_max_right _ _).trans h3
      · exact h4 x hx

theorem npNanMax_measured {F : List (Option ℝ)} (h : ∃ x, some x ∈ F) :
    ∃ t, npNanMax (F.map measured) = .ok (fin t) ∧ IsMaxOf t F := by
  have e : (F.map measured).filter (fun x => !x.isNaN) = (F.filterMap id).map fin := by
    clear h
    induction F with
    | nil => rfl
    | cons o F ih =>
      cases o with
      | none => rw [List.map_cons, List.filter_cons_of_neg (by simp [measured]), ih]; rfl
      | some x => rw [List.map_cons, List.filter_cons_of_pos (by simp [measured]), ih]; rfl
  unfold npNanMax
  rw [e]
  cases hl : F.filterMap id with
  | nil =>
    obtain ⟨x, hx⟩ := h
    have : x ∈ F.filterMap id := by simpa using hx
    rw [hl] at this; cases this
  | cons y ys =>
    obtain ⟨t, h1, h2, h3, h4⟩ := foldl_fmax2_fin ys y
    refine ⟨t, by simp only [List.map_cons, h1], ?_, ?_⟩
    · have : t ∈ F.filterMap id := by rw [hl]; rcases h2 with rfl | h <;> simp_all
      simpa using this
    · intro x hx
      have : x ∈ F.filterMap id := by simpa using hx
      rw [hl] at this
      rcases List.mem_cons.mp this with rfl | hx
      · exact h3
      · exact h4 x hx

/-- measured data: increasing titrant masses, pH at every point; DIC and fCO2 may be missing -/
structure RealLoss (inp : LossIn) (tm ph : List ℝ) (D F : List (Option ℝ)) (sp air : ℝ) : Prop where
  titrant_mass : inp.titrant_mass = tm.map fin
  pH : inp.pH = ph.map fin
  dic_loss : inp.dic_loss = D.map measured
  fCO2_loss : inp.fCO2_loss = F.map measured
  split_pH : inp.split_pH = fin sp
  fCO2_air : inp.fCO2_air = fin air
  sorted : tm.Pairwise (· < ·)
  len_pH : tm.length = ph.length
  len_D : tm.length = D.length
  len_F : tm.length = F.length
  some_F : ∃ x, some x ∈ F

/-- the masses of the fitted part of the table: those at which the pH is not below the split -/
noncomputable def fittedMasses (split : Flt) (hi : LossHires) : List Flt :=
  mask (hi.pH.map fun p => split.le p) hi.titrant_mass

theorem zeroNaN_measured (D : List (Option ℝ)) :
    zeroNaN (D.map measured) = (D.map fun o => o.getD 0).map fin := by
  unfold zeroNaN
  rw [List.map_map, List.map_map]
  apply List.map_congr_left
  intro o _
  cases o <;> simp [measured, Flt.isNaN]

theorem delta_measured {inp : LossIn} {tm ph : List ℝ} {D F : List (Option ℝ)} {sp air : ℝ}
    (hR : RealLoss inp tm ph D F sp air) :
    ∃ top, IsMaxOf top F ∧
      delta_fCO2_loss inp = .ok ((F.map fun o => o.getD top - air).map fin) := by
  obtain ⟨top, h1, h2⟩ := npNanMax_measured hR.some_F
  refine ⟨top, h2, ?_⟩
  unfold delta_fCO2_loss
  rw [hR.fCO2_loss, h1, bind_ok, hR.fCO2_air]
  simp only [pure_ok, Except.ok.injEq, List.map_map]
  apply List.map_congr_left
  intro o _
  cases o <;> simp [measured, Flt.isNaN]

/-- **C86**: the rate is fitted, from the start value 1, to the residuals: modelled DIC minus measured
DIC at the table's places at or above the split. The model starts with the starting DIC and follows the
DIC balance with the measured excess fCO2. Where a place is a titration point, the measured DIC is its
`dic_loss` — zero if missing — and the excess is its `fCO2_loss` — the largest one if missing — less the
air's. -/
theorem C86_fit {lib : LossLib} (hr : lib.Regular) (hn : lib.ThroughNodes) {inp : LossIn}
    {hi : LossHires} {tm ph : List ℝ} {D F : List (Option ℝ)} {sp air : ℝ}
    (hR : RealLoss inp tm ph D F sp air) (h : get_dic_loss_hires lib inp = .ok hi) :
    ∃ (f : Flt → Py (List Flt)) (del obs : List Flt) (top : ℝ),
      lib.lsq f (fin 1) = .ok hi.k_dic_loss ∧ IsMaxOf top F ∧
      obs.length = (fittedMasses (fin sp) hi).length ∧
      hi.delta_fCO2.take (fittedMasses (fin sp) hi).length = del ∧
      (∀ (i j : ℕ) (m : ℝ) (d e : Option ℝ), tm[i]? = some m → D[i]? = some d → F[i]? = some e →
        (fittedMasses (fin sp) hi)[j]? = some (fin m) →
        obs[j]? = some (fin (d.getD 0)) ∧ del[j]? = some (fin (e.getD top - air))) ∧
      ∀ k, ∃ dic : List Flt, f k = .ok (List.zipWith (· - ·) dic obs) ∧
        dic.length = (fittedMasses (fin sp) hi).length ∧
        dic.head? = some (inp.dic_start * fin 1e6) ∧
        List.IsChain (StepBalance k inp.analyte_mass (loss_step_tm inp))
          (lossRows (fittedMasses (fin sp) hi) dic del) ∧
        (k = hi.k_dic_loss → hi.dic.take (fittedMasses (fin sp) hi).length = dic) := by
  obtain ⟨top, htop, hdel⟩ := delta_measured hR
  unfold get_dic_loss_hires at h
  simp only [bind_ok_iff] at h
  obtain ⟨ds, hds, ms, hms, pH, hpH, y, hy, idl, hidl, fp, hfp, last, hlast, start, _, k, hk, idic,
    hidic, d0, hd0, c0, hc0, fs, hfs, h⟩ := h
  obtain rfl := Except.ok.inj h
  rw [hdel] at hds
  obtain rfl := Except.ok.inj hds
  simp only [hR.split_pH] at *
  simp only [fittedMasses]
  set im := mask (pH.map fun p => (fin sp).le p) ms with him
  have hyl := hr _ _ _ _ hy
  have hdl := hr _ _ _ _ hidl
  have hne : im ≠ [] := by
    intro h0; rw [h0] at hlast; cases hlast
  have hfit : ∀ k, ∃ dic, dic_loss_model_fitted k im idl inp.dic_start inp.analyte_mass
      (loss_step_tm inp) = .ok dic := fun k => loss_fill_ok _ _ _ _ _ _ hne hdl
  have hil := (loss_fill_rows hidic).1
  refine ⟨_, idl, y, top, hk, htop, hyl, ?_, ?_, ?_⟩
  · rw [← hdl, List.take_left']
    rfl
  · intro i j m d e h1 h2 h3 h4
    rw [hR.titrant_mass] at hy hidl
    rw [hR.dic_loss, zeroNaN_measured] at hy
    constructor
    · exact hn _ _ _ _ hR.sorted (by simp [hR.len_D]) hy i j m _ h1 (by simp [h2]) h4
    · exact hn _ _ _ _ hR.sorted (by simp [hR.len_F]) hidl i j m _ h1 (by simp [h3]) h4
  · intro k'
    obtain ⟨dic, hd⟩ := hfit k'
    obtain ⟨g1, g2, g3⟩ := loss_fill_rows hd
    refine ⟨dic, ?_, by omega, g2, g3 hdl, ?_⟩
    · unfold lsqfun_dic_loss_model
      rw [hd, bind_ok, sub_arrays, if_pos (by omega)]
    · rintro rfl
      rw [hd] at hidic
      obtain rfl := Except.ok.inj hidic
      rw [List.take_left' (by omega)]

/-- **C85**: at a titration point that is a row of the table, the returned DIC is the row's in mol/kg
and the returned fCO2 is the row's excess plus the air's; elsewhere they are interpolated. The returned
rate is the table's, and the points marked as fitted are those not below the split. -/
theorem C85_points {lib : LossLib} (hn : lib.ThroughNodes) {inp : LossIn}
    {hi : LossHires} {ms ds es : List ℝ} {air : ℝ} (ha : inp.fCO2_air = fin air)
    (h : get_dic_loss_hires lib inp = .ok hi) (hm : hi.titrant_mass = ms.map fin)
    (hd : hi.dic = ds.map fin) (he : hi.delta_fCO2 = es.map fin) (hs : ms.Pairwise (· < ·))
    (hl1 : ms.length = ds.length) (hl2 : ms.length = es.length)
    {k : Flt} {dic fCO2 : List Flt} {fitted : List Bool}
    (h' : get_dic_loss lib inp = .ok (k, dic, fCO2, fitted)) :
    k = hi.k_dic_loss ∧
    (∀ (i j : ℕ) (m d e : ℝ), inp.titrant_mass[i]? = some (fin m) → ms[j]? = some m →
      ds[j]? = some d → es[j]? = some e →
      dic[i]? = some (fin (d * 1e-6)) ∧ fCO2[i]? = some (fin (e + air))) ∧
    fitted = inp.pH.map fun p => inp.split_pH.le p := by
  unfold get_dic_loss at h'
  rw [h, bind_ok] at h'
  simp only [bind_ok_iff] at h'
  obtain ⟨c, hc, x, hx, h'⟩ := h'
  obtain ⟨rfl, rfl, rfl, rfl⟩ : _ ∧ _ ∧ _ ∧ _ := by simpa [Prod.mk.injEq, eq_comm] using Except.ok.inj h'
  refine ⟨rfl, ?_, rfl⟩
  intro i j m d e h1 h2 h3 h4
  rw [hm, hd] at hc
  rw [hm, he] at hx
  have g1 := hn _ _ _ _ hs hl1 hc j i m d h2 h3 h1
  have g2 := hn _ _ _ _ hs hl2 hx j i m e h2 h4 h1
  constructor
  · simp [g1]
  · simp [g2, ha]

/-! ### The table is made of real numbers -/

/-- Assumption on scipy: on real data with increasing nodes and between the nodes, the (monotone)
interpolant is real and stays within the range of the data. -/
def LossLib.Within (lib : LossLib) : Prop :=
  ∀ (xi yi xs : List ℝ) (ys : List Flt) (lo hi : ℝ), xi.Pairwise (· < ·) → xi.length = yi.length →
    (∀ x ∈ xs, ∃ a ∈ xi, ∃ b ∈ xi, a ≤ x ∧ x ≤ b) → (∀ y ∈ yi, lo ≤ y ∧ y ≤ hi) →
    lib.pchip (xi.map fin) (yi.map fin) (xs.map fin) = .ok ys →
    ∃ zs : List ℝ, ys = zs.map fin ∧ ∀ z ∈ zs, lo ≤ z ∧ z ≤ hi

theorem list_bounded (ys : List ℝ) : ∃ lo hi, ∀ y ∈ ys, lo ≤ y ∧ y ≤ hi := by
  induction ys with
  | nil => exact ⟨0, 0, by simp⟩
  | cons a ys ih =>
    obtain ⟨lo, hi, h⟩ := ih
    refine ⟨min a lo, max a hi, ?_⟩
    intro y hy
    rcases List.mem_cons.mp hy with rfl | hy
    · exact ⟨min_le_left _ _, le_max_left _ _⟩
    · exact ⟨(min_le_right _ _).trans (h y hy).1, (h y hy).2.trans (le_max_right _ _)⟩

theorem list_bounded_pos (ys : List ℝ) (hp : ∀ y ∈ ys, 0 < y) :
    ∃ lo hi, 0 < lo ∧ ∀ y ∈ ys, lo ≤ y ∧ y ≤ hi := by
  obtain ⟨_, hi, h⟩ := list_bounded ys
  obtain ⟨lo, h0, hlo⟩ : ∃ lo, 0 < lo ∧ ∀ y ∈ ys, lo ≤ y := by
    clear h
    induction ys with
    | nil => exact ⟨1, one_pos, by simp⟩
    | cons a ys ih =>
      obtain ⟨lo, h0, h⟩ := ih fun y hy => hp y (List.mem_cons_of_mem _ hy)
      refine ⟨min a lo, lt_min (hp a List.mem_cons_self) h0, ?_⟩
      intro y hy
      rcases List.mem_cons.mp hy with rfl | hy
      · exact min_le_left _ _
      · exact (min_le_right _ _).trans (h y hy)
  exact ⟨lo, hi, h0, fun y hy => ⟨hlo y hy, (h y hy).2⟩⟩

/-- a point of the forecast with a real pH and positive constants -/
def RealPoint (p : LossPoint) : Prop :=
  ∃ pH k0 k1 k2 : ℝ, p = { pH := fin pH, k0 := fin k0, k1 := fin k1, k2 := fin k2 } ∧
    0 < k0 ∧ 0 < k1 ∧ 0 < k2

theorem delta_fCO2_real {air dic : ℝ} {p : LossPoint} (hp : RealPoint p) :
    ∃ e : ℝ, delta_fCO2 (fin air) (fin dic) p = fin e := by
  obtain ⟨pH, k0, k1, k2, rfl, h0, h1, h2⟩ := hp
  unfold delta_fCO2
  rw [fCO2_eq h0 h1 h2]
  exact ⟨_, rfl⟩

theorem forecast_fill_real {k M s air : ℝ} (hs : 0 < s) (hM : 0 < M) :
    ∀ (masses : List ℝ) (points : List LossPoint) (dic delta : ℝ), (∀ m ∈ masses, 0 ≤ m) →
      (∀ p ∈ points, RealPoint p) →
      ∃ ds es : List ℝ,
        (forecast_fill (fin k) (fin M) (fin s) (fin air) (fin dic) (fin delta) (masses.map fin)
          points).map Prod.fst = ds.map fin ∧
        (forecast_fill (fin k) (fin M) (fin s) (fin air) (fin dic) (fin delta) (masses.map fin)
          points).map Prod.snd = es.map fin
  | m :: m' :: ms, p :: p' :: ps, dic, delta, hm, hp => by
    have h0 : M + m + s ≠ 0 := by
      have := hm m List.mem_cons_self
      positivity
    obtain ⟨e, he⟩ := delta_fCO2_real (air := air)
      (dic := dic * ((M + m) / (M + m + s)) - k * delta * s) (hp p' (by simp))
    obtain ⟨ds, es, h1, h2⟩ := forecast_fill_real (k := k) (air := air) hs hM (m' :: ms) (p' :: ps)
      (dic * ((M + m) / (M + m + s)) - k * delta * s) e (fun x hx => hm x (List.mem_cons_of_mem _ hx))
      (fun x hx => hp x (List.mem_cons_of_mem _ hx))
    refine ⟨dic :: ds, delta :: es, ?_, ?_⟩
    all_goals
      simp only [List.map_cons, forecast_fill, loss_step, dilution_fin h0, mul_fin, sub_fin, he]
      simp only [List.map_cons] at h1 h2
      simp only [h1, h2]
  | [], ps, dic, delta, _, _ => ⟨[dic], [delta], by simp [forecast_fill], by simp [forecast_fill]⟩
  | [m], ps, dic, delta, _, _ => ⟨[dic], [delta], by simp [forecast_fill], by simp [forecast_fill]⟩
  | m :: m' :: ms, [], dic, delta, _, _ =>
    ⟨[dic], [delta], by simp [forecast_fill], by simp [forecast_fill]⟩
  | m :: m' :: ms, [p], dic, delta, _, _ =>
    ⟨[dic], [delta], by simp [forecast_fill], by simp [forecast_fill]⟩

theorem loss_masses_real {inp : LossIn} {tm : List ℝ} {ms : List Flt}
    (ht : inp.titrant_mass = tm.map fin) (ht0 : tm[0]? = some 0) (h : loss_masses inp = .ok ms)
    (hne : ms ≠ []) :
    ∃ b s : ℝ, b ∈ tm ∧ 0 < s ∧ loss_step_tm inp = fin s ∧ 0 < ⌈b / s⌉₊ ∧
      ms = ((List.range ⌈b / s⌉₊).map fun i : ℕ => (i * s : ℝ)).map fin ∧
      ((List.range ⌈b / s⌉₊).map fun i : ℕ => (i * s : ℝ)).Pairwise (· < ·) ∧
      ∀ m ∈ (List.range ⌈b / s⌉₊).map fun i : ℕ => (i * s : ℝ), 0 ≤ m ∧ m ≤ b := by
  have h0 : (0 : ℝ) ∈ tm := List.mem_of_getElem? ht0
  obtain ⟨b, hbm, hm, hmx⟩ := npMax_fin (List.ne_nil_of_mem h0)
  have hbpos : 0 ≤ b := hm 0 h0
  unfold loss_masses at h
  rw [ht, hmx, bind_ok] at h
  unfold npArange0 at h
  split at h
  swap
  · cases h
  rename_i b' s hb' hs
  obtain rfl := Flt.fin.inj hb'
  split at h
  · cases h
  have h := (Except.ok.inj h).symm
  have hceil : 0 < ⌈b / s⌉₊ := by
    by_contra hcon
    apply hne
    rw [h, Nat.eq_zero_of_not_pos hcon]
    rfl
  have hspos : 0 < s := by
    have hc := hceil
    rw [Nat.ceil_pos] at hc
    by_contra hcon
    have := div_nonpos_of_nonneg_of_nonpos hbpos (not_lt.mp hcon)
    linarith
  refine ⟨b, s, hbm, hspos, hs, hceil, by rw [h, List.map_map]; rfl, ?_, ?_⟩
  · rw [List.pairwise_map]
    apply List.Pairwise.imp _ (List.pairwise_lt_range)
    intro i j hij
    exact mul_lt_mul_of_pos_right (by exact_mod_cast hij) hspos
  · intro m hm
    obtain ⟨i, hi, rfl⟩ := List.mem_map.mp hm
    have hi := Nat.lt_ceil.mp (List.mem_range.mp hi)
    exact ⟨by positivity, ((lt_div_iff₀ hspos).mp hi).le⟩

/-- equilibrium constants and settings for which the loss model makes sense -/
structure RealLossConsts (inp : LossIn) (n : ℕ) (M c0 : ℝ) : Prop where
  k_CO2 : ∃ ks : List ℝ, inp.k_CO2 = ks.map fin ∧ ks.length = n ∧ ∀ k ∈ ks, 0 < k
  k_carbonic_1 : ∃ ks : List ℝ, inp.k_carbonic_1 = ks.map fin ∧ ks.length = n ∧ ∀ k ∈ ks, 0 < k
  k_carbonic_2 : ∃ ks : List ℝ, inp.k_carbonic_2 = ks.map fin ∧ ks.length = n ∧ ∀ k ∈ ks, 0 < k
  analyte_mass : inp.analyte_mass = fin M
  analyte_pos : 0 < M
  dic_start : inp.dic_start = fin c0

theorem lossPoints_real {a b c d : List ℝ} (hb : ∀ x ∈ b, 0 < x) (hc : ∀ x ∈ c, 0 < x)
    (hd : ∀ x ∈ d, 0 < x) :
    ∀ p ∈ lossPoints (a.map fin) (b.map fin) (c.map fin) (d.map fin), RealPoint p := by
  intro p hp
  unfold lossPoints at hp
  rw [List.zip_map, List.zip_map, List.zipWith_map] at hp
  rw [← List.map_uncurry_zip_eq_zipWith] at hp
  obtain ⟨⟨⟨x, y⟩, ⟨z, w⟩⟩, hm, rfl⟩ := List.mem_map.mp hp
  obtain ⟨h1, h2⟩ := List.of_mem_zip hm
  exact ⟨x, y, z, w, rfl, hb _ (List.of_mem_zip h1).2, hc _ (List.of_mem_zip h2).1,
    hd _ (List.of_mem_zip h2).2⟩

/-- **C85**: for real measurements that start with no titrant, with positive equilibrium constants
and sample mass, every entry of the table is a real number. -/
theorem C85_real {lib : LossLib} (hr : lib.Regular) (hw : lib.Within) {inp : LossIn}
    {hi : LossHires} {tm ph : List ℝ} {D F : List (Option ℝ)} {sp air M c0 k : ℝ}
    (hR : RealLoss inp tm ph D F sp air) (hC : RealLossConsts inp tm.length M c0)
    (ht0 : tm[0]? = some 0) (h : get_dic_loss_hires lib inp = .ok hi)
    (hk : hi.k_dic_loss = fin k) :
    ∃ ms ps ds es : List ℝ, hi.titrant_mass = ms.map fin ∧ hi.pH = ps.map fin ∧
      hi.dic = ds.map fin ∧ hi.delta_fCO2 = es.map fin ∧ ms.Pairwise (· < ·) ∧
      ms.length = ps.length ∧ ms.length = ds.length ∧ ms.length = es.length := by
  have hlen := C75_length hr (by rw [hR.split_pH]; rfl) h
  obtain ⟨top, htop, hdel⟩ := delta_measured hR
  unfold get_dic_loss_hires at h
  simp only [bind_ok_iff] at h
  obtain ⟨ds, hds, ms, hms, pH, hpH, y, hy, idl, hidl, fp, hfp, last, hlast, start, hst, k', hk', idic,
    hidic, d0, hd0, c0', hc0, fs, hfs, h⟩ := h
  obtain rfl := Except.ok.inj h
  rw [hdel] at hds
  obtain rfl := Except.ok.inj hds
  simp only at hk hlen
  subst hk
  have hmne : ms ≠ [] := by
    rintro rfl
    simp [mask] at hlast
    cases hlast
  obtain ⟨b, s, hbm, hs, hstep, hceil, hmsr, hsort, hrange⟩ :=
    loss_masses_real hR.titrant_mass ht0 hms hmne
  generalize hmr : (List.range ⌈b / s⌉₊).map (fun i : ℕ => (i * s : ℝ)) = mr at hmsr hsort hrange
  have h0m : (0 : ℝ) ∈ tm := List.mem_of_getElem? ht0
  -- interpolation of real data at some of the masses
  have interp : ∀ (u : List Bool) (yi : List ℝ) (ys : List Flt) (lo hi : ℝ), tm.length = yi.length →
      (∀ y ∈ yi, lo ≤ y ∧ y ≤ hi) →
      lib.pchip (tm.map fin) (yi.map fin) ((mask u mr).map fin) = .ok ys →
      ∃ zs : List ℝ, ys = zs.map fin ∧ ∀ z ∈ zs, lo ≤ z ∧ z ≤ hi := by
    intro u yi ys lo hi hl hb hp
    refine hw _ _ _ _ lo hi hR.sorted hl ?_ hb hp
    intro x hx
    exact ⟨0, h0m, b, hbm, hrange x (mem_of_mem_mask hx)⟩
  have interp1 : ∀ (x : ℝ), x ∈ mr → ∀ (yi : List ℝ) (y : Flt) (lo hi : ℝ), tm.length = yi.length →
      (∀ y ∈ yi, lo ≤ y ∧ y ≤ hi) → lib.pchip1 (tm.map fin) (yi.map fin) (fin x) = .ok y →
      ∃ z : ℝ, y = fin z ∧ lo ≤ z ∧ z ≤ hi := by
    intro x hx yi y lo hi hl hb hp
    unfold LossLib.pchip1 at hp
    obtain ⟨ys, h1, h2⟩ := bind_ok_iff.mp hp
    obtain rfl := Except.ok.inj h2
    have hl' := hr _ _ _ _ h1
    obtain ⟨zs, rfl, hz⟩ := hw _ _ [x] _ lo hi hR.sorted hl
      (by intro x' hx'; obtain rfl := List.mem_singleton.mp hx'; exact ⟨0, h0m, b, hbm, hrange x' hx⟩)
      hb h1
    match zs, hl' with
    | [z], _ => exact ⟨z, rfl, hz z (by simp)⟩
  obtain ⟨k0s, e0, l0, p0⟩ := hC.k_CO2
  obtain ⟨k1s, e1, l1, p1⟩ := hC.k_carbonic_1
  obtain ⟨k2s, e2, l2, p2⟩ := hC.k_carbonic_2
  obtain ⟨lo0, hi0, q0, b0⟩ := list_bounded_pos _ p0
  obtain ⟨lo1, hi1, q1, b1⟩ := list_bounded_pos _ p1
  obtain ⟨lo2, hi2, q2, b2⟩ := list_bounded_pos _ p2
  obtain ⟨lop, hip, bp⟩ := list_bounded ph
  obtain ⟨lod, hid, bd⟩ := list_bounded (F.map fun o => o.getD top - air)
  simp only [hR.titrant_mass, hR.pH, hR.split_pH, hmsr, mask_map, hstep] at *
  -- the pH
  obtain ⟨ps, rfl, -⟩ : ∃ zs : List ℝ, pH = zs.map fin ∧ ∀ z ∈ zs, lop ≤ z ∧ z ≤ hip :=
    hw _ _ _ _ lop hip hR.sorted hR.len_pH (fun x hx => ⟨0, h0m, b, hbm, hrange x hx⟩) bp hpH
  -- the fitted part
  obtain ⟨ids, rfl, -⟩ := interp _ _ _ lod hid (by simp [hR.len_F]) bd hidl
  have hil := hr _ _ _ _ hidl
  rw [List.length_map, List.length_map] at hil
  have hne : ids ≠ [] := by
    rintro rfl
    cases hd0
  rw [hC.analyte_mass, hC.dic_start, fitted_eq k M s c0 _ ids (by omega) hne (by
    intro m hm
    have := (hrange m (mem_of_mem_mask hm)).1
    have := hC.analyte_pos
    positivity)] at hidic
  obtain rfl := Except.ok.inj hidic
  -- the forecast
  have hpts : ∀ p ∈ fp, RealPoint p := by
    unfold loss_points at hfp
    simp only [bind_ok_iff, hR.titrant_mass, hR.pH, e0, e1, e2] at hfp
    obtain ⟨a, ha, b', hb', c, hc, d, hd, hfp⟩ := hfp
    obtain rfl := Except.ok.inj hfp
    obtain ⟨za, rfl, -⟩ := interp _ _ _ lop hip hR.len_pH bp ha
    obtain ⟨z0, rfl, g0⟩ := interp _ _ _ lo0 hi0 l0.symm b0 hb'
    obtain ⟨z1, rfl, g1⟩ := interp _ _ _ lo1 hi1 l1.symm b1 hc
    obtain ⟨z2, rfl, g2⟩ := interp _ _ _ lo2 hi2 l2.symm b2 hd
    exact lossPoints_real (fun x hx => q0.trans_le (g0 x hx).1) (fun x hx => q1.trans_le (g1 x hx).1)
      (fun x hx => q2.trans_le (g2 x hx).1)
  have hstart : RealPoint start := by
    rw [pyLast_iff, List.getLast?_map] at hlast
    obtain ⟨x, hx, rfl⟩ := Option.map_eq_some_iff.mp hlast
    have hx : x ∈ mr := mem_of_mem_mask (List.mem_of_getLast? hx)
    unfold loss_start at hst
    simp only [bind_ok_iff, hR.titrant_mass, hR.pH, e0, e1, e2] at hst
    obtain ⟨a, ha, b', hb', c, hc, d, hd, hst⟩ := hst
    obtain rfl := Except.ok.inj hst
    obtain ⟨za, rfl, -⟩ := interp1 x hx _ _ lop hip hR.len_pH bp ha
    obtain ⟨z0, rfl, g0⟩ := interp1 x hx _ _ lo0 hi0 l0.symm b0 hb'
    obtain ⟨z1, rfl, g1⟩ := interp1 x hx _ _ lo1 hi1 l1.symm b1 hc
    obtain ⟨z2, rfl, g2⟩ := interp1 x hx _ _ lo2 hi2 l2.symm b2 hd
    exact ⟨za, z0, z1, z2, rfl, q0.trans_le g0.1, q1.trans_le g1.1, q2.trans_le g2.1⟩
  rw [pyLast_iff, List.getLast?_map] at hd0 hc0
  obtain ⟨dd, -, rfl⟩ := Option.map_eq_some_iff.mp hd0
  obtain ⟨cc, -, rfl⟩ := Option.map_eq_some_iff.mp hc0
  have hfm : ∀ m ∈ mask ((ps.map fin).map fun p => p.lt (fin sp)) mr, 0 ≤ m :=
    fun m hm => (hrange m (mem_of_mem_mask hm)).1
  generalize hfl : mask ((ps.map fin).map fun p => p.lt (fin sp)) mr = fm at hfs hfm
  match fm, hfs with
  | [], hfs => cases hfs
  | m0 :: fm', hfs =>
    unfold dic_loss_model_future at hfs
    have hpos : M + (m0 - s) + s ≠ 0 := by
      have := hfm m0 List.mem_cons_self
      have := hC.analyte_pos
      have e : M + (m0 - s) + s = M + m0 := by ring
      rw [e]; positivity
    simp only [List.map_cons, hC.analyte_mass, hR.fCO2_air, add_sub_step, dilution_fin hpos, mul_fin,
      sub_fin] at hfs
    obtain ⟨e, he⟩ := delta_fCO2_real (air := air)
      (dic := cc * ((M + (m0 - s)) / (M + (m0 - s) + s)) - k * dd * s) hstart
    rw [he] at hfs
    obtain rfl := Except.ok.inj hfs
    obtain ⟨ds, es, g1, g2⟩ := forecast_fill_real (k := k) (air := air) hs hC.analyte_pos
      (m0 :: fm') fp (cc * ((M + (m0 - s)) / (M + (m0 - s) + s)) - k * dd * s) e hfm hpts
    rw [List.map_cons] at g1 g2
    have hfilter : ((ps.map fin).filter fun p => !p.isNaN) = ps.map fin := by
      rw [List.filter_eq_self]
      intro p hp
      obtain ⟨x, -, rfl⟩ := List.mem_map.mp hp
      rfl
    rw [hfilter, g1, g2] at hlen
    simp only [List.length_map, List.length_append] at hlen
    refine ⟨mr, ps, Spec.dicLoss k M s (c0 * 1e6) (stepsOf (mask ((ps.map fin).map fun p => (fin sp).le p) mr) ids)
      ++ ds, ids ++ es, rfl, rfl, ?_, ?_, hsort, ?_, ?_, ?_⟩
    · rw [List.map_append, ← g1]
    · rw [List.map_append, ← g2]
    · omega
    · rw [List.length_append]; omega
    · rw [List.length_append]; omega

/-- **C85**: if the titration starts with no titrant and not below the split, the first returned DIC is
the starting DIC and the first returned fCO2 is the measured one — the largest one if it is missing. -/
theorem C85_start {lib : LossLib} (hr : lib.Regular) (hn : lib.ThroughNodes) (hw : lib.Within)
    {inp : LossIn} {tm ph : List ℝ} {D F : List (Option ℝ)} {sp air M c0 p0 κ : ℝ}
    {e0 : Option ℝ} (hR : RealLoss inp tm ph D F sp air) (hC : RealLossConsts inp tm.length M c0)
    (ht0 : tm[0]? = some 0) (hp0 : ph[0]? = some p0) (hsp : sp ≤ p0) (he0 : F[0]? = some e0)
    {dic fCO2 : List Flt} {fitted : List Bool}
    (h' : get_dic_loss lib inp = .ok (fin κ, dic, fCO2, fitted)) :
    ∃ top, IsMaxOf top F ∧ dic[0]? = some (fin c0) ∧ fCO2[0]? = some (fin (e0.getD top)) ∧
      fitted[0]? = some true := by
  obtain ⟨hi, h⟩ : ∃ hi, get_dic_loss_hires lib inp = .ok hi := by
    have h := h'
    unfold get_dic_loss at h
    obtain ⟨hi, h, -⟩ := bind_ok_iff.mp h
    exact ⟨hi, h⟩
  have hk : hi.k_dic_loss = fin κ := by
    have h2 := h'
    unfold get_dic_loss at h2
    rw [h, bind_ok] at h2
    simp only [bind_ok_iff] at h2
    obtain ⟨c, hc, x, hx, h2⟩ := h2
    exact congrArg Prod.fst (Except.ok.inj h2)
  have hc0 := hC.dic_start
  obtain ⟨run⟩ := hires_run h
  obtain ⟨mr, ps, ds, es, hm, -, hd, he, hsorted, -, hl1, hl2⟩ := C85_real hr hw hR hC ht0 h hk
  obtain ⟨f, del, obs, top, -, htop, -, hdel, hnode, hmod⟩ := C86_fit hr hn hR h
  obtain ⟨dk, -, hlk, hhead, -, hdk⟩ := hmod hi.k_dic_loss
  have hdk := hdk rfl
  have hne : fittedMasses (fin sp) hi ≠ [] := by
    intro h0
    have hl := run.hlast
    rw [hR.split_pH] at hl
    unfold fittedMasses at h0
    rw [h0] at hl
    cases hl
  have hmne : hi.titrant_mass ≠ [] := by
    intro h0; apply hne; unfold fittedMasses; rw [h0]; simp [mask]
  have hm0 : hi.titrant_mass[0]? = some (fin 0) := by
    obtain ⟨b, s, -, -, -, hceil, hm, -⟩ := loss_masses_real hR.titrant_mass ht0 run.masses hmne
    rw [hm]
    simp [hceil]
  -- the first row belongs to the fitted part
  have hpnode := run.pH
  rw [hR.titrant_mass, hR.pH] at hpnode
  have hpi : hi.pH[0]? = some (fin p0) := hn _ _ _ _ hR.sorted hR.len_pH hpnode 0 0 0 p0 ht0 hp0 hm0
  have hf0 : (fittedMasses (fin sp) hi)[0]? = some (fin 0) := by
    unfold fittedMasses
    match hp : hi.pH, hmm : hi.titrant_mass, hpi, hm0 with
    | p :: pH, m :: ms, hpi, hm0 =>
      simp only [List.getElem?_cons_zero, Option.some.injEq] at hpi hm0
      subst hpi hm0
      rw [List.map_cons, show (fin sp).le (fin p0) = true by simp [Flt.le, hsp], mask_cons_true]
      rfl
  have hposlen : 0 < (fittedMasses (fin sp) hi).length := List.length_pos_iff.mpr hne
  obtain ⟨d0, hd0⟩ : ∃ d0, D[0]? = some d0 := by
    have : 0 < D.length := by
      rw [← hR.len_D]
      by_contra hcon
      rw [List.length_eq_zero_iff.mp (Nat.eq_zero_of_not_pos hcon)] at ht0
      cases ht0
    exact ⟨_, List.getElem?_eq_getElem this⟩
  obtain ⟨-, hdel0⟩ := hnode 0 0 0 d0 e0 ht0 hd0 he0 hf0
  have h1 : hi.dic[0]? = some (fin (c0 * 1e6)) := by
    have : (hi.dic.take (fittedMasses (fin sp) hi).length)[0]? = dk.head? := by
      rw [hdk, List.head?_eq_getElem?]
    rw [List.getElem?_take_of_lt hposlen, hhead, hc0] at this
    exact this
  have h2 : hi.delta_fCO2[0]? = some (fin (e0.getD top - air)) := by
    rw [← hdel, List.getElem?_take_of_lt hposlen] at hdel0
    exact hdel0
  rw [hd] at h1
  rw [he] at h2
  simp only [List.getElem?_map, Option.map_eq_some_iff, fin_inj] at h1 h2
  obtain ⟨x1, h1, rfl⟩ := h1
  obtain ⟨x2, h2, rfl⟩ := h2
  obtain ⟨-, hpts, hfit⟩ := C85_points hn hR.fCO2_air h hm hd he hsorted hl1 hl2 h'
  obtain ⟨g1, g2⟩ := hpts 0 0 0 _ _ (by rw [hR.titrant_mass]; simp [ht0])
    (by simpa [hm] using hm0) h1 h2
  refine ⟨top, htop, ?_, ?_, ?_⟩
  · rw [g1]; congr 2; ring
  · rw [g2]; simp
  · rw [hfit, hR.pH, hR.split_pH]
    simp [hp0, Flt.le, hsp]

/-! ### A case that meets the hypotheses -/

/-- the value at the last node that is not beyond `x` -/
noncomputable def stepAt : List Flt → List Flt → Flt → Flt
  | _ :: x1 :: xi, y0 :: yi, x => if x1.le x then stepAt (x1 :: xi) yi x else y0
  | _, y0 :: _, _ => y0
  | _, [], _ => nan

noncomputable def stepLib : LossLib where
  pchip xi yi x := .ok (x.map (stepAt xi yi))
  lsq _ x0 := .ok x0

theorem stepLib_regular : stepLib.Regular := by
  intro xi yi x ys h
  obtain rfl := Except.ok.inj h
  simp

theorem stepLib_total : stepLib.Total := ⟨fun _ _ _ => ⟨_, rfl⟩, fun _ _ _ => ⟨_, rfl⟩⟩

theorem stepAt_node : ∀ (xi yi : List ℝ), xi.Pairwise (· < ·) → xi.length = yi.length →
    ∀ (i : ℕ) (a b : ℝ), xi[i]? = some a → yi[i]? = some b →
      stepAt (xi.map fin) (yi.map fin) (fin a) = fin b
  | [], _, _, _, _, _, _, h, _ => by simp at h
  | [x], [y], _, _, 0, a, b, _, h2 => by simpa [stepAt] using h2
  | [x], [y], _, _, i + 1, a, b, h, _ => by simp at h
  | x :: x1 :: xi, y :: yi, hs, hl, 0, a, b, h1, h2 => by
    obtain rfl : x = a := by simpa using h1
    obtain rfl : y = b := by simpa using h2
    have hlt : x < x1 := (List.pairwise_cons.mp hs).1 x1 (by simp)
    simp only [List.map_cons, stepAt]
    rw [if_neg (by simp [Flt.le, hlt])]
  | x :: x1 :: xi, y :: yi, hs, hl, i + 1, a, b, h1, h2 => by
    have hs' := (List.pairwise_cons.mp hs).2
    have ih := stepAt_node (x1 :: xi) yi hs' (by simpa using hl) i a b (by simpa using h1)
      (by simpa using h2)
    have hle : x1 ≤ a := by
      have hm : a ∈ x1 :: xi := List.mem_of_getElem? (by simpa using h1)
      rcases List.mem_cons.mp hm with rfl | hm
      · exact le_rfl
      · exact ((List.pairwise_cons.mp hs').1 a hm).le
    simp only [List.map_cons, stepAt]
    rw [if_pos (by simp [Flt.le, hle])]
    exact ih

theorem stepAt_mem : ∀ (xi yi : List ℝ), yi ≠ [] → xi.length = yi.length → ∀ x : Flt,
    ∃ y ∈ yi, stepAt (xi.map fin) (yi.map fin) x = fin y
  | [], [], h, _, _ => absurd rfl h
  | [], _ :: _, _, hl, _ => by simp at hl
  | _ :: _, [], h, _, _ => absurd rfl h
  | [x0], y :: yi, _, _, x => ⟨y, by simp, by simp [stepAt]⟩
  | x0 :: x1 :: xi, [y], _, hl, x => by simp at hl
  | x0 :: x1 :: xi, y :: y1 :: yi, _, hl, x => by
    obtain ⟨z, hz, e⟩ := stepAt_mem (x1 :: xi) (y1 :: yi) (by simp) (by simpa using hl) x
    simp only [List.map_cons, stepAt] at e ⊢
    split
    · exact ⟨z, List.mem_cons_of_mem _ hz, e⟩
    · exact ⟨y, by simp, rfl⟩

theorem stepLib_nodes : stepLib.ThroughNodes := by
  intro xi yi x ys hs hl h i j a b h1 h2 h3
  obtain rfl := Except.ok.inj h
  rw [List.getElem?_map, h3, Option.map_some, stepAt_node xi yi hs hl i a b h1 h2]

theorem stepLib_within : stepLib.Within := by
  intro xi yi xs ys lo hi hs hl hx hb h
  obtain rfl := Except.ok.inj h
  rcases yi with _ | ⟨y, yi⟩
  · obtain rfl := List.length_eq_zero_iff.mp hl
    rcases xs with _ | ⟨x, xs⟩
    · exact ⟨[], rfl, by simp⟩
    · obtain ⟨a, ha, -⟩ := hx x (by simp)
      cases ha
  clear hx
  induction xs with
  | nil => exact ⟨[], rfl, by simp⟩
  | cons x xs ih =>
    obtain ⟨zs, e, hz⟩ := ih rfl
    obtain ⟨z, hzm, ez⟩ := stepAt_mem xi (y :: yi) (by simp) hl (fin x)
    refine ⟨z :: zs, ?_, ?_⟩
    · exact congrArg₂ List.cons ez e
    · intro w hw
      rcases List.mem_cons.mp hw with rfl | hw
      · exact hb _ hzm
      · exact hz w hw

/-- DIC is measured at the first point only, fCO2 at the first two -/
noncomputable def stepIn : LossIn where
  titrant_mass := [fin 0, fin 10, fin 20]
  pH := [fin 8, fin 3, fin 2.9]
  dic_loss := [fin 2000, nan, nan]
  fCO2_loss := [fin 500, fin 700, nan]
  k_CO2 := [fin 0.03, fin 0.03, fin 0.03]
  k_carbonic_1 := [fin 1.4e-6, fin 1.4e-6, fin 1.4e-6]
  k_carbonic_2 := [fin 1.1e-9, fin 1.1e-9, fin 1.1e-9]
  analyte_mass := fin 100
  dic_start := fin 0.002

theorem stepIn_real : RealLoss stepIn [0, 10, 20] [8, 3, 2.9] [some 2000, none, none]
    [some 500, some 700, none] 5.5 450 where
  titrant_mass := rfl
  pH := rfl
  dic_loss := rfl
  fCO2_loss := rfl
  split_pH := rfl
  fCO2_air := rfl
  sorted := by simp; norm_num
  len_pH := rfl
  len_D := rfl
  len_F := rfl
  some_F := ⟨500, by simp⟩

theorem stepIn_consts : RealLossConsts stepIn 3 100 0.002 where
  k_CO2 := ⟨[0.03, 0.03, 0.03], rfl, rfl, by simp; norm_num⟩
  k_carbonic_1 := ⟨[1.4e-6, 1.4e-6, 1.4e-6], rfl, rfl, by simp; norm_num⟩
  k_carbonic_2 := ⟨[1.1e-9, 1.1e-9, 1.1e-9], rfl, rfl, by simp; norm_num⟩
  analyte_mass := rfl
  analyte_pos := by norm_num
  dic_start := rfl

theorem stepIn_masses :
    loss_masses stepIn = .ok ((List.range 20).map fun i : ℕ => fin (i * 1)) := by
  have h1 : npMax stepIn.titrant_mass = .ok (fin 20) := by
    simp [npMax, stepIn, fmax2]; norm_num
  have h2 : loss_step_tm stepIn = fin 1 := by
    have : npMedian (npDiff stepIn.titrant_mass) = fin 10 := by
      simp [npDiff, stepIn, npMedian, List.mergeSort]
      norm_num [div_fin]
    unfold loss_step_tm
    rw [this, div_fin _ _ (by norm_num)]
    congr 1; norm_num
  have h3 : ⌈(20:ℝ) / 1⌉₊ = 20 := by
    rw [show (20:ℝ) / 1 = (20:ℕ) by norm_num, Nat.ceil_natCast]
  unfold loss_masses
  rw [h1, bind_ok, h2, npArange0, if_neg (by norm_num), h3]

theorem stepIn_runs : ∃ hi, get_dic_loss_hires stepLib stepIn = .ok hi ∧ hi.k_dic_loss = fin 1 := by
  have hne : stepIn.fCO2_loss ≠ [] := by simp [stepIn]
  have hsplit : stepIn.split_pH = fin 5.5 := rfl
  rcases hires_cases stepLib_regular stepLib_total hne stepIn_masses rfl with
    ⟨h, _⟩ | ⟨_, hi, hhi', _⟩
  · exfalso
    rw [mask_map_nil_iff (by simp), mask_map_nil_iff (by simp)] at h
    have h8 : fin 8 ∈ ((List.range 20).map fun i : ℕ => fin (i * 1)).map
        (stepAt stepIn.titrant_mass stepIn.pH) := by
      refine List.mem_map.mpr ⟨fin 0, List.mem_map.mpr ⟨0, by simp, by simp⟩, ?_⟩
      simp [stepIn, stepAt, Flt.le]
    have h3 : fin 3 ∈ ((List.range 20).map fun i : ℕ => fin (i * 1)).map
        (stepAt stepIn.titrant_mass stepIn.pH) := by
      refine List.mem_map.mpr ⟨fin 10, List.mem_map.mpr ⟨10, by simp, by simp⟩, ?_⟩
      simp [stepIn, stepAt, Flt.le]; norm_num
    rcases h with h | h
    · have := h _ h8
      simp [hsplit, Flt.le] at this
      norm_num at this
    · have := h _ h3
      simp [hsplit, Flt.lt] at this
      norm_num at this
  · refine ⟨hi, hhi', ?_⟩
    unfold get_dic_loss_hires at hhi'
    simp only [bind_ok_iff] at hhi'
    obtain ⟨_, _, _, _, _, _, _, _, _, _, _, _, _, _, _, _, k, hk, _, _, _, _, _, _, _, _, h⟩ := hhi'
    obtain rfl := Except.ok.inj h
    exact (Except.ok.inj hk).symm

/-- the first DIC is 0.002 mol/kg and the first fCO2 500 µatm -/
example : ∃ dic fCO2 fitted, get_dic_loss stepLib stepIn = .ok (fin 1, dic, fCO2, fitted) ∧
    dic[0]? = some (fin 0.002) ∧ fCO2[0]? = some (fin 500) ∧ fitted[0]? = some true := by
  obtain ⟨hi, h, hk⟩ := stepIn_runs
  have hr : ∃ dic fCO2 fitted, get_dic_loss stepLib stepIn = .ok (fin 1, dic, fCO2, fitted) := by
    unfold get_dic_loss
    rw [h, bind_ok, ← hk]
    exact ⟨_, _, _, rfl⟩
  obtain ⟨dic, fCO2, fitted, hg⟩ := hr
  obtain ⟨top, -, h1, h2, h3⟩ := C85_start stepLib_regular stepLib_nodes stepLib_within stepIn_real
    stepIn_consts (p0 := 8) (e0 := some 500) rfl rfl (by norm_num) rfl hg
  exact ⟨dic, fCO2, fitted, hg, h1, by simpa using h2, h3⟩

/-- the missing fCO2 is filled with 700, and the data of the first point enter the fit -/
example : ∃ (hi : LossHires) (obs del : List Flt), get_dic_loss_hires stepLib stepIn = .ok hi ∧
    (∀ j : ℕ, (fittedMasses (fin 5.5) hi)[j]? = some (fin 0) → obs[j]? = some (fin 2000) ∧
      del[j]? = some (fin (500 - 450))) := by
  obtain ⟨hi, h, -⟩ := stepIn_runs
  obtain ⟨f, del, obs, top, -, -, -, -, hn, -⟩ := C86_fit stepLib_regular stepLib_nodes stepIn_real h
  exact ⟨hi, obs, del, h, fun j hj => hn 0 j 0 (some 2000) (some 500) rfl rfl rfl hj⟩

end Calk
