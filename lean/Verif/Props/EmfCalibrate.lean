import Verif.Props.EmfMolinity
import Verif.Props.FileCalibrate

/-!
# Property C130: EMF-mode calibration finds the acid

With an exact titration, an EMF-mode calibration against the true alkalinity that reaches zero residual
finds the molinity of the (hydrochloric or sulfuric) acid, and the solve with it the true EMF0.
-/

namespace Calk
open Flt Spec

/-- what of a point does not follow a factor `k` in molinity, per unit of `|k - 1|`: the other bases, and
the sulfate and fluoride that are already taken up (of the acid's own sulfate: what is still to be taken up) -/
noncomputable def Spec.leftover (x K : String → ℝ) (c g M E k : ℝ) (p : ℝ × ℝ × ℝ) : ℝ :=
  let s := mixture x K p.1 M 0 0
  let h := readAcidity E p
  s.others.buffering (min h (k * h)) * h + |s.others.alk 3 h + h|
    + k * (s.ts * (h ^ 2 / ((s.ks + h) * (s.ks + k * h))) + s.tf * (h ^ 2 / ((s.kf + h) * (s.kf + k * h))))
    + k * (acidSulfate c g M p * (s.ks * h / ((s.ks + h) * (s.ks + k * h))))

theorem acid_scaled {T K h k : ℝ} (hK : 0 < K) (hh : 0 < h) (hk : 0 < k) :
    acid T K (k * h) - k * acid T K h = -((k - 1) * (k * (T * (h ^ 2 / ((K + h) * (K + k * h)))))) := by
  have h1 : 0 < K + h := by positivity
  have h2 : 0 < K + k * h := by positivity
  unfold acid
  field_simp
  ring

theorem alk_leftover {s : Sol} (hv : s.Valid) {h k : ℝ} (hh : 0 < h) (hk : 0 < k) :
    |s.alk 3 (k * h) - k * s.alk 3 h| ≤ |k - 1| * (s.others.buffering (min h (k * h)) * h
      + |s.others.alk 3 h + h|
      + k * (s.ts * (h ^ 2 / ((s.ks + h) * (s.ks + k * h))) + s.tf * (h ^ 2 / ((s.kf + h) * (s.kf + k * h))))) := by
  have hv' : s.others.Valid := { hv with ts := le_rfl, tf := le_rfl }
  have hkh : 0 < k * h := mul_pos hk hh
  have key := alk_scaled hv' (k := k) (lt_min hh hkh) (min_le_left h (k * h)) (min_le_right h (k * h))
  have e := alk_others s
  have a1 := acid_scaled (T := s.ts) hv.ks hh hk
  have a2 := acid_scaled (T := s.tf) hv.kf hh hk
  set u := s.ts * (h ^ 2 / ((s.ks + h) * (s.ks + k * h))) with hu
  set v := s.tf * (h ^ 2 / ((s.kf + h) * (s.kf + k * h))) with hw
  have hks := hv.ks
  have hkf := hv.kf
  have u0 : 0 ≤ u := mul_nonneg hv.ts (by positivity)
  have v0 : 0 ≤ v := mul_nonneg hv.tf (by positivity)
  have e' : s.alk 3 (k * h) - k * s.alk 3 h
      = (s.others.alk 3 (k * h) - k * s.others.alk 3 h) + (k - 1) * (k * (u + v)) := by
    rw [e, e]
    linear_combination -a1 - a2
  rw [e']
  refine (abs_add_le _ _).trans ?_
  rw [abs_mul, abs_of_nonneg (mul_nonneg hk.le (add_nonneg u0 v0)), mul_add |k - 1|]
  exact add_le_add key le_rfl

theorem mix_leftover {x K : String → ℝ} {c g M E k : ℝ} {p : ℝ × ℝ × ℝ} (hM : 0 < M) (hp : 0 ≤ p.1) (hcg : 0 ≤ c * g)
    (hv : (mixture x K p.1 M 0 0).Valid) (hk : 0 < k) :
    |(mixture x K p.1 M (k * c) g).alk 3 (k * readAcidity E p) - k * (mixture x K p.1 M c g).alk 3 (readAcidity E p)|
      ≤ |k - 1| * leftover x K c g M E k p := by
  have hh : 0 < readAcidity E p := Real.exp_pos _
  have key := alk_leftover hv hh hk
  have hks : 0 < K "k_bisulfate" := hv.ks
  have hT : 0 ≤ acidSulfate c g M p := by
    unfold acidSulfate
    rw [mul_assoc]
    positivity
  have e4 : (mixture x K p.1 M 0 0).ks = K "k_bisulfate" := rfl
  unfold leftover
  dsimp only
  rw [mul_add |k - 1|, mixture_sulfate x K (k * c), mixture_sulfate x K c, e4]
  rw [e4] at key
  set h := readAcidity E p
  set T := acidSulfate c g M p with hTd
  set Ks := K "k_bisulfate"
  have e0 : acidSulfate (k * c) g M p = k * T := by rw [hTd]; unfold acidSulfate; ring
  have e : (mixture x K p.1 M 0 0).alk 3 (k * h) - acid (acidSulfate (k * c) g M p) Ks (k * h)
        - k * ((mixture x K p.1 M 0 0).alk 3 h - acid T Ks h)
      = ((mixture x K p.1 M 0 0).alk 3 (k * h) - k * (mixture x K p.1 M 0 0).alk 3 h)
        + -((k - 1) * (k * (T * (Ks * h / ((Ks + h) * (Ks + k * h)))))) := by
    have h1 : 0 < Ks + h := by positivity
    have h2 : 0 < Ks + k * h := by positivity
    rw [e0]
    unfold acid
    field_simp
    ring
  rw [e]
  refine (abs_add_le _ _).trans (add_le_add key ?_)
  rw [abs_neg, abs_mul, abs_of_nonneg (a := k * _) (by positivity)]

/-- **C130**: an EMF-mode calibration of an exact titration (charge balance at every point used, for the
alkalinity `A`, molinity `c` and EMF0 `E`; one temperature) with hydrochloric or sulfuric acid, against the
true alkalinity, that ends with zero residual finds the molinity, and the solve with it the EMF0 - as long as
what is left of other bases at the points used is small next to the alkalinity. -/
theorem C130_recovers (w : World) (f : String) (S : Flt) (kw : Dict Val) (x K : String → ℝ)
    (c c' n g M : ℝ) (pts : List (ℝ × ℝ × ℝ)) (h : EmfRun w f S kw x K c' n g M pts) (hc : 0 < c) (hc' : 0 < c')
    (hmin : LsGlobalMin w.ls) (A E t least B : ℝ)
    (hreg : Regular w f S kw) (hgl : kw.get? "gran_logic" = none) (res : LsqResult Flt)
    (hcal : files_calibrate w f (fin (1e6 * A)) S kw = .ok res) (hz : res.fun_ = [fin 0]) (hxc : res.x = fin c')
    (sr : SolveEmf) (T : List Flt) (hr : files_solve w f (fin c') S kw = .ok (.emf sr T)) (A' E' : ℝ)
    (hx : sr.opt_result.x = (fin A', fin E')) (hl0 : 0 < least)
    (hdata : ∀ p ∈ mask sr.used pts, p.2.2 = t ∧ least ≤ readAcidity E p ∧ least ≤ c' / c * readAcidity E p ∧
      (mixture x K p.1 M c g).alk 3 (readAcidity E p) * (p.1 + M) = A * M - p.1 * c * n)
    (hB : ∀ p ∈ mask sr.used pts, leftover x K c g M E (c' / c) p ≤ B)
    (p q : ℝ × ℝ × ℝ) (hp : p ∈ mask sr.used pts) (hq : q ∈ mask sr.used pts)
    (hl' : least ≤ readAcidity E' p) (hmore : 0 < acidExcess x K c' g M E least p q)
    (hsmall : (p.1 + M) * ((1 + Real.sqrt (mask sr.used pts).length) * B)
      * (1 + (1 + (mixture x K p.1 M c' g).buffering least) * readAcidity E p
        * (((p.1 + M) + (q.1 + M)) / acidExcess x K c' g M E least p q)) < A * M) :
    c' = c ∧ sr.alkalinity = fin (1e6 * A) ∧ sr.emf0 = fin E := by
  set k := c' / c with hkdef
  have hk : 0 < k := div_pos hc' hc
  have hkc : k * c = c' := div_mul_cancel₀ _ hc.ne'
  have hM := h.mass
  have hcg : 0 ≤ c * g := mul_nonneg hc.le (nonneg_of_mul_nonneg_right h.acid hc')
  have hη : ∀ p ∈ mask sr.used pts, |(mixture x K p.1 M (k * c) g).alk 3 (k * readAcidity E p)
      - k * (mixture x K p.1 M c g).alk 3 (readAcidity E p)| ≤ |k - 1| * B := by
    intro p hp
    have hv : (mixture x K p.1 M 0 0).Valid := mixture_valid hM (h.masses p (mask_subset _ _ hp)) (by simp)
      (fun k hk => (h.sample.contents k hk).2) (fun k hk => (h.sample.constants k hk).2)
    exact (mix_leftover hM (h.masses p (mask_subset _ _ hp)) hcg hv hk).trans (mul_le_mul_of_nonneg_left (hB p hp) (abs_nonneg _))
  have hrd : ∀ p ∈ mask sr.used pts, readAcidity (shiftedEmf0 E t k) p = k * readAcidity E p := by
    intro p hp
    rw [← (hdata p hp).1]
    exact read_shifted (h.temps p (mask_subset _ _ hp)) hk
  have hex : acidExcess x K (k * c) g M (shiftedEmf0 E t k) least p q = k * acidExcess x K c' g M E least p q := by
    unfold acidExcess
    rw [hrd p hp, hrd q hq, hkc]
    ring
  obtain ⟨r1, r2, r3, r4⟩ := C124_general w f S kw x K c k n g M pts (by rw [hkc]; exact h) hk hmin sr T
    (by rw [hkc]; exact hr) A E A' E' t least (|k - 1| * B) hx hl0 hdata hη p q hp hq hl' _ _ _ rfl rfl
    (by rw [hex]; exact mul_pos hk hmore) rfl
  obtain ⟨sr', hsr, hsa, -⟩ := C44_file w f (fin (1e6 * A)) S kw res hreg hgl hcal hz
  rw [hxc, hr] at hsr
  obtain rfl := Except.ok.inj hsr
  have hAA : A' = A := by
    have e := Flt.fin.inj (r1.symm.trans hsa)
    linarith
  subst hAA
  have hk1 : k = 1 := by
    by_contra hne
    have hpos : 0 < |k - 1| := abs_pos.mpr (sub_ne_zero.mpr hne)
    unfold acidityOff at r3
    rw [hex, hkc] at r3
    have e1 : |A' - k * A'| = |k - 1| * |A'| := by
      rw [show A' - k * A' = -((k - 1) * A') by ring, abs_neg, abs_mul]
    have hx0 := hmore.ne'
    have e2 : (p.1 + M) * ((1 + Real.sqrt (mask sr.used pts).length) * (|k - 1| * B)
          + (1 + (mixture x K p.1 M c' g).buffering least) * (k * readAcidity E p)
            * (((p.1 + M) + (q.1 + M)) * ((1 + Real.sqrt (mask sr.used pts).length) * (|k - 1| * B))
              / (k * acidExcess x K c' g M E least p q)))
        = |k - 1| * ((p.1 + M) * ((1 + Real.sqrt (mask sr.used pts).length) * B)
          * (1 + (1 + (mixture x K p.1 M c' g).buffering least) * readAcidity E p
            * (((p.1 + M) + (q.1 + M)) / acidExcess x K c' g M E least p q))) := by
      field_simp
    rw [e1, e2, mul_assoc] at r3
    have := le_of_mul_le_mul_left r3 hpos
    have hle : A' * M ≤ |A'| * M := mul_le_mul_of_nonneg_right (le_abs_self _) hM.le
    linarith
  have hcc : c' = c := by rw [← hkc, hk1, one_mul]
  refine ⟨hcc, r1, ?_⟩
  have hoff : acidityOff x K (k * c) g M (shiftedEmf0 E t k) least
      ((1 + Real.sqrt (mask sr.used pts).length) * (|k - 1| * B)) p q = 0 := by
    unfold acidityOff
    rw [hk1, sub_self, abs_zero, zero_mul, mul_zero, mul_zero, zero_div]
  rw [hoff] at r4
  have := r4 one_pos
  rw [zero_div, mul_zero] at this
  have hE := abs_nonpos_iff.mp this
  rw [shiftedEmf0, hk1, Real.log_one, mul_zero, sub_zero] at hE
  rw [r2, sub_eq_zero.mp hE]

/-! ### A case: the titration of C112, with an optimiser that tries the molinity `c` -/

def lsqAt (c : ℝ) : Lsq Flt where
  next _ hist := match hist with
    | [] => some (fin c)
    | _ => none
  finish _ hist := match hist with
    | [] => .error .ValueError
    | p :: _ => if allFinite p.2 then .ok ⟨p.1, p.2⟩ else .error .ValueError
  maxEval := 5

theorem lsqAt_reports (c : ℝ) : ReportsEvaluated (lsqAt c) := by
  intro x0 hist r h
  simp only [lsqAt] at h
  split at h
  · simp at h
  · split at h
    · simp only [Except.ok.injEq] at h; subst h; simp
    · cases h

theorem lsqAt_finite (c : ℝ) : FiniteTrials (lsqAt c) := by
  intro x0 hist x h
  simp only [lsqAt] at h
  split at h
  · exact ⟨_, by simpa using h.symm⟩
  · simp at h

noncomputable def ecWorld : World := { qWorld 400 with opt := lsqAt qAcid }

theorem ec_run : EmfRun ecWorld "a.dat" (fin 35) (qArgs 400) pContents qConstants qAcid 1 0 0.1 (qPts 400) :=
  let h := q_run 400
  { loads := h.loads, keepsTotals := h.keepsTotals, keepsKs := h.keepsKs, sound := h.sound, nodup := h.nodup,
    mode := h.mode, sample := h.sample, sulfate := h.sulfate, no_phosphate := h.no_phosphate,
    no_fluoride := h.no_fluoride, normality := h.normality, mass := h.mass, masses := h.masses,
    temps := h.temps, acid := h.acid }

theorem ec_typed : Typed (qArgs 400) "emf" (fin 0.1) (ttArgs []) := by
  refine ⟨?_, rfl, rfl, ⟨_, rfl⟩⟩
  have : solve_mode (qArgs 400) = .ok (lowerS "emf") := rfl
  rw [this]; decide

theorem ec_regular : Regular ecWorld "a.dat" (fin 35) (qArgs 400) := by
  obtain ⟨totals, ks, h⟩ := q_load 400
  exact ⟨lsqAt_reports _, qCv 400, totals, ks, "emf", fin 0.1, [], h, ec_typed, by decide, rfl, .inl rfl⟩

theorem ec_calibrates : files_calibrate ecWorld "a.dat" (fin (1e6 * qTrue)) (fin 35) (qArgs 400)
    = .ok ⟨fin qAcid, [fin 0]⟩ := by
  obtain ⟨sr, h, hx, hu⟩ := q_solve 400
  obtain ⟨sr', he, hrep⟩ := C112_estimates ecWorld "a.dat" (fin 35) (qArgs 400) pContents qConstants qAcid 1 0 0.1
    (qPts 400) ec_run _ h
  cases he
  obtain ⟨r1, -⟩ := hrep _ _ hx (by rw [hu]; simp)
  obtain ⟨totals, ks, hl⟩ := q_load 400
  have hc := C32_same_solver ecWorld "a.dat" "emf" (fin (1e6 * qTrue)) (fin 35) (fin 0.1) (qArgs 400)
    (qCv 400) totals ks hl ec_typed rfl (by decide) rfl
  have hs : solveRes ecWorld "a.dat" (fin 35) (fin (1e6 * qTrue)) (qArgs 400) (fin qAcid) ()
      = (.ok [fin 0], ()) := by
    have h' : files_solve ecWorld "a.dat" (fin qAcid) (fin 35) (qArgs 400) = _ := h
    simp only [solveRes, h', bind_ok, pure_ok, SolveRes.alkalinity, r1, sub_fin, sub_self, PyS.lift]
  rw [hc]
  show ((lsqAt qAcid).run (solveRes ecWorld "a.dat" (fin 35) (fin (1e6 * qTrue)) (qArgs 400)) (fin 0.1) ()).1 = _
  simp [Lsq.run, Lsq.loop, lsqAt, allFinite, PyS.bind_apply, hs]

theorem ec_leftover_at (E : ℝ) : ∀ p ∈ qPts E, leftover pContents qConstants qAcid 0 0.1 E 1 p ≤ 1.2e-4 := by
  intro p hp
  simp only [qPts, List.mem_cons, List.not_mem_nil, or_false] at hp
  rcases hp with rfl | rfl
  · unfold leftover
    rw [read_nernst _ (by norm_num) (by norm_num)]
    norm_num [Sol.others, Sol.buffering, mono, Sol.alk, carbAlk, phosAlk, base, acid, extraAlk, mixture, mixContent, acidSulfate,
      pContents, qConstants]
    split_ifs <;> norm_num [abs_le, abs_of_pos, abs_of_neg]
  · unfold leftover
    rw [read_nernst _ (by norm_num) (by norm_num)]
    norm_num [Sol.others, Sol.buffering, mono, Sol.alk, carbAlk, phosAlk, base, acid, extraAlk, mixture, mixContent, acidSulfate,
      pContents, qConstants]
    split_ifs <;> norm_num [abs_le, abs_of_pos, abs_of_neg]

theorem ec_leftover : ∀ p ∈ qPts 400, leftover pContents qConstants qAcid 0 0.1 400 1 p ≤ 1.2e-4 :=
  ec_leftover_at 400

theorem ec_true : 5.4e-5 ≤ qTrue * 0.1 := by
  have e : qTrue * 0.1 = 2 * (qAlk 0.001 2e-4 * 0.101) - qAlk 0.002 9e-4 * 0.102 := by
    unfold qTrue qAcid; ring
  rw [e]
  norm_num [qAlk, Sol.alk, carbAlk, phosAlk, base, acid, extraAlk, mixture, mixContent, pContents, qConstants]
  split_ifs <;> norm_num

/-- every hypothesis of `C130_recovers` is met -/
example : ∃ (sr : SolveEmf) (T : List Flt),
    files_solve ecWorld "a.dat" (fin qAcid) (fin 35) (qArgs 400) = .ok (.emf sr T) ∧
    sr.alkalinity = fin (1e6 * qTrue) ∧ sr.emf0 = fin 400 := by
  obtain ⟨sr, h, hx, hu⟩ := q_solve 400
  have hc : 0 < qAcid := by have := wm_acids.1; linarith
  have hm : mask sr.used (qPts 400) = qPts 400 := by rw [hu]; rfl
  set p0 : ℝ × ℝ × ℝ := (0.001, nernst 400 25 2e-4, 25) with hp0
  set p1 : ℝ × ℝ × ℝ := (0.002, nernst 400 25 9e-4, 25) with hp1
  have hlist : qPts 400 = [p0, p1] := rfl
  have hr0 : readAcidity 400 p0 = 2e-4 := read_nernst _ (by norm_num) (by norm_num)
  have hr1 : readAcidity 400 p1 = 9e-4 := read_nernst _ (by norm_num) (by norm_num)
  have hone : qAcid / qAcid = 1 := div_self hc.ne'
  obtain ⟨b0, -, -⟩ := q_buffer (m := 0.001) (lo := 2e-4) (.inl rfl) (by norm_num)
  have b1 : (mixture pContents qConstants 0.001 0.1 qAcid 0).buffering 2e-4 ≤ 0.26 := by
    norm_num [Sol.buffering, mono, mixture, mixContent, pContents, qConstants]
  set b := (mixture pContents qConstants 0.001 0.1 qAcid 0).buffering 2e-4
  have hex : 6.5e-5 ≤ acidExcess pContents qConstants qAcid 0 0.1 400 2e-4 p0 p1 := by
    unfold acidExcess
    rw [hr0, hr1]
    show _ ≤ (0.002 + 0.1) * 9e-4 - (1 + b) * ((0.001 + 0.1) * 2e-4)
    nlinarith
  have hdata : ∀ p ∈ mask sr.used (qPts 400), p.2.2 = 25 ∧ 2e-4 ≤ readAcidity 400 p ∧
      2e-4 ≤ qAcid / qAcid * readAcidity 400 p ∧
      (mixture pContents qConstants p.1 0.1 qAcid 0).alk 3 (readAcidity 400 p) * (p.1 + 0.1)
        = qTrue * 0.1 - p.1 * qAcid * 1 := by
    intro p hp
    rw [hm] at hp
    have h3 := (q_exact 400 p hp).2.2
    rw [hone, one_mul]
    rw [hlist] at hp
    simp only [List.mem_cons, List.not_mem_nil, or_false] at hp
    rcases hp with rfl | rfl
    · exact ⟨rfl, hr0.ge, hr0.ge, h3⟩
    · exact ⟨rfl, by rw [hr1]; norm_num, by rw [hr1]; norm_num, h3⟩
  have hs2 : Real.sqrt 2 ≤ 1.4143 := by
    rw [Real.sqrt_le_left (by norm_num)]; norm_num
  obtain ⟨-, r1, r2⟩ := C130_recovers ecWorld "a.dat" (fin 35) (qArgs 400) pContents qConstants qAcid qAcid 1 0 0.1
    (qPts 400) ec_run hc hc lsExact_contracts.2 qTrue 400 25 2e-4 1.2e-4 ec_regular rfl _ ec_calibrates rfl rfl sr _ h
    _ _ hx (by norm_num) hdata (by rw [hm, hone]; exact ec_leftover) p0 p1 (by rw [hm, hlist]; simp)
    (by rw [hm, hlist]; simp) hr0.ge (by linarith) (by
      rw [hm, hr0]
      refine lt_of_le_of_lt ?_ (lt_of_lt_of_le (by norm_num : (5.3e-5 : ℝ) < 5.4e-5) ec_true)
      have hlen : ((qPts 400).length : ℝ) = 2 := by rw [hlist]; norm_num
      rw [hlen]
      show (0.001 + 0.1) * ((1 + Real.sqrt 2) * 1.2e-4) * (1 + (1 + b) * 2e-4 * (((0.001 + 0.1) + (0.002 + 0.1))
        / acidExcess pContents qConstants qAcid 0 0.1 400 2e-4 p0 p1)) ≤ 5.3e-5
      calc _ ≤ ((0.001 : ℝ) + 0.1) * ((1 + 1.4143) * 1.2e-4) * (1 + (1 + 0.26) * 2e-4 * (((0.001 + 0.1) + (0.002 + 0.1))
            / 6.5e-5)) := by gcongr
        _ ≤ (5.3e-5 : ℝ) := by norm_num)
  exact ⟨sr, _, h, r1, r2⟩

end Calk
