import Verif.Props.EmfErrors

/-!
# Property C124: a wrong molinity in EMF mode

With hydrochloric or sulfuric acid, a molinity off by a factor `k` reads the acidity of every point as `k`
times what it is, for alkalinity `k A` and EMF0 lower by `(R T / F) ln k`; only the bases that are left at the
points used (alkalinity other than hydrogen ion) and the acid's own sulfate do not follow.
-/

namespace Calk
open Flt Spec

/-- alkalinity of the mixture at a point other than that of its hydrogen ion -/
noncomputable def Spec.netBase (x K : String → ℝ) (c g M E : ℝ) (p : ℝ × ℝ × ℝ) : ℝ :=
  (mixture x K p.1 M c g).alk 3 (readAcidity E p) + readAcidity E p

/-- the sulfate that the acid (`c` mol/kg, with `g` sulfates each) has brought to a point -/
noncomputable def Spec.acidSulfate (c g M : ℝ) (p : ℝ × ℝ × ℝ) : ℝ := p.1 * c * g / (p.1 + M)

/-- what of a point does not follow a factor `k` in molinity -/
noncomputable def Spec.unscaled (x K : String → ℝ) (c g M E least k : ℝ) (p : ℝ × ℝ × ℝ) : ℝ :=
  |k - 1| * ((mixture x K p.1 M c g).buffering least * readAcidity E p + |netBase x K c g M E p|
    + acid (acidSulfate c g M p) (K "k_bisulfate") (k * readAcidity E p))

/-- the EMF0 for which acidities are read as `k` times what they are, at `t` °C -/
noncomputable def Spec.shiftedEmf0 (E t k : ℝ) : ℝ :=
  E - 8.3144621 * (t + 273.15) / 96.4853365 * Real.log k

theorem read_shifted {E k : ℝ} {p : ℝ × ℝ × ℝ} (ht : -273.15 < p.2.2) (hk : 0 < k) :
    readAcidity (shiftedEmf0 E p.2.2 k) p = k * readAcidity E p := by
  have hs : 0 < 8.3144621 * (p.2.2 + 273.15) / 96.4853365 := by
    have : 0 < p.2.2 + 273.15 := by linarith
    positivity
  rw [readAcidity_ratio E (shiftedEmf0 E p.2.2 k) p]
  congr 1
  rw [shiftedEmf0, sub_sub_cancel, mul_div_cancel_left₀ _ hs.ne', Real.exp_log hk]

/-- alkalinity is nearly proportional to acidity where little but hydrogen ion is left -/
theorem alk_scaled {s : Sol} (hv : s.Valid) {least h k : ℝ} (hl0 : 0 < least) (hl : least ≤ h)
    (hlk : least ≤ k * h) :
    |s.alk 3 (k * h) - k * s.alk 3 h| ≤ |k - 1| * (s.buffering least * h + |s.alk 3 h + h|) := by
  have hh : 0 < h := lt_of_lt_of_le hl0 hl
  have hB := buffering_nonneg hv hl0
  have key : |(s.alk 3 (k * h) + k * h) - (s.alk 3 h + h)| ≤ |k - 1| * (s.buffering least * h) := by
    rcases le_total h (k * h) with hle | hle
    · obtain ⟨f1, f2⟩ := alk_fall hv hl0 hl hle
      have hk1 : 0 ≤ k - 1 := by
        by_contra hc
        nlinarith
      rw [abs_of_nonneg hk1, abs_le]
      have e : (k - 1) * (s.buffering least * h) = s.buffering least * (k * h - h) := by ring
      have : (1 + s.buffering least) * (k * h - h) = (k * h - h) + s.buffering least * (k * h - h) := by ring
      have : 0 ≤ s.buffering least * (k * h - h) := mul_nonneg hB (by linarith)
      constructor <;> linarith
    · obtain ⟨f1, f2⟩ := alk_fall hv hl0 hlk hle
      have hk1 : k - 1 ≤ 0 := by
        by_contra hc
        nlinarith
      rw [abs_of_nonpos hk1, abs_le]
      have e : -(k - 1) * (s.buffering least * h) = s.buffering least * (h - k * h) := by ring
      have : (1 + s.buffering least) * (h - k * h) = (h - k * h) + s.buffering least * (h - k * h) := by ring
      have : 0 ≤ s.buffering least * (h - k * h) := mul_nonneg hB (by linarith)
      constructor <;> linarith
  have e : s.alk 3 (k * h) - k * s.alk 3 h
      = ((s.alk 3 (k * h) + k * h) - (s.alk 3 h + h)) - (k - 1) * (s.alk 3 h + h) := by ring
  rw [e]
  refine (abs_sub _ _).trans ?_
  rw [abs_mul, mul_add]
  linarith

/-- the solution without sulfate and fluoride, whose acids nearly follow the hydrogen ion -/
def Spec.Sol.others (s : Sol) : Sol := { s with ts := 0, tf := 0 }

theorem alk_others (s : Sol) (y : ℝ) : s.alk 3 y = s.others.alk 3 y - acid s.tf s.kf y - acid s.ts s.ks y := by
  simp only [Sol.alk, Sol.others, acid, zero_mul, zero_div]
  norm_num

/-- the sulfate of the acid takes up hydrogen ion -/
theorem mixture_sulfate (x K : String → ℝ) (c g M : ℝ) (p : ℝ × ℝ × ℝ) (y : ℝ) :
    (mixture x K p.1 M c g).alk 3 y
      = (mixture x K p.1 M 0 0).alk 3 y - acid (acidSulfate c g M p) (K "k_bisulfate") y := by
  have h1 : (mixture x K p.1 M c g).others = (mixture x K p.1 M 0 0).others := by
    simp [Sol.others, mixture, mixContent]
  have h2 : (mixture x K p.1 M c g).ts = (mixture x K p.1 M 0 0).ts + acidSulfate c g M p := by
    simp only [mixture, mixContent, acidSulfate, if_true]
    ring
  have h3 : (mixture x K p.1 M c g).tf = (mixture x K p.1 M 0 0).tf := by
    simp [mixture, mixContent]
  have h4 : ∀ c g, (mixture x K p.1 M c g).ks = K "k_bisulfate" := fun _ _ => rfl
  have h5 : ∀ c g, (mixture x K p.1 M c g).kf = K "k_fluoride" := fun _ _ => rfl
  rw [alk_others (mixture x K p.1 M c g), alk_others (mixture x K p.1 M 0 0), h1, h2, h3, h4, h4, h5, h5]
  unfold acid
  ring

/-- C124 for any bound `η` of what of each point does not follow the molinity -/
theorem C124_general (w : World) (f : String) (S : Flt) (kw : Dict Val) (x K : String → ℝ)
    (c k n g M : ℝ) (pts : List (ℝ × ℝ × ℝ)) (h : EmfRun w f S kw x K (k * c) n g M pts) (hk : 0 < k)
    (hmin : LsGlobalMin w.ls) (sr : SolveEmf) (T : List Flt)
    (hr : files_solve w f (fin (k * c)) S kw = .ok (.emf sr T)) (A E A' E' t least η : ℝ)
    (hx : sr.opt_result.x = (fin A', fin E')) (hl0 : 0 < least)
    (hdata : ∀ p ∈ mask sr.used pts, p.2.2 = t ∧ least ≤ readAcidity E p ∧ least ≤ k * readAcidity E p ∧
      (mixture x K p.1 M c g).alk 3 (readAcidity E p) * (p.1 + M) = A * M - p.1 * c * n)
    (hη : ∀ p ∈ mask sr.used pts, |(mixture x K p.1 M (k * c) g).alk 3 (k * readAcidity E p)
      - k * (mixture x K p.1 M c g).alk 3 (readAcidity E p)| ≤ η)
    (p q : ℝ × ℝ × ℝ) (hp : p ∈ mask sr.used pts) (hq : q ∈ mask sr.used pts)
    (hl' : least ≤ readAcidity E' p) (E₁ ε off : ℝ) (hE₁ : E₁ = shiftedEmf0 E t k)
    (hε : ε = (1 + Real.sqrt (mask sr.used pts).length) * η)
    (hmore : 0 < acidExcess x K (k * c) g M E₁ least p q)
    (hoff : off = acidityOff x K (k * c) g M E₁ least ε p q) :
    sr.alkalinity = fin (1e6 * A') ∧ sr.emf0 = fin E' ∧
    |A' - k * A| * M ≤ (p.1 + M) * (ε + (1 + (mixture x K p.1 M (k * c) g).buffering least)
      * (k * readAcidity E p) * off) ∧
    (off < 1 → |E' - E₁| ≤ 8.3144621 * (t + 273.15) / 96.4853365 * (off / (1 - off))) := by
  subst hoff
  have hrd : ∀ p ∈ mask sr.used pts, readAcidity E₁ p = k * readAcidity E p := by
    intro p hp
    have ht := h.temps p (mask_subset _ _ hp)
    rw [hE₁, ← (hdata p hp).1]
    exact read_shifted ht hk
  have hmis : ∀ p ∈ mask sr.used pts, |pointMisfit x K (k * c) n g M (k * A) E₁ p| ≤ η := by
    intro p hp
    refine le_trans ?_ (hη p hp)
    obtain ⟨-, h1, h2, h3⟩ := hdata p hp
    have hm := h.masses p (mask_subset _ _ hp)
    have hM := h.mass
    have hpos : 0 < p.1 + M := by linarith
    unfold pointMisfit
    rw [hrd p hp]
    have e : (k * A * M - p.1 * (k * c) * n) / (p.1 + M)
        = k * (mixture x K p.1 M c g).alk 3 (readAcidity E p) := by
      rw [div_eq_iff hpos.ne', mul_assoc k _ (p.1 + M), h3]
      ring
    rw [e]
  have hb := C120_misfit w f S kw x K (k * c) n g M pts h hmin sr T hr (k * A) E₁ A' E' η hx hmis p q hp hq
    (by rw [(hdata p hp).1, (hdata q hq).1]) least ε hl0 (by rw [hrd p hp]; exact (hdata p hp).2.2.1) hl' hε hmore
  rw [hrd p hp, (hdata p hp).1] at hb
  exact hb

/-- **C124**: solving an exact titration with hydrochloric or sulfuric acid, at one temperature, with a molinity off
by a factor `k`, in EMF mode with an optimiser that finds the minimum: alkalinity is off by that factor,
and EMF0 lower by `(R T / F) ln k`, up to the bound of C120 for misfits of `η`, where `η` bounds what of
each point used does not follow the molinity. -/
theorem C124_molinity (w : World) (f : String) (S : Flt) (kw : Dict Val) (x K : String → ℝ)
    (c k n g M : ℝ) (pts : List (ℝ × ℝ × ℝ)) (h : EmfRun w f S kw x K (k * c) n g M pts) (hk : 0 < k)
    (hmin : LsGlobalMin w.ls) (sr : SolveEmf) (T : List Flt)
    (hr : files_solve w f (fin (k * c)) S kw = .ok (.emf sr T)) (A E A' E' t least η : ℝ)
    (hx : sr.opt_result.x = (fin A', fin E')) (hl0 : 0 < least)
    (hdata : ∀ p ∈ mask sr.used pts, p.2.2 = t ∧ least ≤ readAcidity E p ∧ least ≤ k * readAcidity E p ∧
      (mixture x K p.1 M c g).alk 3 (readAcidity E p) * (p.1 + M) = A * M - p.1 * c * n)
    (hη : ∀ p ∈ mask sr.used pts, unscaled x K c g M E least k p ≤ η)
    (p q : ℝ × ℝ × ℝ) (hp : p ∈ mask sr.used pts) (hq : q ∈ mask sr.used pts)
    (hl' : least ≤ readAcidity E' p) (E₁ ε off : ℝ) (hE₁ : E₁ = shiftedEmf0 E t k)
    (hε : ε = (1 + Real.sqrt (mask sr.used pts).length) * η)
    (hmore : 0 < acidExcess x K (k * c) g M E₁ least p q)
    (hoff : off = acidityOff x K (k * c) g M E₁ least ε p q) :
    sr.alkalinity = fin (1e6 * A') ∧ sr.emf0 = fin E' ∧
    |A' - k * A| * M ≤ (p.1 + M) * (ε + (1 + (mixture x K p.1 M (k * c) g).buffering least)
      * (k * readAcidity E p) * off) ∧
    (off < 1 → |E' - E₁| ≤ 8.3144621 * (t + 273.15) / 96.4853365 * (off / (1 - off))) := by
  refine C124_general w f S kw x K c k n g M pts h hk hmin sr T hr A E A' E' t least η hx hl0 hdata
    (fun p hp => ?_) p q hp hq hl' E₁ ε off hE₁ hε hmore hoff
  obtain ⟨-, h1, h2, -⟩ := hdata p hp
  have hM := h.mass
  have hm := h.masses p (mask_subset _ _ hp)
  have hcg : 0 ≤ c * g := nonneg_of_mul_nonneg_right (by rw [← mul_assoc]; exact h.acid) hk
  have hv : (mixture x K p.1 M c g).Valid := mixture_valid hM hm hcg
    (fun k hk => (h.sample.contents k hk).2) (fun k hk => (h.sample.constants k hk).2)
  have hks : 0 < K "k_bisulfate" := hv.ks
  refine le_trans ?_ (hη p hp)
  have e : (mixture x K p.1 M (k * c) g).alk 3 (k * readAcidity E p) - k * (mixture x K p.1 M c g).alk 3 (readAcidity E p)
      = ((mixture x K p.1 M c g).alk 3 (k * readAcidity E p) - k * (mixture x K p.1 M c g).alk 3 (readAcidity E p))
        + -((k - 1) * acid (acidSulfate c g M p) (K "k_bisulfate") (k * readAcidity E p)) := by
    rw [mixture_sulfate x K (k * c), mixture_sulfate x K c g M p (k * readAcidity E p)]
    unfold acid acidSulfate
    ring
  have hT : 0 ≤ acidSulfate c g M p := by
    unfold acidSulfate
    rw [mul_assoc]
    positivity
  have hr0 : 0 < readAcidity E p := Real.exp_pos _
  have ha : 0 ≤ acid (acidSulfate c g M p) (K "k_bisulfate") (k * readAcidity E p) := by
    unfold acid; positivity
  rw [e]
  refine (abs_add_le _ _).trans ?_
  rw [abs_neg, abs_mul, abs_of_nonneg ha, unscaled, mul_add |k - 1|]
  exact add_le_add (alk_scaled hv (k := k) hl0 h1 h2) le_rfl

/-! ### A case

The points of C112, fitted exactly for a molinity `qAcid` and an EMF0 of 400 mV, are also those of an
exact titration of another alkalinity with another molinity, with an electrode of higher EMF0. -/

/-- the true EMF0: acidities are 1/1.001 of those read at 400 mV -/
noncomputable def wmE : ℝ := 400 + 8.3144621 * (25 + 273.15) / 96.4853365 * Real.log 1.001

/-- the true molinity and alkalinity -/
noncomputable def wmAcid : ℝ := (qAlk 0.001 (2e-4 / 1.001) * 0.101 - qAlk 0.002 (9e-4 / 1.001) * 0.102) / 0.001

noncomputable def wmTrue : ℝ := (qAlk 0.001 (2e-4 / 1.001) * 0.101 + 0.001 * wmAcid) / 0.1

theorem wm_read (p : ℝ × ℝ × ℝ) (ht : p.2.2 = 25) : readAcidity wmE p = readAcidity 400 p / 1.001 := by
  rw [readAcidity_ratio 400 wmE p, ht, wmE, sub_add_cancel_left, neg_div,
    mul_div_cancel_left₀ _ (by norm_num), Real.exp_neg, Real.exp_log (by norm_num)]
  ring

theorem wm_acids : 0.062 ≤ qAcid ∧ qAcid ≤ 0.083 ∧ 0.062 ≤ wmAcid ∧ wmAcid ≤ 0.083 := by
  have a1 : -2.8e-4 ≤ qAlk 0.001 2e-4 ∧ qAlk 0.001 2e-4 ≤ -1.7e-4 := by
    constructor <;>
    · norm_num [qAlk, Sol.alk, carbAlk, phosAlk, base, acid, extraAlk, mixture, mixContent, pContents, qConstants]
      split_ifs <;> norm_num
  have a2 : -9.8e-4 ≤ qAlk 0.002 9e-4 ∧ qAlk 0.002 9e-4 ≤ -8.9e-4 := by
    constructor <;>
    · norm_num [qAlk, Sol.alk, carbAlk, phosAlk, base, acid, extraAlk, mixture, mixContent, pContents, qConstants]
      split_ifs <;> norm_num
  have a3 : -2.8e-4 ≤ qAlk 0.001 (2e-4 / 1.001) ∧ qAlk 0.001 (2e-4 / 1.001) ≤ -1.7e-4 := by
    constructor <;>
    · norm_num [qAlk, Sol.alk, carbAlk, phosAlk, base, acid, extraAlk, mixture, mixContent, pContents, qConstants]
      split_ifs <;> norm_num
  have a4 : -9.8e-4 ≤ qAlk 0.002 (9e-4 / 1.001) ∧ qAlk 0.002 (9e-4 / 1.001) ≤ -8.9e-4 := by
    constructor <;>
    · norm_num [qAlk, Sol.alk, carbAlk, phosAlk, base, acid, extraAlk, mixture, mixContent, pContents, qConstants]
      split_ifs <;> norm_num
  unfold qAcid wmAcid
  refine ⟨?_, ?_, ?_, ?_⟩
  · rw [le_div_iff₀ (by norm_num)]; linarith
  · rw [div_le_iff₀ (by norm_num)]; linarith
  · rw [le_div_iff₀ (by norm_num)]; linarith
  · rw [div_le_iff₀ (by norm_num)]; linarith

/-- C124 applies: with some bound `η`, and `k` near 1 -/
example : ∃ (sr : SolveEmf) (T : List Flt) (k A' E' η ε off : ℝ) (p : ℝ × ℝ × ℝ), k * wmAcid = qAcid ∧
    files_solve (qWorld 400) "a.dat" (fin (k * wmAcid)) (fin 35) (qArgs 400) = .ok (.emf sr T) ∧
    sr.alkalinity = fin (1e6 * A') ∧ sr.emf0 = fin E' ∧ ε = (1 + Real.sqrt 2) * η ∧
    |A' - k * wmTrue| * 0.1 ≤ (p.1 + 0.1) * (ε + (1 + (mixture pContents qConstants p.1 0.1 (k * wmAcid) 0).buffering 1e-4)
      * (k * readAcidity wmE p) * off) := by
  obtain ⟨sr, h, hx, hu⟩ := (q_solve 400)
  obtain ⟨c1, c2, c3, c4⟩ := wm_acids
  have hc : 0 < wmAcid := by linarith
  set k := qAcid / wmAcid with hkdef
  have hkc : k * wmAcid = qAcid := div_mul_cancel₀ _ hc.ne'
  have hk1 : 0.74 ≤ k := by rw [hkdef, le_div_iff₀ hc]; linarith
  have hk0 : 0 < k := by linarith
  have hm : mask sr.used (qPts 400) = qPts 400 := by rw [hu]; rfl
  have hread : ∀ m h : ℝ, 0 < h → readAcidity wmE (m, nernst 400 25 h, 25) = h / 1.001 := by
    intro m h hh
    rw [wm_read _ rfl, read_nernst _ (by norm_num) hh]
  have hdata : ∀ p ∈ mask sr.used (qPts 400), p.2.2 = 25 ∧ 1e-4 ≤ readAcidity wmE p ∧ 1e-4 ≤ k * readAcidity wmE p ∧
      (mixture pContents qConstants p.1 0.1 wmAcid 0).alk 3 (readAcidity wmE p) * (p.1 + 0.1)
        = wmTrue * 0.1 - p.1 * wmAcid * 1 := by
    rw [hm]
    intro p hp
    simp only [qPts, List.mem_cons, List.not_mem_nil, or_false] at hp
    rcases hp with rfl | rfl
    · rw [hread _ _ (by norm_num), mixture_no_sulfate _ _ _ _ _ 0]
      refine ⟨rfl, by norm_num, ?_, ?_⟩
      · calc (1e-4 : ℝ) ≤ 0.74 * (2e-4 / 1.001) := by norm_num
          _ ≤ _ := by gcongr
      · rw [show (mixture pContents qConstants 0.001 0.1 0 0).alk 3 (2e-4 / 1.001)
            = qAlk 0.001 (2e-4 / 1.001) from rfl]
        unfold wmTrue
        ring
    · rw [hread _ _ (by norm_num), mixture_no_sulfate _ _ _ _ _ 0]
      refine ⟨rfl, by norm_num, ?_, ?_⟩
      · calc (1e-4 : ℝ) ≤ 0.74 * (9e-4 / 1.001) := by norm_num
          _ ≤ _ := by gcongr
      · rw [show (mixture pContents qConstants 0.002 0.1 0 0).alk 3 (9e-4 / 1.001)
            = qAlk 0.002 (9e-4 / 1.001) from rfl]
        unfold wmTrue wmAcid
        ring
  set p0 : ℝ × ℝ × ℝ := (0.001, nernst 400 25 2e-4, 25) with hp0
  set p1 : ℝ × ℝ × ℝ := (0.002, nernst 400 25 9e-4, 25) with hp1
  have hlist : qPts 400 = [p0, p1] := rfl
  obtain ⟨η, hη⟩ : ∃ η, ∀ p ∈ mask sr.used (qPts 400), unscaled pContents qConstants wmAcid 0 0.1 wmE 1e-4 k p ≤ η := by
    refine ⟨max (unscaled pContents qConstants wmAcid 0 0.1 wmE 1e-4 k p0) (unscaled pContents qConstants wmAcid 0 0.1 wmE 1e-4 k p1), ?_⟩
    intro p hp
    rw [hm, hlist] at hp
    simp only [List.mem_cons, List.not_mem_nil, or_false] at hp
    rcases hp with rfl | rfl
    · exact le_max_left _ _
    · exact le_max_right _ _
  have hr0 : readAcidity (shiftedEmf0 wmE 25 k) p0 = k * (2e-4 / 1.001) := by
    rw [← hread 0.001 2e-4 (by norm_num)]
    exact read_shifted (p := p0) (by norm_num [hp0]) hk0
  have hr1 : readAcidity (shiftedEmf0 wmE 25 k) p1 = k * (9e-4 / 1.001) := by
    rw [← hread 0.002 9e-4 (by norm_num)]
    exact read_shifted (p := p1) (by norm_num [hp1]) hk0
  have hmore : 0 < acidExcess pContents qConstants (k * wmAcid) 0 0.1 (shiftedEmf0 wmE 25 k) 1e-4 p0 p1 := by
    rw [hkc]
    unfold acidExcess
    rw [hr0, hr1]
    obtain ⟨b1, b2, -⟩ := q_buffer (m := 0.001) (lo := 1e-4) (.inl rfl) (by norm_num)
    have h1 : (1 + (mixture pContents qConstants 0.001 0.1 qAcid 0).buffering 1e-4)
        * ((0.001 + 0.1) * (k * (2e-4 / 1.001))) ≤ (1 + 1.5) * ((0.001 + 0.1) * (k * (2e-4 / 1.001))) := by gcongr
    have h2 : (1 + 1.5) * ((0.001 + 0.1) * (k * (2e-4 / 1.001))) < (0.002 + 0.1) * (k * (9e-4 / 1.001)) := by
      have : (0.002 + 0.1) * (k * (9e-4 / 1.001)) - (1 + 1.5) * ((0.001 + 0.1) * (k * (2e-4 / 1.001)))
          = k * ((0.002 + 0.1) * (9e-4 / 1.001) - (1 + 1.5) * ((0.001 + 0.1) * (2e-4 / 1.001))) := by ring
      have : 0 < k * ((0.002 + 0.1) * (9e-4 / 1.001) - (1 + 1.5) * ((0.001 + 0.1) * (2e-4 / 1.001))) :=
        mul_pos hk0 (by norm_num)
      linarith
    exact sub_pos.mpr (h1.trans_lt h2)
  obtain ⟨r1, r2, r3, -⟩ := C124_molinity (qWorld 400) "a.dat" (fin 35) (qArgs 400) pContents qConstants wmAcid k 1 0 0.1
    (qPts 400) (by rw [hkc]; exact q_run 400) hk0 lsExact_contracts.2 sr _ (by rw [hkc]; exact h) wmTrue wmE _ _ 25
    1e-4 η hx (by norm_num) hdata hη p0 p1 (by rw [hm, hlist]; simp) (by rw [hm, hlist]; simp)
    (by rw [read_nernst _ (by norm_num) (by norm_num)]; norm_num) _ _ _ rfl rfl hmore rfl
  refine ⟨sr, _, k, _, _, η, _, _, p0, hkc, by rw [hkc]; exact h, r1, r2, ?_, r3⟩
  rw [hm, hlist]
  norm_num

end Calk
