import Verif.Props.EmfTolerance
import Verif.Props.FileAdjust

/-!
# Property C140: calibration and errors in `ph_adjust` mode, and data sets of several modes

What C130, C132 and C136 say about EMF mode, for files of pH values whose electrode is off by some EMF0.
`zeroEmf p` is the point `p` with its pH as the potential of an electrode of EMF0 zero; the acidity
that `readAcidity E` reads there is `correctedAcidity E p` (`read_zeroEmf`).
-/

namespace Calk
open Flt Spec

theorem AdjustRun.same_calibrate {w : World} {f : String} {S : Flt} {kw : Dict Val} {x K : String → ℝ}
    {c n g M : ℝ} {pts : List (ℝ × ℝ × ℝ)} (h : AdjustRun w f S kw x K c n g M pts) (cert : Flt) :
    files_calibrate w f cert S kw
      = files_calibrate (w.showing (pts.map fun p => fin (zeroEmf p).2.1)) f cert S (asEmf kw) := by
  obtain ⟨cv, totals, ks, hl, h1, h2, h3, h4⟩ := h.loads
  have := (C117_as_emf w f S kw cv totals ks (pts.map fun p => p.2) hl h.mode_ok
    (by rw [h3, List.map_map]; rfl) (by rw [h4, List.map_map]; rfl)).2 cert
  rw [this, List.map_map]
  rfl

theorem AdjustRun.read {w : World} {f : String} {S : Flt} {kw : Dict Val} {x K : String → ℝ}
    {c n g M : ℝ} {pts : List (ℝ × ℝ × ℝ)} (h : AdjustRun w f S kw x K c n g M pts) {u : List Bool} {E : ℝ}
    {p : ℝ × ℝ × ℝ} (hp : p ∈ mask u pts) : readAcidity E (zeroEmf p) = correctedAcidity E p :=
  read_zeroEmf E p (h.temps p (mask_subset _ _ hp))

theorem asEmf_opts {kw : Dict Val} (h : ∃ o, emf_opts kw = .ok o) : ∃ o, emf_opts (asEmf kw) = .ok o := by
  obtain ⟨o, h⟩ := h
  have hs : ∀ k, k ≠ "solve_mode" → (kw.set "solve_mode" (.str "emf")).get? k = kw.get? k :=
    fun k hk => Dict.get?_set_ne _ _ _ _ hk
  unfold asEmf
  rw [emf_opts_set]
  simp only [emf_opts, argNum, argVal, argOpt, hs _ (show "alkalinity_init" ≠ "solve_mode" by decide),
    hs _ (show "pH_min" ≠ "solve_mode" by decide), hs _ (show "pH_max" ≠ "solve_mode" by decide),
    hs _ (show "titrant_normality" ≠ "solve_mode" by decide), bind_ok_iff, pure_ok] at h ⊢
  obtain ⟨a, ha, -, -, lo, hlo, hi, hhi, m, hm, -⟩ := h
  exact ⟨_, a, ha, lo, hlo, hi, hhi, m, hm, rfl⟩

theorem AdjustRun.regular {w : World} {f : String} {S : Flt} {kw : Dict Val} {x K : String → ℝ}
    {c n g M : ℝ} {pts : List (ℝ × ℝ × ℝ)} (h : AdjustRun w f S kw x K c n g M pts)
    (ho : ReportsEvaluated w.opt) (ho' : FiniteTrials w.opt)
    (hc0 : ∃ c0, argNum kw "titrant_molinity_init" (fin 0.1) = .ok c0) (hopts : ∃ o, emf_opts kw = .ok o) :
    Regular (w.showing (pts.map fun p => fin (zeroEmf p).2.1)) f S (asEmf kw) := by
  refine emfRun_regular (w := w.showing _) ho ho' h.emf ?_ (asEmf_opts hopts)
  unfold argNum
  rw [asEmf_get? kw (by decide) (by decide)]
  exact hc0

/-- **C140**: solving a file of pH values in `ph_adjust` mode with `k` times the molinity of its
(hydrochloric or sulfuric) acid (one temperature; the true alkalinity `A` and electrode error `E` fit every
point used up to `η`) gives `k` times the true alkalinity, up to the gain times: the misfits, what does not
follow the molinity, and how far the optimiser is from the minimum. -/
theorem C140_solve (w : World) (f : String) (S : Flt) (kw : Dict Val) (x K : String → ℝ)
    (c k n g M : ℝ) (pts : List (ℝ × ℝ × ℝ)) (h : AdjustRun w f S kw x K (k * c) n g M pts) (hk : 0 < k)
    {τ : ℝ} (hmin : LsNearMin τ w.ls) (sr : SolveEmf) (T : List Flt)
    (hr : files_solve w f (fin (k * c)) S kw = .ok (.emf sr T)) (A E A' E' t least η B : ℝ)
    (hx : sr.opt_result.x = (fin A', fin E')) (hl0 : 0 < least)
    (hdata : ∀ p ∈ mask sr.used pts, p.2.2 = t ∧ least ≤ correctedAcidity E p ∧
      least ≤ k * correctedAcidity E p ∧ |adjustMisfit x K c n g M A E p| ≤ η)
    (hB : ∀ p ∈ mask sr.used pts, leftover x K c g M E k (zeroEmf p) ≤ B)
    (p q : ℝ × ℝ × ℝ) (hp : p ∈ mask sr.used pts) (hq : q ∈ mask sr.used pts)
    (hl' : least ≤ correctedAcidity E' p)
    (hmore : 0 < acidExcess x K (k * c) g M E least (zeroEmf p) (zeroEmf q)) :
    sr.alkalinity = fin (1e6 * A') ∧ sr.emf0 = fin E' ∧
    |A' - k * A| * M ≤ alkGain x K (k * c) g M E least (zeroEmf p) (zeroEmf q)
      * ((1 + Real.sqrt (mask sr.used pts).length) * (k * η + |k - 1| * B) + τ) := by
  rw [h.same] at hr
  have hlen : (mask sr.used (pts.map zeroEmf)).length = (mask sr.used pts).length := by
    rw [mask_map, List.length_map]
  have := C136_solve _ f S _ x K c k n g M _ h.emf hk hmin sr T hr A E A' E' t least η B hx hl0
    (by
      rw [mask_map]
      intro y hy
      obtain ⟨y, hy', rfl⟩ := List.mem_map.mp hy
      rw [h.read hy', adjustMisfit_eq (h.temps y (mask_subset _ _ hy'))]
      exact hdata y hy')
    (by
      rw [mask_map]
      intro y hy
      obtain ⟨y, hy', rfl⟩ := List.mem_map.mp hy
      exact hB y hy')
    (zeroEmf p) (zeroEmf q) (by rw [mask_map]; exact List.mem_map_of_mem hp)
    (by rw [mask_map]; exact List.mem_map_of_mem hq) (by rw [h.read hp]; exact hl') hmore
  rwa [hlen] at this

/-- **C140**: a `ph_adjust`-mode calibration of an exact titration (charge balance at every point used, for
alkalinity `A`, molinity `c` and electrode error `E`; one temperature) against the true alkalinity that ends
with zero residual finds the molinity, and the solve with it the alkalinity and the electrode error - as long
as what is left of other bases at the points used is small next to the alkalinity. -/
theorem C140_recovers (w : World) (f : String) (S : Flt) (kw : Dict Val) (x K : String → ℝ)
    (c c' n g M : ℝ) (pts : List (ℝ × ℝ × ℝ)) (h : AdjustRun w f S kw x K c' n g M pts) (hc : 0 < c) (hc' : 0 < c')
    (hmin : LsGlobalMin w.ls) (ho : ReportsEvaluated w.opt) (ho' : FiniteTrials w.opt) (A E t least B : ℝ)
    (hc0 : ∃ c0, argNum kw "titrant_molinity_init" (fin 0.1) = .ok c0) (hopts : ∃ o, emf_opts kw = .ok o)
    (hgl : kw.get? "gran_logic" = none) (res : LsqResult Flt)
    (hcal : files_calibrate w f (fin (1e6 * A)) S kw = .ok res) (hz : res.fun_ = [fin 0]) (hxc : res.x = fin c')
    (sr : SolveEmf) (T : List Flt) (hr : files_solve w f (fin c') S kw = .ok (.emf sr T)) (A' E' : ℝ)
    (hx : sr.opt_result.x = (fin A', fin E')) (hl0 : 0 < least)
    (hdata : ∀ p ∈ mask sr.used pts, p.2.2 = t ∧ least ≤ correctedAcidity E p ∧
      least ≤ c' / c * correctedAcidity E p ∧
      (mixture x K p.1 M c g).alk 3 (correctedAcidity E p) * (p.1 + M) = A * M - p.1 * c * n)
    (hB : ∀ p ∈ mask sr.used pts, leftover x K c g M E (c' / c) (zeroEmf p) ≤ B)
    (p q : ℝ × ℝ × ℝ) (hp : p ∈ mask sr.used pts) (hq : q ∈ mask sr.used pts)
    (hl' : least ≤ correctedAcidity E' p) (hmore : 0 < acidExcess x K c' g M E least (zeroEmf p) (zeroEmf q))
    (hsmall : (p.1 + M) * ((1 + Real.sqrt (mask sr.used pts).length) * B)
      * (1 + (1 + (mixture x K p.1 M c' g).buffering least) * correctedAcidity E p
        * (((p.1 + M) + (q.1 + M)) / acidExcess x K c' g M E least (zeroEmf p) (zeroEmf q))) < A * M) :
    c' = c ∧ sr.alkalinity = fin (1e6 * A) ∧ sr.emf0 = fin E := by
  rw [h.same] at hr
  rw [h.same_calibrate] at hcal
  refine C130_recovers _ f S _ x K c c' n g M _ h.emf hc hc' hmin A E t least B (h.regular ho ho' hc0 hopts)
    (by rw [asEmf_get? kw (by decide) (by decide)]; exact hgl) res hcal hz hxc sr T hr A' E' hx hl0
    (by
      rw [mask_map]
      intro y hy
      obtain ⟨y, hy', rfl⟩ := List.mem_map.mp hy
      rw [h.read hy']
      exact hdata y hy')
    (by
      rw [mask_map]
      intro y hy
      obtain ⟨y, hy', rfl⟩ := List.mem_map.mp hy
      exact hB y hy')
    (zeroEmf p) (zeroEmf q) (by rw [mask_map]; exact List.mem_map_of_mem hp)
    (by rw [mask_map]; exact List.mem_map_of_mem hq) (by rw [h.read hp]; exact hl') hmore ?_
  rw [mask_map, List.length_map, h.read hp]
  exact hsmall

/-- **C140**: a `ph_adjust`-mode calibration (data fitted up to `η` by the true values) against the value
`cert` that stops at a residual `ρ` finds a molinity `c'` off by no more than: residual, error of the certified
value, and gain times misfits and how far the optimiser is from the minimum; relative to the alkalinity, less
what is left of other bases. -/
theorem C140_calibrated (w : World) (f : String) (S : Flt) (kw : Dict Val) (x K : String → ℝ)
    (c c' n g M cert : ℝ) (pts : List (ℝ × ℝ × ℝ)) (h : AdjustRun w f S kw x K c' n g M pts) (hc : 0 < c)
    (hc' : 0 < c') {τ : ℝ} (hmin : LsNearMin τ w.ls) (ho : ReportsEvaluated w.opt) (ho' : FiniteTrials w.opt)
    (A E t least η B : ℝ)
    (hc0 : ∃ c0, argNum kw "titrant_molinity_init" (fin 0.1) = .ok c0) (hopts : ∃ o, emf_opts kw = .ok o)
    (hgl : kw.get? "gran_logic" = none) (res : LsqResult Flt)
    (hcal : files_calibrate w f (fin cert) S kw = .ok res) (hxc : res.x = fin c')
    (sr : SolveEmf) (T : List Flt) (hr : files_solve w f (fin c') S kw = .ok (.emf sr T)) (A' E' : ℝ)
    (hx : sr.opt_result.x = (fin A', fin E')) (hl0 : 0 < least)
    (hdata : ∀ p ∈ mask sr.used pts, p.2.2 = t ∧ least ≤ correctedAcidity E p ∧
      least ≤ c' / c * correctedAcidity E p ∧ |adjustMisfit x K c n g M A E p| ≤ η)
    (hB : ∀ p ∈ mask sr.used pts, leftover x K c g M E (c' / c) (zeroEmf p) ≤ B)
    (p q : ℝ × ℝ × ℝ) (hp : p ∈ mask sr.used pts) (hq : q ∈ mask sr.used pts)
    (hl' : least ≤ correctedAcidity E' p) (hmore : 0 < acidExcess x K c' g M E least (zeroEmf p) (zeroEmf q))
    (W N : ℝ) (hW : W = alkGain x K c' g M E least (zeroEmf p) (zeroEmf q))
    (hN : N = 1 + Real.sqrt (mask sr.used pts).length) :
    ∃ ρ, res.fun_ = [fin ρ] ∧
      |c' - c| * (|A| * M - W * (N * (B + η)))
        ≤ c * (|ρ + (cert - 1e6 * A)| / 1e6 * M + W * (N * η + τ)) := by
  rw [h.same] at hr
  rw [h.same_calibrate] at hcal
  exact C136_calibrated _ f S _ x K c c' n g M cert _ h.emf hc hc' hmin A E t least η B
    (h.regular ho ho' hc0 hopts) (by rw [asEmf_get? kw (by decide) (by decide)]; exact hgl) res hcal hxc sr T hr
    A' E' hx hl0
    (by
      rw [mask_map]
      intro y hy
      obtain ⟨y, hy', rfl⟩ := List.mem_map.mp hy
      rw [h.read hy', adjustMisfit_eq (h.temps y (mask_subset _ _ hy'))]
      exact hdata y hy')
    (by
      rw [mask_map]
      intro y hy
      obtain ⟨y, hy', rfl⟩ := List.mem_map.mp hy
      exact hB y hy')
    (zeroEmf p) (zeroEmf q) (by rw [mask_map]; exact List.mem_map_of_mem hp)
    (by rw [mask_map]; exact List.mem_map_of_mem hq) (by rw [h.read hp]; exact hl') hmore W N hW
    (by rw [mask_map, List.length_map]; exact hN)

theorem AgreeKw.adjustRun {w : World} (hw : ByName w) {kw kw' : Dict Val} (h : AgreeKw kw kw')
    (hn : kw'.keys.Nodup) {f : String} {S : Flt} {x K : String → ℝ} {c n g M : ℝ} {pts : List (ℝ × ℝ × ℝ)}
    (hr : AdjustRun w f S kw x K c n g M pts) {c' : ℝ} (hc' : 0 ≤ c' * g) :
    AdjustRun w f S kw' x K c' n g M pts where
  loads := by rw [← h.load hw]; exact hr.loads
  keepsTotals := hr.keepsTotals
  keepsKs := hr.keepsKs
  sound := hr.sound
  nodup := hn
  mode := by rw [← h _ (by decide) (by decide)]; exact hr.mode
  sample := by
    have h1 : ∀ k ∈ "dic" :: (optionalContents ++ saltContents), k ∈ keys_solve ∧ k ≠ "gran_logic" := by
      decide
    have h2 : ∀ k ∈ allConstants, k ∈ keys_solve ∧ k ≠ "gran_logic" := by decide
    refine ⟨fun k hk => ?_, fun k hk => ?_, ?_⟩
    · rw [← h k (h1 k hk).1 (h1 k hk).2]; exact hr.sample.contents k hk
    · rw [← h k (h2 k hk).1 (h2 k hk).2]; exact hr.sample.constants k hk
    · rw [← onTotalScale_congr (h _ (by decide) (by decide))]
      exact hr.sample.scale
  sulfate := h.numOr (by decide) (by decide) hr.sulfate
  no_phosphate := by rw [← h _ (by decide) (by decide)]; exact hr.no_phosphate
  no_fluoride := by rw [← h _ (by decide) (by decide)]; exact hr.no_fluoride
  normality := h.numOr (by decide) (by decide) hr.normality
  mass := hr.mass
  masses := hr.masses
  temps := hr.temps
  acid := hc'

/-- **Specification**: the row is an exact titration with hydrochloric (`g = 0`) or sulfuric (`g = 1`) acid, in
`ph_adjust` mode: its file holds pH values of an electrode whose EMF0 is `E` off, at the temperature `t`; with
them corrected, the mixture of `M` kg of a sample of alkalinity `A` with the acid of molinity `c` satisfies the
charge balance at every point. -/
structure Spec.ExactAdjust (w : World) (kw : Dict Val) (cols : List String) (r : Row) (A c E : ℝ) (f : String)
    (S : Flt) (x K : String → ℝ) (n g M t : ℝ) (pts : List (ℝ × ℝ × ℝ)) : Prop where
  file : HasFile cols r f S
  run : ∃ st, SettingsOf keys_solve w kw cols r st ∧ AdjustRun w f S st x K c n g M pts
  positive : 0 < c
  balance : ∀ p ∈ pts, p.2.2 = t ∧
    (mixture x K p.1 M c g).alk 3 (correctedAcidity E p) * (p.1 + M) = A * M - p.1 * c * n

theorem AdjustRun.balance {w : World} {f : String} {S : Flt} {kw : Dict Val} {x K : String → ℝ}
    {c n g M : ℝ} {pts : List (ℝ × ℝ × ℝ)} (h : AdjustRun w f S kw x K c n g M pts) {A c₀ E t : ℝ}
    (hbal : ∀ p ∈ pts, p.2.2 = t ∧
      (mixture x K p.1 M c₀ g).alk 3 (correctedAcidity E p) * (p.1 + M) = A * M - p.1 * c₀ * n) :
    ∀ p ∈ pts.map zeroEmf, p.2.2 = t ∧
      (mixture x K p.1 M c₀ g).alk 3 (readAcidity E p) * (p.1 + M) = A * M - p.1 * c₀ * n := by
  intro p hp
  obtain ⟨y, hy, rfl⟩ := List.mem_map.mp hp
  rw [read_zeroEmf E y (h.temps y hy)]
  exact hbal y hy

theorem exactAdjust_solve {w : World} (hw : ByName w) (hmin : LsGlobalMin w.ls) {kw : Dict Val} {cols : List String}
    {r : Row} {A c E : ℝ} {f : String} {S : Flt} {x K : String → ℝ} {n g M t : ℝ} {pts : List (ℝ × ℝ × ℝ)}
    (h : ExactAdjust w kw cols r A c E f S x K n g M t pts)
    (hs : SolvableEmf w kw cols r c E f S x K g M (pts.map zeroEmf))
    {st : Dict Val} (hst : SettingsOf keys_solve w kw cols r st) :
    ∃ sr T, files_solve w f (fin c) S st = .ok (.emf sr T) ∧ sr.alkalinity = fin (1e6 * A) ∧ sr.emf0 = fin E := by
  obtain ⟨-, ⟨st0, hst0, hrun⟩, hc, hbal⟩ := h
  have hrun' := (hst0.agree hst (fun _ h _ => h) (fun _ h _ => h)).adjustRun hw hst.1 hrun hrun.acid
  obtain ⟨sr, T, least, p, q, hr, ht⟩ := hs st hst
  have hr' := hr
  rw [hrun'.same] at hr'
  obtain ⟨h1, h2⟩ := exact_told hrun'.emf hmin (hrun'.balance hbal) hr' ht
  exact ⟨sr, T, hr, h1, h2⟩

theorem exactAdjust_reference {w : World} (hw : ByName w) (hmin : LsGlobalMin w.ls) (ho : ReportsEvaluated w.opt)
    (ho' : FiniteTrials w.opt) {kw : Dict Val} {cols : List String} {r : Row} {A c E : ℝ} {f : String} {S : Flt}
    {x K : String → ℝ} {n g M t : ℝ} {pts : List (ℝ × ℝ × ℝ)}
    (h : ExactAdjust w kw cols r A c E f S x K n g M t pts)
    (hc : CalibratableEmf w kw cols r A c E f S x K g M (pts.map zeroEmf)) : TrueReference w kw cols r A c := by
  obtain ⟨hf, ⟨st, hst, hrun⟩, hpos, hbal⟩ := h
  refine ⟨f, S, hf, ?_, hc.certified, fun st' hst' res hres => ?_⟩
  · obtain ⟨-, kwb, hb, -⟩ := hst
    exact ⟨kwb, hb⟩
  obtain ⟨sc, hsc, hc0, hopts⟩ := hc.typed
  obtain ⟨hz, c', hx, hc', hside⟩ := hc.zero st' hst' res hres
  have hrun' := (hst.agree hst' (fun _ h _ => h) calibrate_keys).adjustRun hw hst'.1 hrun (c' := c')
    (mul_nonneg hc'.le (nonneg_of_mul_nonneg_right hrun.acid hpos))
  have hsame := hsc.same hst'
  have hreg := hrun'.regular ho ho' (by rw [← hsame.argNum]; exact hc0)
    (by rw [← emf_opts_congr hsame]; exact hopts)
  have hgl : (asEmf st').get? "gran_logic" = none := by
    rw [asEmf_get? st' (by decide) (by decide)]
    obtain ⟨-, kwb, -, hget⟩ := hst'
    rw [hget, if_neg (by decide)]
  rw [hrun'.same_calibrate] at hres
  obtain ⟨sr, hsr, -⟩ := C44_file _ f _ S _ res hreg hgl hres hz
  rw [hx] at hsr
  obtain ⟨s, rfl, -⟩ := C112_estimates _ f S _ x K c' n g M _ hrun'.emf _ hsr
  obtain ⟨least, B, p, q, ht, hB, hsmall⟩ := hside s _ (by rw [hrun'.same]; exact hsr)
  obtain ⟨A', E', hx', hl'⟩ := ht.found
  have hmore := ht.more
  rw [div_mul_cancel₀ _ hpos.ne'] at hmore
  have hbal' := hrun'.balance hbal
  rw [hx, (C130_recovers _ f S _ x K c c' n g M _ hrun'.emf hpos hc' hmin A E t least B hreg hgl res hres hz hx
    s _ hsr A' E' hx' ht.least_pos (fun y hy => ⟨(hbal' y (mask_subset _ _ hy)).1, (ht.acid y hy).1,
      (ht.acid y hy).2, (hbal' y (mask_subset _ _ hy)).2⟩) hB p q ht.first ht.second hl' hmore hsmall).1]

/-- **Specification**: the row is an exact titration with acid of molinity `c` of a sample of alkalinity `A`, in
any of the four modes, that can be solved; `e` is the EMF0 of its electrode, if the mode finds one -/
inductive Spec.ExactRow (w : World) (kw : Dict Val) (cols : List String) (r : Row) (A c : ℝ) : Option ℝ → Prop
  | emf {E : ℝ} {f S x K n g M t pts} (h : ExactEmf w kw cols r A c E f S x K n g M t pts)
      (hs : SolvableEmf w kw cols r c E f S x K g M pts) : Spec.ExactRow w kw cols r A c (some E)
  | adjust {E : ℝ} {f S x K n g M t pts} (h : ExactAdjust w kw cols r A c E f S x K n g M t pts)
      (hs : SolvableEmf w kw cols r c E f S x K g M (pts.map zeroEmf)) : Spec.ExactRow w kw cols r A c (some E)
  | pH {f S g} (h : ExactPH w kw cols r A c f S g) : Spec.ExactRow w kw cols r A c none
  | gran {f S} (h : IdealGran w kw cols r A c f S) : Spec.ExactRow w kw cols r A c none

/-- **Specification**: the row is an exact titration, in any of the four modes, with acid of molinity `c`, of a
reference whose certified value is its true alkalinity, and was calibrated to zero residual -/
inductive Spec.ExactReference (w : World) (kw : Dict Val) (cols : List String) (r : Row) (A c : ℝ) : Prop
  | emf {E : ℝ} {f S x K n g M t pts} (h : ExactEmf w kw cols r A c E f S x K n g M t pts)
      (hc : CalibratableEmf w kw cols r A c E f S x K g M pts)
  | adjust {E : ℝ} {f S x K n g M t pts} (h : ExactAdjust w kw cols r A c E f S x K n g M t pts)
      (hc : CalibratableEmf w kw cols r A c E f S x K g M (pts.map zeroEmf))
  | pH {f S g} (h : ExactPH w kw cols r A c f S g) (hc : Calibratable w kw cols r A f S g)
  | gran {f S} (hA : A ≠ 0) (h : IdealGran w kw cols r A c f S) (hc : Calibratable w kw cols r A f S 0)

/-- **C140**: a data set whose rows are in different modes.  If every reference used is an exact titration, in
its mode, with the acid of its batch, has a true certified value and was calibrated to zero residual, then every
row of a batch that has one gets the true molinity, and every row that is an exact titration, in its own mode,
its true alkalinity (and EMF0, in the modes that find one). -/
theorem C140_dataset (w : World) (hw : ByName w) (hmin : LsGlobalMin w.ls) (ho : ReportsEvaluated w.opt)
    (ho' : FiniteTrials w.opt) (kw : Dict Val) (df df' : DF) (hkw : kw.keys.Nodup)
    (h : dataset_calibrate w kw df = (.ok (), df'))
    (hl : ∀ r ∈ df'.rows, Label (r "analysis_batch")) (c : Val → ℝ)
    (href : List.Forall₂ (fun r r' => IsReference r' →
      ∃ A, ExactReference w kw df.cols r A (c (r' "analysis_batch"))) df.rows df'.rows) :
    List.Forall₂ (fun r r' =>
      (∃ q ∈ df'.rows, IsReference q ∧ q "analysis_batch" = r' "analysis_batch") →
      r' "titrant_molinity" = .num (fin (c (r' "analysis_batch"))) ∧
      ∀ A e, ExactRow w kw df.cols r A (c (r' "analysis_batch")) e →
        r' "alkalinity" = .num (fin (1e6 * A)) ∧ (∀ E, e = some E → r' "emf0" = .num (fin E)) ∧
        (r "alkalinity_certified" = .num (fin (1e6 * A)) → r' "alkalinity_offset" = .num (fin 0)))
      df.rows df'.rows := by
  have hset := C118_dataset w kw df df' hkw h hl c (href.imp fun r r' hr hi => by
    obtain ⟨A, hx⟩ := hr hi
    cases hx with
    | emf h1 h2 => exact ⟨A, exactEmf_reference hw hmin ho ho' h1 h2⟩
    | adjust h1 h2 => exact ⟨A, exactAdjust_reference hw hmin ho ho' h1 h2⟩
    | pH h1 h2 => exact ⟨A, exactPH_reference hw ho ho' h1 h2⟩
    | gran hA h1 h2 => exact ⟨A, idealGran_reference hw ho hA h1 h2⟩)
  refine (forall₂_both hset (C97_solve w kw df df' h)).imp ?_
  rintro r r' ⟨hr, hs⟩ hq
  obtain ⟨hc, htrue⟩ := hr hq
  refine ⟨hc, fun A e hx => ?_⟩
  have both : ∀ {E : ℝ} {f : String} {S : Flt}, HasFile df.cols r f S →
      (∃ st, SettingsOf keys_solve w kw df.cols r st) →
      (∀ st, SettingsOf keys_solve w kw df.cols r st → ∃ sr T,
        files_solve w f (fin (c (r' "analysis_batch"))) S st = .ok (.emf sr T) ∧
        sr.alkalinity = fin (1e6 * A) ∧ sr.emf0 = fin E) →
      r' "alkalinity" = .num (fin (1e6 * A)) ∧ r' "emf0" = .num (fin E) ∧
        (r "alkalinity_certified" = .num (fin (1e6 * A)) → r' "alkalinity_offset" = .num (fin 0)) := by
    rintro E f S hf ⟨st0, -, kwb, hb, -⟩ hsol
    obtain ⟨ha, hoff⟩ := htrue A ⟨f, S, hf, ⟨kwb, hb⟩, fun st hst => by
      obtain ⟨sr, T, h1, h2, -⟩ := hsol st hst
      exact ⟨_, h1, h2⟩⟩
    refine ⟨ha, ?_, hoff⟩
    obtain ⟨st, hst, hget, hok, -⟩ := hs f _ S kwb hf.column hf.name hc (by simp) hf.salinity hf.good hb
    obtain ⟨sr, T, h1, -, h3⟩ := hsol _ ⟨hst hkw, kwb, hb, hget⟩
    obtain ⟨⟨-, he, -⟩, -⟩ := hok _ h1
    rw [he, h3]
  cases hx with
  | emf h1 h2 =>
    obtain ⟨a, b, d⟩ := both h1.file (h1.run.imp fun _ h => h.1) fun st hst => exactEmf_solve hw hmin h1 h2 hst
    exact ⟨a, fun E hE => by cases hE; exact b, d⟩
  | adjust h1 h2 =>
    obtain ⟨a, b, d⟩ := both h1.file (h1.run.imp fun _ h => h.1) fun st hst => exactAdjust_solve hw hmin h1 h2 hst
    exact ⟨a, fun E hE => by cases hE; exact b, d⟩
  | pH h1 =>
    obtain ⟨a, d⟩ := htrue A (exactPH_row hw h1)
    exact ⟨a, fun E hE => (nomatch hE), d⟩
  | gran h1 =>
    obtain ⟨a, d⟩ := htrue A (idealGran_row hw h1)
    exact ⟨a, fun E hE => (nomatch hE), d⟩

end Calk
