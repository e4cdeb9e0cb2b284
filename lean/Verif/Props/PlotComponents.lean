import Verif.Props.PlotExample

/-! # C103: the components plot -/

namespace Calk
open Flt Spec

/-- Specification: what is shown, in order, with its name in the legend and the number of moles of
alkalinity in a mole of it -/
def shownSpecies : List (String × String × ℝ) :=
  [ ("alkalinity_estimate", "Total", 1), ("HCO3", "+[HCO$_3^-$]", 1), ("CO3", "+2[CO$_3^{2-}$]", 2),
    ("BOH4", "+[B(OH)$_4^-$]", 1), ("PO4", "+2[PO$_4^{3-}$]", 2), ("HPO4", "+[HPO$_4^{2-}$]", 1),
    ("H3PO4", "$-$[H$_3$PO$_4$]", -1), ("HSO4", "$-$[HSO$_4$]", -1), ("HF", "$-$[HF]", -1),
    ("H3SiO4", "+[H$_3$SiO$_4$]", 1), ("NH3", "+[NH$_3$]", 1), ("HS", "+[HS$^-$]", 1),
    ("H", "$-$[H$^+$]", -1), ("OH", "+[OH$^-$]", 1), ("alk_alpha", "$A_α$", 1),
    ("alk_beta", "$A_β$", 1) ]

/-- Specification: the height at which a content `x` (mol/kg) is shown: as p(|c| x), or its contribution
to alkalinity in µmol/kg -/
noncomputable def speciesHeight (log_scale : Bool) (c x : ℝ) : ℝ :=
  if log_scale then -Real.logb 10 (|c| * x) else c * x * 1e6

/-- what is neither a curve nor the zero line -/
def Artist.isPoints : Artist → Bool
  | .points .. => true
  | _ => false

theorem species_vars : shownSpecies.map Prod.fst = componentVars := rfl

theorem species_mult : ∀ s ∈ shownSpecies, component_multipliers.get s.1 = .ok s.2.2 ∧
    componentLabels.get? s.1 = some s.2.1 ∧ s.2.2 ≠ 0 := by
  intro s hs
  simp only [shownSpecies, List.mem_cons, List.not_mem_nil, or_false] at hs
  rcases hs with rfl | rfl | rfl | rfl | rfl | rfl | rfl | rfl | rfl | rfl | rfl | rfl | rfl | rfl | rfl | rfl <;>
    exact ⟨by with_unfolding_all rfl, by with_unfolding_all rfl, by norm_num⟩

theorem shown_real (log_scale : Bool) {c x : ℝ} (hc : c ≠ 0) (hx : 0 < x) :
    shown log_scale c (fin x) = fin (speciesHeight log_scale c x) := by
  unfold shown speciesHeight
  cases log_scale with
  | true =>
    have : 0 < x * |c| := mul_pos hx (abs_pos.mpr hc)
    simp only [if_true, mul_fin, log10_fin _ this, neg_fin]
    rw [mul_comm]
  | false =>
    simp only [Bool.false_eq_true, if_false, mul_fin]
    rw [mul_comm x c]

theorem all_pos_iff (xs : List ℝ) :
    ((xs.map fin).all fun x => (fin 0).lt x) = true ↔ ∀ x ∈ xs, 0 < x := by
  simp [List.all_eq_true]

/-- what is drawn for one variable -/
noncomputable def speciesArtists (pchip : Pchip) (log_scale : Bool) (t : Table) (tm : List Flt)
    (u : List Bool) (v : String) : Py (List Artist) := do
  let xs ← t.attr v
  componentArtists pchip log_scale tm u v xs

theorem allComponents_eq (pchip : Pchip) (log_scale : Bool) (t : Table) (tm : List Flt)
    (u : List Bool) (vars : List String) (f : String → List Artist)
    (h : ∀ v ∈ vars, speciesArtists pchip log_scale t tm u v = .ok (f v)) :
    allComponents pchip log_scale t tm u vars = .ok (vars.flatMap f) := by
  induction vars with
  | nil => rfl
  | cons v vars ih =>
    have h1 := h v (by simp)
    unfold speciesArtists at h1
    obtain ⟨xs, e1, e2⟩ := bind_ok_iff.mp h1
    simp only [allComponents, e1, bind_ok, e2, ih (fun w hw => h w (by simp [hw]))]
    rfl

theorem allComponents_ok (pchip : Pchip) (log_scale : Bool) (t : Table) (tm : List Flt)
    (u : List Bool) (vars : List String) (a : List Artist)
    (h : allComponents pchip log_scale t tm u vars = .ok a) :
    ∀ v ∈ vars, ∃ b, speciesArtists pchip log_scale t tm u v = .ok b := by
  induction vars generalizing a with
  | nil => simp
  | cons v vars ih =>
    simp only [allComponents, bind_ok_iff] at h
    obtain ⟨xs, e1, b, e2, c, e3, -⟩ := h
    intro w hw
    rcases List.mem_cons.mp hw with rfl | hw
    · exact ⟨b, by unfold speciesArtists; rw [e1, bind_ok, e2]⟩
    · exact ih c e3 w hw

/-- the columns that the plot needs are there -/
theorem columns_there {w : World} {sys : SysIn → Py SysOut} {row : Series} {kw : Dict Val}
    {tt : Titration} (hk : kw.keys.Nodup) (hn : (nestedArgs kw).keys.Nodup)
    (h : Titration_init w sys row kw = .ok tt) :
    ∀ v ∈ "titrant_mass" :: componentVars, ∃ xs, tt.t.nums.get? v = some xs := by
  have htm := (C87_points w sys row kw tt hk hn h).1
  obtain ⟨-, -, -, t4, s, r, -, -, c1, -, c2, c3, c4⟩ := titration_table h
  obtain ⟨est, he⟩ := Option.isSome_iff_exists.mp t4
  intro v hv
  have : v = "titrant_mass" ∨ v = "alkalinity_estimate" ∨ v ∈ sysComps ∨ v = "H" ∨ v = "alk_alpha" ∨
      v = "alk_beta" := by
    have : ∀ v ∈ "titrant_mass" :: componentVars, v = "titrant_mass" ∨ v = "alkalinity_estimate" ∨
      v ∈ sysComps ∨ v = "H" ∨ v = "alk_alpha" ∨ v = "alk_beta" := by decide
    exact this v hv
  rcases this with rfl | rfl | hv | rfl | rfl | rfl
  · exact ⟨_, htm⟩
  · exact ⟨_, he⟩
  · exact ⟨_, c1 v hv⟩
  · exact ⟨_, c2⟩
  · exact ⟨_, c3⟩
  · exact ⟨_, c4⟩

theorem checkColumns_eq {t : Table} {l : List String} (h : ∀ v ∈ l, ∃ xs, t.nums.get? v = some xs) :
    checkColumns t l = .ok () := by
  induction l with
  | nil => rfl
  | cons v l ih =>
    obtain ⟨xs, hx⟩ := h v (by simp)
    simp only [checkColumns, hx, Option.isSome_some, if_true]
    exact ih fun w hw => h w (by simp [hw])

/-- the figure, from the artists of each variable -/
theorem components_eq {w : World} {sys : SysIn → Py SysOut} {row : Series} {kw : Dict Val}
    {tt : Titration} (hk : kw.keys.Nodup) (hn : (nestedArgs kw).keys.Nodup)
    (h : Titration_init w sys row kw = .ok tt) (pchip : Pchip) (log_scale : Bool)
    (f : String → List Artist)
    (hf : ∀ v ∈ componentVars, speciesArtists pchip log_scale tt.t tt.sr.cv.titrant_mass
      tt.sr.sr.useds v = .ok (f v)) :
    plot_components pchip tt log_scale = .ok { artists := componentVars.flatMap f ++
      if log_scale then [] else [.hline (fin 0)] } := by
  have htm := (C87_points w sys row kw tt hk hn h).1
  have hu := (titration_table h).2.2.1
  simp only [plot_components, Table.attr_eq htm, checkColumns_eq (columns_there hk hn h),
    Table.flag_eq hu, bind_ok, allComponents_eq _ _ _ _ _ _ f hf]
  rfl

theorem components_ok {w : World} {sys : SysIn → Py SysOut} {row : Series} {kw : Dict Val}
    {tt : Titration} (hk : kw.keys.Nodup) (hn : (nestedArgs kw).keys.Nodup)
    (h : Titration_init w sys row kw = .ok tt) (pchip : Pchip) (log_scale : Bool) (fig : Figure)
    (hf : plot_components pchip tt log_scale = .ok fig) :
    ∃ f : String → List Artist,
      (∀ v ∈ componentVars, speciesArtists pchip log_scale tt.t tt.sr.cv.titrant_mass
        tt.sr.sr.useds v = .ok (f v)) ∧
      fig.artists = componentVars.flatMap f ++ if log_scale then [] else [.hline (fin 0)] := by
  have htm := (C87_points w sys row kw tt hk hn h).1
  have hu := (titration_table h).2.2.1
  have hf' := hf
  simp only [plot_components, Table.attr_eq htm, checkColumns_eq (columns_there hk hn h),
    Table.flag_eq hu, bind_ok, bind_ok_iff] at hf'
  obtain ⟨a, ha, -⟩ := hf'
  have h1 := allComponents_ok _ _ _ _ _ _ _ ha
  have h2 : ∀ v ∈ componentVars, speciesArtists pchip log_scale tt.t tt.sr.cv.titrant_mass
      tt.sr.sr.useds v = .ok (match speciesArtists pchip log_scale tt.t tt.sr.cv.titrant_mass
        tt.sr.sr.useds v with | .ok b => b | .error _ => []) := by
    intro v hv
    obtain ⟨b, hb⟩ := h1 v hv
    rw [hb]
  refine ⟨_, h2, ?_⟩
  rw [components_eq hk hn h pchip log_scale _ h2] at hf
  rw [← Except.ok.inj hf]

/-- **C103**: the table of every Titration has all that the plot needs: it fails only if the
interpolation does. -/
theorem C103_drawn (w : World) (sys : SysIn → Py SysOut) (row : Series) (kw : Dict Val)
    (tt : Titration) (hk : kw.keys.Nodup) (hn : (nestedArgs kw).keys.Nodup)
    (h : Titration_init w sys row kw = .ok tt) (pchip : Pchip)
    (hp : ∀ xi yi x, ∃ y, pchip xi yi x = .ok y) (log_scale : Bool) :
    ∃ fig, plot_components pchip tt log_scale = .ok fig := by
  have h2 : ∀ v ∈ componentVars, speciesArtists pchip log_scale tt.t tt.sr.cv.titrant_mass
      tt.sr.sr.useds v = .ok (match speciesArtists pchip log_scale tt.t tt.sr.cv.titrant_mass
        tt.sr.sr.useds v with | .ok b => b | .error _ => []) := by
    intro v hv
    obtain ⟨xs, hx⟩ := columns_there hk hn h v (by simp [hv])
    have hv' : v ∈ shownSpecies.map Prod.fst := by rw [species_vars]; exact hv
    obtain ⟨s, hs, rfl⟩ := List.mem_map.mp hv'
    obtain ⟨hm, -⟩ := species_mult s hs
    have : ∃ b, speciesArtists pchip log_scale tt.t tt.sr.cv.titrant_mass tt.sr.sr.useds s.1 = .ok b := by
      simp only [speciesArtists, Table.attr_eq hx, bind_ok, componentArtists, hm]
      split
      · obtain ⟨y, hy⟩ := hp (groupMasses tt.sr.cv.titrant_mass)
          ((groupMasses tt.sr.cv.titrant_mass).map fun m =>
            shown log_scale s.2.2 (groupMean tt.sr.cv.titrant_mass xs m))
          (linspace500 (pdMin tt.sr.cv.titrant_mass) (pdMax tt.sr.cv.titrant_mass))
        rw [hy]
        exact ⟨_, rfl⟩
      · exact ⟨_, rfl⟩
    obtain ⟨b, hb⟩ := this
    rw [hb]
  exact ⟨_, components_eq hk hn h pchip log_scale _ h2⟩

/-- what is drawn for one variable with real values -/
theorem speciesArtists_real {pchip : Pchip} {log_scale : Bool} {t : Table} {tm : List Flt}
    {u : List Bool} {s : String × String × ℝ} (hs : s ∈ shownSpecies) {xs : List ℝ}
    (hx : t.nums.get? s.1 = some (xs.map fin)) (hl : xs.length = u.length) (htm : tm.length = u.length)
    {b : List Artist} (h : speciesArtists pchip log_scale t tm u s.1 = .ok b) :
    ((∀ x ∈ xs, 0 < x) → ∃ curve,
      pchip (groupMasses tm) ((groupMasses tm).map fun m =>
        shown log_scale s.2.2 (groupMean tm (xs.map fin) m))
        (linspace500 (pdMin tm) (pdMax tm)) = .ok curve ∧
      b = [.line (some s.2.1) ((grams (linspace500 (pdMin tm) (pdMax tm))).zip curve),
        .points none false (drawnAt u false tm (xs.map fun x => fin (speciesHeight log_scale s.2.2 x))),
        .points none true (drawnAt u true tm (xs.map fun x => fin (speciesHeight log_scale s.2.2 x)))]) ∧
    ((¬ ∀ x ∈ xs, 0 < x) → b = []) := by
  obtain ⟨hm, hlab, hc⟩ := species_mult s hs
  simp only [speciesArtists, Table.attr_eq hx, bind_ok, componentArtists] at h
  constructor
  · intro hpos
    rw [if_pos ((all_pos_iff xs).mpr hpos)] at h
    simp only [hm, bind_ok, bind_ok_iff] at h
    obtain ⟨curve, h1, h2⟩ := h
    refine ⟨curve, h1, ?_⟩
    have e : (xs.map fin).map (shown log_scale s.2.2)
        = xs.map fun x => fin (speciesHeight log_scale s.2.2 x) := by
      rw [List.map_map]
      apply List.map_congr_left
      intro x hx
      exact shown_real log_scale hc (hpos x hx)
    rw [← Except.ok.inj h2, e, usedScatters_eq _ _ _ _ _ htm (by simp [hl]), hlab]
    rfl
  · intro hneg
    rw [if_neg (by rw [all_pos_iff]; exact hneg)] at h
    exact (Except.ok.inj h).symm

open Classical in
/-- **C103**: the species shown are exactly those whose content is positive at every point. Each
measurement is drawn once for each of them, filled if it was used, at p(|c|·content) or at its
contribution to alkalinity in µmol/kg. -/
theorem C103_points (w : World) (sys : SysIn → Py SysOut) (row : Series) (kw : Dict Val)
    (tt : Titration) (hk : kw.keys.Nodup) (hn : (nestedArgs kw).keys.Nodup)
    (h : Titration_init w sys row kw = .ok tt) (pchip : Pchip) (log_scale : Bool) (fig : Figure)
    (hf : plot_components pchip tt log_scale = .ok fig) (col : String → List ℝ)
    (hcol : ∀ s ∈ shownSpecies, tt.t.nums.get? s.1 = some ((col s.1).map fin)) :
    ∃ u, tt.t.bools.get? "used" = some u ∧
      fig.artists.filter Artist.isPoints =
        (shownSpecies.filter fun s => decide (∀ x ∈ col s.1, 0 < x)).flatMap fun s =>
          [.points none false (drawnAt u false tt.sr.cv.titrant_mass
              ((col s.1).map fun x => fin (speciesHeight log_scale s.2.2 x))),
            .points none true (drawnAt u true tt.sr.cv.titrant_mass
              ((col s.1).map fun x => fin (speciesHeight log_scale s.2.2 x)))] := by
  obtain ⟨t1, t2, t3, -⟩ := titration_table h
  have hu := (t2 _ _ t3).2
  obtain ⟨f, h1, h2⟩ := components_ok hk hn h pchip log_scale fig hf
  refine ⟨_, t3, ?_⟩
  have hz : (if log_scale then [] else [Artist.hline (fin 0)]).filter Artist.isPoints = [] := by
    cases log_scale <;> rfl
  rw [h2, List.filter_append, hz, List.append_nil, ← species_vars]
  have hmem : ∀ s ∈ shownSpecies, s.1 ∈ componentVars := by
    intro s hs; rw [← species_vars]; exact List.mem_map_of_mem hs
  have key : ∀ l : List (String × String × ℝ), (∀ s ∈ l, s ∈ shownSpecies) →
      ((l.map Prod.fst).flatMap f).filter Artist.isPoints =
        (l.filter fun s => decide (∀ x ∈ col s.1, 0 < x)).flatMap fun s =>
          [.points none false (drawnAt tt.sr.sr.useds false tt.sr.cv.titrant_mass
              ((col s.1).map fun x => fin (speciesHeight log_scale s.2.2 x))),
            .points none true (drawnAt tt.sr.sr.useds true tt.sr.cv.titrant_mass
              ((col s.1).map fun x => fin (speciesHeight log_scale s.2.2 x)))] := by
    intro l hl
    induction l with
    | nil => rfl
    | cons s l ih =>
      have hs := hl s (by simp)
      have hlen : (col s.1).length = tt.sr.sr.useds.length := by
        have := t1 _ _ (hcol s hs)
        rw [List.length_map] at this
        rw [this, hu]
      obtain ⟨r1, r2⟩ := speciesArtists_real hs (hcol s hs) hlen (by rw [hu]) (h1 _ (hmem s hs))
      rw [List.map_cons, List.flatMap_cons, List.filter_append, ih fun s hs => hl s (by simp [hs])]
      by_cases hpos : ∀ x ∈ col s.1, 0 < x
      · obtain ⟨curve, -, hb⟩ := r1 hpos
        rw [List.filter_cons_of_pos (by simpa using hpos), List.flatMap_cons, hb]
        rfl
      · rw [List.filter_cons_of_neg (by simpa using hpos), r2 hpos]
        rfl
  exact key shownSpecies fun s hs => hs

/-! ## The curves -/

theorem groupMasses_sorted (ms : List ℝ) (h : ms.Pairwise (· < ·)) :
    groupMasses (ms.map fin) = ms.map fin := by
  unfold groupMasses
  rw [filter_fin]
  induction ms with
  | nil => rfl
  | cons m ms ih =>
    rw [List.map_cons, List.foldr_cons, ih (List.pairwise_cons.mp h).2]
    cases ms with
    | nil => rfl
    | cons y ys =>
      have hmy : m < y := (List.pairwise_cons.mp h).1 y (by simp)
      simp only [List.map_cons, insertMass]
      rw [if_neg (by simp [feq, hmy]), if_pos (by simp [hmy])]

theorem groupMean_sorted (ms xs : List ℝ) (h : ms.Pairwise (· < ·)) (hl : xs.length = ms.length) :
    ms.map (fun m => groupMean (ms.map fin) (xs.map fin) (fin m)) = xs.map fin := by
  have key : ∀ (pre : List (ℝ × ℝ)) (ms xs : List ℝ), ms.Pairwise (· < ·) → xs.length = ms.length →
      (∀ p ∈ pre, ∀ m ∈ ms, p.1 < m) →
      ms.map (fun m => pdMean (((pre.map fun p => (fin p.1, fin p.2)) ++ (ms.map fin).zip (xs.map fin)).filter
        (fun p => feq p.1 (fin m)) |>.map Prod.snd)) = xs.map fin := by
    intro pre ms
    induction ms generalizing pre with
    | nil => intro xs _ hl _; simp at hl; simp [hl]
    | cons m ms ih =>
      intro xs hp hl hpre
      cases xs with
      | nil => simp at hl
      | cons x xs =>
        obtain ⟨h1, h2⟩ := List.pairwise_cons.mp hp
        rw [List.map_cons, List.map_cons]
        congr 1
        · have e1 : ((pre.map fun p => (fin p.1, fin p.2)).filter fun p => feq p.1 (fin m)) = [] := by
            rw [List.filter_eq_nil_iff]
            intro a ha
            obtain ⟨p, hp', rfl⟩ := List.mem_map.mp ha
            have := hpre p hp' m (by simp)
            simp [feq, this]
          have e2 : (((ms.map fin).zip (xs.map fin)).filter fun p => feq p.1 (fin m)) = [] := by
            rw [List.filter_eq_nil_iff]
            intro a ha
            have := (List.of_mem_zip ha).1
            obtain ⟨y, hy, hy'⟩ := List.mem_map.mp this
            have := h1 y hy
            rw [← hy']
            simp [feq, this]
          simp only [List.filter_append, e1, List.map_cons, List.zip_cons_cons, List.nil_append]
          rw [List.filter_cons_of_pos (by simp [feq]), e2]
          simp [pdMean, Flt.isNaN, npMean, npSum_cons]
          rw [div_fin _ _ one_ne_zero, div_one]
        · have := ih (pre ++ [(m, x)]) xs h2 (by simpa using hl) (by
            intro p hp' y hy
            rcases List.mem_append.mp hp' with hp' | hp'
            · exact hpre p hp' y (by simp [hy])
            · rw [List.mem_singleton.mp hp']; exact h1 y hy)
          rw [← this]
          simp [List.append_assoc]
  have := key [] ms xs h hl (by simp)
  simpa [groupMean] using this

/-- `n` equally spaced numbers -/
noncomputable def spaced (lo hi : ℝ) : List ℝ :=
  (List.range 500).map fun i : ℕ => lo + i * ((hi - lo) / 499)

theorem linspace_fin (lo hi : ℝ) : linspace500 (fin lo) (fin hi) = (spaced lo hi).map fin := by
  unfold linspace500 spaced
  rw [List.map_map]
  apply List.map_congr_left
  intro i _
  simp only [Function.comp, sub_fin, div_fin _ _ (show (499 : ℝ) ≠ 0 by norm_num), mul_fin, add_fin]

theorem pdMin_fin (xs : List ℝ) (mn : ℝ) (h1 : mn ∈ xs) (h2 : ∀ x ∈ xs, mn ≤ x) :
    pdMin (xs.map fin) = fin mn := by
  unfold pdMin
  rw [filter_fin]
  cases xs with
  | nil => simp at h1
  | cons x xs =>
    obtain ⟨m, k1, k2, e⟩ := foldl_fmin x xs
    simp only [List.map_cons, e]
    rw [le_antisymm (k2 mn h1) (h2 m k1)]

/-- **C103**: each species shown has a curve named after it, over 500 equally spaced masses from the
smallest to the largest. If every mass is larger than the last, as in a titration, it is the
interpolation of exactly the points drawn. -/
theorem C103_curve (w : World) (sys : SysIn → Py SysOut) (row : Series) (kw : Dict Val)
    (tt : Titration) (hk : kw.keys.Nodup) (hn : (nestedArgs kw).keys.Nodup)
    (h : Titration_init w sys row kw = .ok tt) (pchip : Pchip) (log_scale : Bool) (fig : Figure)
    (hf : plot_components pchip tt log_scale = .ok fig) (s : String × String × ℝ)
    (hs : s ∈ shownSpecies) (xs ms : List ℝ) (hx : tt.t.nums.get? s.1 = some (xs.map fin))
    (hpos : ∀ x ∈ xs, 0 < x) (hms : tt.sr.cv.titrant_mass = ms.map fin) (hinc : ms.Pairwise (· < ·))
    (lo hi : ℝ) (hlo : lo ∈ ms) (hlo' : ∀ m ∈ ms, lo ≤ m) (hhi : hi ∈ ms) (hhi' : ∀ m ∈ ms, m ≤ hi) :
    ∃ curve, pchip (ms.map fin) (xs.map fun x => fin (speciesHeight log_scale s.2.2 x))
        ((spaced lo hi).map fin) = .ok curve ∧
      .line (some s.2.1) (((spaced lo hi).map fun x => fin (x * 1e3)).zip curve) ∈ fig.artists := by
  obtain ⟨t1, t2, t3, -⟩ := titration_table h
  have hu := (t2 _ _ t3).2
  obtain ⟨f, h1, h2⟩ := components_ok hk hn h pchip log_scale fig hf
  have hmem : s.1 ∈ componentVars := by rw [← species_vars]; exact List.mem_map_of_mem hs
  have hlen := t1 _ _ hx
  rw [List.length_map] at hlen
  obtain ⟨hm, hlab, hc⟩ := species_mult s hs
  obtain ⟨curve, r1, r2⟩ := (speciesArtists_real hs hx (by rw [hlen, hu]) (by rw [hu]) (h1 _ hmem)).1 hpos
  have e1 : linspace500 (pdMin tt.sr.cv.titrant_mass) (pdMax tt.sr.cv.titrant_mass)
      = (spaced lo hi).map fin := by
    rw [hms, pdMin_fin ms lo hlo hlo', pdMax_fin ms hi hhi hhi', linspace_fin]
  have hlm : xs.length = ms.length := by rw [hlen, hms, List.length_map]
  have e2 : ((groupMasses tt.sr.cv.titrant_mass).map fun m =>
      shown log_scale s.2.2 (groupMean tt.sr.cv.titrant_mass (xs.map fin) m))
      = xs.map fun x => fin (speciesHeight log_scale s.2.2 x) := by
    have e3 : (xs.map fin).map (shown log_scale s.2.2)
        = xs.map fun x => fin (speciesHeight log_scale s.2.2 x) := by
      rw [List.map_map]
      apply List.map_congr_left
      intro x hx
      exact shown_real log_scale hc (hpos x hx)
    have e4 := congrArg (List.map (shown log_scale s.2.2)) (groupMean_sorted ms xs hinc hlm)
    rw [← e3, ← e4, hms, groupMasses_sorted ms hinc, List.map_map, List.map_map]
    rfl
  rw [e1, e2, hms, groupMasses_sorted ms hinc] at r1
  refine ⟨curve, r1, ?_⟩
  rw [h2]
  apply List.mem_append_left
  rw [List.mem_flatMap]
  refine ⟨s.1, hmem, ?_⟩
  rw [r2, e1]
  have : grams ((spaced lo hi).map fin) = (spaced lo hi).map fun x => fin (x * 1e3) := by
    unfold grams
    rw [List.map_map]
    apply List.map_congr_left
    intro x _
    simp
  rw [this]
  simp

/-! ### Masses that are repeated or out of order -/

/-- mean of the values measured at the mass `m` -/
noncomputable def Spec.meanAt (ms xs : List ℝ) (m : ℝ) : ℝ :=
  (((ms.zip xs).filter fun p => p.1 = m).map Prod.snd).sum / ((ms.filter fun y => y = m).length : ℝ)

theorem insertMass_fin (m : ℝ) (l : List ℝ) (hl : l.Pairwise (· < ·)) :
    ∃ l' : List ℝ, insertMass (fin m) (l.map fin) = l'.map fin ∧ l'.Pairwise (· < ·) ∧
      ∀ y, y ∈ l' ↔ y = m ∨ y ∈ l := by
  induction l with
  | nil => exact ⟨[m], rfl, by simp, by simp⟩
  | cons x l ih =>
    obtain ⟨h1, h2⟩ := List.pairwise_cons.mp hl
    rcases lt_trichotomy m x with hlt | heq | hgt
    · refine ⟨m :: x :: l, ?_, ?_, by simp⟩
      · simp only [List.map_cons, insertMass]
        rw [if_neg (by simp [feq, hlt]), if_pos (by simp [hlt])]
      · refine List.pairwise_cons.mpr ⟨?_, hl⟩
        intro y hy
        rcases List.mem_cons.mp hy with rfl | hy
        · exact hlt
        · exact hlt.trans (h1 y hy)
    · refine ⟨x :: l, ?_, hl, ?_⟩
      · simp only [List.map_cons, insertMass]
        rw [if_pos (by simp [feq, heq])]
      · intro y
        rw [heq, List.mem_cons]
        tauto
    · obtain ⟨l', e1, e2, e3⟩ := ih h2
      refine ⟨x :: l', ?_, ?_, ?_⟩
      · simp only [List.map_cons, insertMass]
        rw [if_neg (by simp [feq, hgt]), if_neg (by simp [hgt.le]), e1]
      · refine List.pairwise_cons.mpr ⟨?_, e2⟩
        intro y hy
        rcases (e3 y).mp hy with rfl | hy
        · exact hgt
        · exact h1 y hy
      · intro y
        rw [List.mem_cons, e3, List.mem_cons]
        tauto

theorem groupMasses_fin (ms : List ℝ) :
    ∃ l : List ℝ, groupMasses (ms.map fin) = l.map fin ∧ l.Pairwise (· < ·) ∧ ∀ y, y ∈ l ↔ y ∈ ms := by
  unfold groupMasses
  rw [filter_fin]
  induction ms with
  | nil => exact ⟨[], rfl, .nil, by simp⟩
  | cons m ms ih =>
    obtain ⟨l, e1, e2, e3⟩ := ih
    obtain ⟨l', f1, f2, f3⟩ := insertMass_fin m l e2
    refine ⟨l', ?_, f2, ?_⟩
    · rw [List.map_cons, List.foldr_cons, e1, f1]
    · intro y
      rw [f3, e3, List.mem_cons]

theorem groupMean_fin (ms xs : List ℝ) (m : ℝ) (hm : m ∈ ms) (hl : xs.length = ms.length) :
    groupMean (ms.map fin) (xs.map fin) (fin m) = fin (Spec.meanAt ms xs m) := by
  have key : ∀ (ms xs : List ℝ), xs.length = ms.length →
      (((ms.map fin).zip (xs.map fin)).filter fun p => feq p.1 (fin m)).map Prod.snd
        = (((ms.zip xs).filter fun p => p.1 = m).map Prod.snd).map fin ∧
      ((ms.zip xs).filter fun p => p.1 = m).length = (ms.filter fun y => y = m).length := by
    intro ms
    induction ms with
    | nil => intro xs _; simp
    | cons a ms ih =>
      intro xs hl
      cases xs with
      | nil => simp at hl
      | cons x xs =>
        obtain ⟨e1, e2⟩ := ih xs (by simpa using hl)
        by_cases ha : a = m
        · constructor
          · simp only [List.map_cons, List.zip_cons_cons]
            rw [List.filter_cons_of_pos (by simp [feq, ha]), List.filter_cons_of_pos (by simp [ha])]
            simp [e1]
          · simp only [List.zip_cons_cons]
            rw [List.filter_cons_of_pos (by simp [ha]), List.filter_cons_of_pos (by simp [ha])]
            simp [e2]
        · constructor
          · simp only [List.map_cons, List.zip_cons_cons]
            rw [List.filter_cons_of_neg (by simpa [feq] using fun h => lt_of_le_of_ne h ha),
              List.filter_cons_of_neg (by simp [ha])]
            exact e1
          · simp only [List.zip_cons_cons]
            rw [List.filter_cons_of_neg (by simp [ha]), List.filter_cons_of_neg (by simp [ha])]
            exact e2
  obtain ⟨e1, e2⟩ := key ms xs hl
  have hne : ((ms.zip xs).filter fun p => p.1 = m).map Prod.snd ≠ [] := by
    intro h0
    have h1 := congrArg List.length h0
    rw [List.length_map, e2] at h1
    have := List.eq_nil_of_length_eq_zero h1
    have hin : m ∈ ms.filter fun y => y = m := List.mem_filter.mpr ⟨hm, by simp⟩
    rw [this] at hin
    cases hin
  unfold groupMean pdMean Spec.meanAt
  rw [e1, filter_fin, npMean_map_fin _ hne, ← e2]
  unfold rmean
  rw [List.length_map]

/-- **C103**: if masses are repeated or out of order, the interpolation gets each of the masses once, in
increasing order, and at each the height of the mean content over the points at that mass. -/
theorem C103_repeated (w : World) (sys : SysIn → Py SysOut) (row : Series) (kw : Dict Val)
    (tt : Titration) (hk : kw.keys.Nodup) (hn : (nestedArgs kw).keys.Nodup)
    (h : Titration_init w sys row kw = .ok tt) (pchip : Pchip) (log_scale : Bool) (fig : Figure)
    (hf : plot_components pchip tt log_scale = .ok fig) (s : String × String × ℝ)
    (hs : s ∈ shownSpecies) (xs ms : List ℝ) (hx : tt.t.nums.get? s.1 = some (xs.map fin))
    (hpos : ∀ x ∈ xs, 0 < x) (hms : tt.sr.cv.titrant_mass = ms.map fin)
    (lo hi : ℝ) (hlo : lo ∈ ms) (hlo' : ∀ m ∈ ms, lo ≤ m) (hhi : hi ∈ ms) (hhi' : ∀ m ∈ ms, m ≤ hi) :
    ∃ nodes : List ℝ, nodes.Pairwise (· < ·) ∧ (∀ m, m ∈ nodes ↔ m ∈ ms) ∧
      ∃ curve, pchip (nodes.map fin)
        (nodes.map fun m => fin (speciesHeight log_scale s.2.2 (Spec.meanAt ms xs m)))
        ((spaced lo hi).map fin) = .ok curve ∧
      .line (some s.2.1) (((spaced lo hi).map fun x => fin (x * 1e3)).zip curve) ∈ fig.artists := by
  obtain ⟨t1, t2, t3, -⟩ := titration_table h
  have hu := (t2 _ _ t3).2
  obtain ⟨f, h1, h2⟩ := components_ok hk hn h pchip log_scale fig hf
  have hmem : s.1 ∈ componentVars := by rw [← species_vars]; exact List.mem_map_of_mem hs
  have hlen := t1 _ _ hx
  rw [List.length_map] at hlen
  obtain ⟨hm, hlab, hc⟩ := species_mult s hs
  obtain ⟨curve, r1, r2⟩ := (speciesArtists_real hs hx (by rw [hlen, hu]) (by rw [hu]) (h1 _ hmem)).1 hpos
  have e1 : linspace500 (pdMin tt.sr.cv.titrant_mass) (pdMax tt.sr.cv.titrant_mass)
      = (spaced lo hi).map fin := by
    rw [hms, pdMin_fin ms lo hlo hlo', pdMax_fin ms hi hhi hhi', linspace_fin]
  have hlm : xs.length = ms.length := by rw [hlen, hms, List.length_map]
  obtain ⟨nodes, g1, g2, g3⟩ := groupMasses_fin ms
  refine ⟨nodes, g2, g3, curve, ?_, ?_⟩
  · rw [e1, hms, g1] at r1
    rw [List.map_map] at r1
    rw [← r1]
    refine congrArg (fun l => pchip (nodes.map fin) l ((spaced lo hi).map fin)) ?_
    apply List.map_congr_left
    intro m hmn
    have hmm := (g3 m).mp hmn
    simp only [Function.comp_apply]
    rw [groupMean_fin ms xs m hmm hlm]
    refine (shown_real log_scale hc ?_).symm
    unfold Spec.meanAt
    have hz : ∀ a ∈ ((ms.zip xs).filter fun p => p.1 = m).map Prod.snd, 0 < a := by
      intro a ha
      obtain ⟨p, hp, rfl⟩ := List.mem_map.mp ha
      exact hpos _ (List.of_mem_zip (List.mem_filter.mp hp).1).2
    have hin : m ∈ ms.filter fun y => y = m := List.mem_filter.mpr ⟨hmm, by simp⟩
    have hne : ((ms.zip xs).filter fun p => p.1 = m).map Prod.snd ≠ [] := by
      obtain ⟨i, hi, hi'⟩ := List.mem_iff_getElem.mp hmm
      have : (m, xs[i]'(hlm ▸ hi)) ∈ (ms.zip xs).filter fun p => p.1 = m := by
        refine List.mem_filter.mpr ⟨?_, by simp⟩
        rw [List.mem_iff_getElem]
        refine ⟨i, by simp [hi, hlm], by simp [hi']⟩
      exact List.ne_nil_of_mem (List.mem_map_of_mem this)
    exact div_pos (List.sum_pos _ hz hne) (by exact_mod_cast List.length_pos_of_mem hin)
  · rw [h2]
    apply List.mem_append_left
    rw [List.mem_flatMap]
    refine ⟨s.1, hmem, ?_⟩
    rw [r2, e1]
    have : grams ((spaced lo hi).map fin) = (spaced lo hi).map fun x => fin (x * 1e3) := by
      unfold grams
      rw [List.map_map]
      apply List.map_congr_left
      intro x _
      simp
    rw [this]
    exact List.mem_cons_self ..

/-- a mass given twice, out of order, is one node, at the mean of what was measured there -/
example (a b c : ℝ) : Spec.meanAt [2, 1, 2] [a, b, c] 2 = (a + c) / 2 ∧
    groupMasses ([2, 1, 2].map fin) = [1, 2].map fin := by
  constructor
  · unfold Spec.meanAt
    norm_num
  · simp [groupMasses, insertMass, feq]

/-- **C103**: on the logarithmic scale hydrogen ion is always shown, at the pH. -/
theorem C103_pH (w : World) (sys : SysIn → Py SysOut) (row : Series) (kw : Dict Val)
    (tt : Titration) (hk : kw.keys.Nodup) (hn : (nestedArgs kw).keys.Nodup)
    (h : Titration_init w sys row kw = .ok tt) (pchip : Pchip) (fig : Figure)
    (hf : plot_components pchip tt true = .ok fig) (ps : List ℝ)
    (hp : tt.t.nums.get? "pH" = some (ps.map fin)) :
    ∃ u, tt.t.bools.get? "used" = some u ∧ ∀ b,
      .points none b (drawnAt u b tt.sr.cv.titrant_mass (ps.map fin)) ∈ fig.artists := by
  obtain ⟨t1, t2, t3, -, sin, r, -, c1, -, -, c2, -⟩ := titration_table h
  have hu := (t2 _ _ t3).2
  obtain ⟨f, h1, h2⟩ := components_ok hk hn h pchip true fig hf
  rw [hp] at c1
  rw [← Option.some.inj c1] at c2
  have e : (ps.map fin).map (fun p => Flt.pow10 (-p)) = (ps.map fun p => (10 : ℝ) ^ (-p)).map fin := by
    rw [List.map_map, List.map_map]
    apply List.map_congr_left
    intro p _
    simp
  rw [e] at c2
  have hlen := t1 _ _ c2
  rw [List.length_map] at hlen
  obtain ⟨curve, -, r2⟩ := (speciesArtists_real (s := ("H", "$-$[H$^+$]", -1)) (by simp [shownSpecies])
    c2 (by rw [hlen, hu]) (by rw [hu]) (h1 "H" (by decide))).1 (by
      intro x hx
      obtain ⟨p, -, rfl⟩ := List.mem_map.mp hx
      positivity)
  have e3 : ((ps.map fun p => (10 : ℝ) ^ (-p)).map fun x => fin (speciesHeight true (-1) x)) = ps.map fin := by
    rw [List.map_map]
    apply List.map_congr_left
    intro p _
    simp only [Function.comp, speciesHeight, if_true]
    congr 1
    rw [abs_neg, abs_one, one_mul, Real.logb_rpow (by norm_num) (by norm_num), neg_neg]
  simp only at r2
  rw [e3] at r2
  refine ⟨_, t3, fun b => ?_⟩
  rw [h2]
  apply List.mem_append_left
  rw [List.mem_flatMap]
  refine ⟨"H", by decide, ?_⟩
  rw [r2]
  cases b <;> simp

/-! ## The contributions -/

/-- PyCO2SYS's alkalinity (µmol/kg) is the sum of the contributions that it reports and of hydrogen
ion -/
def SysAdds (sys : SysIn → Py SysOut) : Prop :=
  ∀ s r, sys s = .ok r → ∀ (i : ℕ) (p : ℝ), s.pH[i]? = some (fin p) →
    ∀ (x : String → ℝ) (a b A : ℝ), (∀ c ∈ sysComps, (r.comps c)[i]? = some (fin (x c))) →
      r.alkalinity_alpha[i]? = some (fin a) → r.alkalinity_beta[i]? = some (fin b) →
      r.alkalinity[i]? = some (fin A) →
      A = x "HCO3" + 2 * x "CO3" + x "BOH4" + 2 * x "PO4" + x "HPO4" - x "H3PO4" - x "HSO4" - x "HF"
        + x "H3SiO4" + x "NH3" + x "HS" + x "OH" - 1e6 * (10 : ℝ) ^ (-p) + a + b

theorem micro_at {xs : List Flt} {y : ℝ} {i : ℕ} (h : (micro xs)[i]? = some (fin y)) :
    xs[i]? = some (fin (1e6 * y)) := by
  unfold micro at h
  rw [List.getElem?_map] at h
  cases hx : xs[i]? with
  | none => rw [hx] at h; cases h
  | some v =>
    rw [hx] at h
    have h := Option.some.inj h
    cases v with
    | fin x =>
      have h := Flt.fin.inj h
      congr 2
      rw [← h]
      ring
    | nan => cases h
    | pinf => exact absurd ((infMul_pos (by norm_num)).symm.trans h) (by simp)
    | ninf => exact absurd ((infMul_neg (by norm_num)).symm.trans h) (by simp)

theorem sum_filter_ne (f : String × String × ℝ → ℝ) (P : String × String × ℝ → Bool)
    (l : List (String × String × ℝ)) (h : ∀ s ∈ l, P s = false → f s = 0) :
    ((l.filter P).map f).sum = (l.map f).sum := by
  induction l with
  | nil => rfl
  | cons s l ih =>
    have ih := ih fun x hx => h x (List.mem_cons_of_mem _ hx)
    rw [List.filter_cons]
    cases hp : P s with
    | true => simp [ih]
    | false => simp [ih, h s (by simp) hp]

open Classical in
/-- **C103**: the contributions add up. If the species not shown contribute nothing at a point, then
on the linear scale the heights of the others at that point add up to the alkalinity (µmol/kg) of the
mixture there, all of it having the sign with which it contributes. -/
theorem C103_sum (w : World) (sys : SysIn → Py SysOut) (hsys : SysAdds sys) (row : Series)
    (kw : Dict Val) (tt : Titration) (h : Titration_init w sys row kw = .ok tt)
    (col : String → List ℝ)
    (hcol : ∀ s ∈ shownSpecies.tail, tt.t.nums.get? s.1 = some ((col s.1).map fin))
    (ps alk : List ℝ) (hp : tt.t.nums.get? "pH" = some (ps.map fin))
    (halk : tt.t.nums.get? "alkalinity_from_pH" = some (alk.map fin)) (i : ℕ) (A : ℝ)
    (hA : alk[i]? = some A)
    (hzero : ∀ s ∈ shownSpecies.tail, (∃ x ∈ col s.1, ¬ 0 < x) → (col s.1).getD i 0 = 0) :
    ((shownSpecies.tail.filter fun s => decide (∀ x ∈ col s.1, 0 < x)).map fun s =>
      speciesHeight false s.2.2 ((col s.1).getD i 0)).sum = A * 1e6 := by
  rw [sum_filter_ne]
  · obtain ⟨t1, -, -, -, sin, r, c0, c1, c2, c3, c4, c5, c6⟩ := titration_table h
    have hlen : ∀ k (xs : List ℝ), tt.t.nums.get? k = some (xs.map fin) →
        xs.length = tt.sr.cv.titrant_mass.length := by
      intro k xs hk
      have := t1 _ _ hk
      rwa [List.length_map] at this
    have hi : i < tt.sr.cv.titrant_mass.length := by
      rw [← hlen _ _ halk]; exact (List.getElem?_eq_some_iff.mp hA).1
    have at_ : ∀ s ∈ shownSpecies.tail, (col s.1)[i]? = some ((col s.1).getD i 0) := by
      intro s hs
      rw [List.getD_eq_getElem?_getD, List.getElem?_eq_getElem (by rw [hlen _ _ (hcol s hs)]; exact hi)]
      rfl
    have mic : ∀ s ∈ shownSpecies.tail, ∀ xs, tt.t.nums.get? s.1 = some (micro xs) →
        xs[i]? = some (fin (1e6 * (col s.1).getD i 0)) := by
      intro s hs xs hx
      apply micro_at
      rw [hcol s hs] at hx
      rw [← Option.some.inj hx, List.getElem?_map, at_ s hs]
      rfl
    have hpi : ∃ p, ps[i]? = some p :=
      ⟨_, List.getElem?_eq_getElem (by rw [hlen _ _ hp]; exact hi)⟩
    obtain ⟨p, hpi⟩ := hpi
    rw [hp] at c1
    have c1 := Option.some.inj c1
    have hH : (col "H").getD i 0 = (10 : ℝ) ^ (-p) := by
      have a := at_ ("H", "$-$[H$^+$]", -1) (by simp [shownSpecies])
      have b := hcol ("H", "$-$[H$^+$]", -1) (by simp [shownSpecies])
      simp only at a b
      rw [c4, ← c1] at b
      have b := congrArg (·[i]?) (Option.some.inj b)
      simp only [List.getElem?_map, hpi, a, Option.map_some] at b
      simp only [neg_fin, pow10_fin] at b
      exact (Flt.fin.inj (Option.some.inj b)).symm
    have hAA : r.alkalinity[i]? = some (fin (1e6 * A)) := by
      apply micro_at
      rw [halk] at c3
      rw [← Option.some.inj c3, List.getElem?_map, hA]
      rfl
    have key := hsys sin r c0 i p (by rw [← c1, List.getElem?_map, hpi]; rfl)
      (fun c => 1e6 * (col c).getD i 0) _ _ _ (by
        intro c hc
        have : ∀ c ∈ sysComps, c ∈ shownSpecies.tail.map Prod.fst := by
          rw [List.map_tail, species_vars]; decide
        obtain ⟨s, hs, rfl⟩ := List.mem_map.mp (this c hc)
        exact mic s hs _ (c2 _ hc))
      (mic ("alk_alpha", "$A_α$", 1) (by simp [shownSpecies]) _ c5)
      (mic ("alk_beta", "$A_β$", 1) (by simp [shownSpecies]) _ c6) hAA
    simp only [shownSpecies, List.tail_cons, List.map_cons, List.map_nil, List.sum_cons, List.sum_nil,
      speciesHeight, Bool.false_eq_true, if_false]
    rw [hH]
    linarith
  · intro s hs hb
    rw [decide_eq_false_iff_not] at hb
    push Not at hb
    obtain ⟨x, hx, hx'⟩ := hb
    rw [hzero s hs ⟨x, hx, not_lt.mpr hx'⟩]
    simp [speciesHeight]

/-! ## A concrete case -/

/-- PyCO2SYS reporting 1 µmol/kg of every species and no α or β, and the alkalinity that follows -/
noncomputable def aSys (s : SysIn) : Py SysOut := .ok
  { alkalinity := s.pH.map fun p =>
      match p with
      | fin p => fin (8 - 1e6 * (10 : ℝ) ^ (-p))
      | _ => nan
    k_CO2 := s.pH.map fun _ => fin 1
    comps := fun _ => s.pH.map fun _ => fin 1
    alkalinity_alpha := s.pH.map fun _ => fin 0
    alkalinity_beta := s.pH.map fun _ => fin 0 }

theorem aSys_adds : SysAdds aSys := by
  intro s r hr i p hp x a b A hx ha hb hA
  rw [← Except.ok.inj hr] at hx ha hb hA
  simp only [List.getElem?_map, hp, Option.map_some, Option.some.injEq, Flt.fin.injEq] at hx ha hb hA
  have e : ∀ c ∈ sysComps, x c = 1 := fun c hc => (hx c hc).symm
  rw [e "HCO3" (by decide), e "CO3" (by decide), e "BOH4" (by decide), e "PO4" (by decide),
    e "HPO4" (by decide), e "H3PO4" (by decide), e "HSO4" (by decide), e "HF" (by decide),
    e "H3SiO4" (by decide), e "NH3" (by decide), e "HS" (by decide), e "OH" (by decide), ← ha, ← hb, ← hA]
  ring

theorem aSys_total : SysTotal aSys := by
  intro s
  refine ⟨_, rfl, ?_, ?_, ?_, ?_, ?_⟩ <;> simp

theorem a_made : ∃ tt, Titration_init tW aSys (tRow (some (.num (fin 1)))) p2Arg = .ok tt ∧
    tt.sr = p2Out := by
  have hm : titrationSetting p2Arg (tRow (some (.num (fin 1)))).dict "analyte_mass" = some (.num (fin 1)) := by
    rw [p2_set]; with_unfolding_all rfl
  exact C88_made tW aSys aSys_total _ _ _ p2_nodup.1 p2_nodup.2 _ p2_row p2_solve (by simp [tCv, p2Out])
    (by simp [tCv, p2Out]) (by
      intro k xs h
      have h' := Dict.mem_of_get? h
      simp [tKs, p2Out] at h') (fin 1) _ hm rfl

/-- the contents of the species at the two points -/
noncomputable def twoCols (k : String) : List ℝ :=
  if k = "H" then [(10 : ℝ) ^ (-8 : ℝ), (10 : ℝ) ^ (-3.5 : ℝ)]
  else if k = "alk_alpha" ∨ k = "alk_beta" then [0 * 1e-6, 0 * 1e-6] else [1 * 1e-6, 1 * 1e-6]

theorem two_cols {sys : SysIn → Py SysOut} {tt : Titration}
    (h : Titration_init tW sys (tRow (some (.num (fin 1)))) p2Arg = .ok tt) (hs : tt.sr = p2Out)
    (h1 : ∀ s r, sys s = .ok r → (∀ c, r.comps c = s.pH.map fun _ => fin 1) ∧
      r.alkalinity_alpha = (s.pH.map fun _ => fin 0) ∧ r.alkalinity_beta = s.pH.map fun _ => fin 0) :
    tt.t.nums.get? "pH" = some ([8, 3.5].map fin) ∧
    ∀ s ∈ shownSpecies.tail, tt.t.nums.get? s.1 = some ((twoCols s.1).map fin) := by
  have hne : ∀ s T, tt.sr.sr ≠ .emf s T := by rw [hs]; intro s T hc; cases hc
  obtain ⟨t1, -, -, -, sin, r, c0, c1, c2, c3, c4, c5, c6⟩ := titration_table h
  obtain ⟨_, _, _, hp', -⟩ := C87_pH _ _ _ _ _ p2_nodup.1 p2_nodup.2 h hne
  rw [c1] at hp'
  have hp : sin.pH = [fin 8, fin 3.5] := by rw [Option.some.inj hp', hs]; rfl
  obtain ⟨r1, r2, r3⟩ := h1 sin r c0
  rw [c1, hp]
  refine ⟨rfl, fun s hss => ?_⟩
  have : s.1 = "H" ∨ s.1 = "alk_alpha" ∨ s.1 = "alk_beta" ∨ s.1 ∈ sysComps := by
    have h2 : s.1 ∈ shownSpecies.tail.map Prod.fst := List.mem_map.mpr ⟨s, hss, rfl⟩
    rw [List.map_tail, species_vars] at h2
    have : ∀ k ∈ componentVars.tail, k = "H" ∨ k = "alk_alpha" ∨ k = "alk_beta" ∨ k ∈ sysComps := by decide
    exact this _ h2
  rcases this with e | e | e | e
  · rw [e, c4, hp]; rfl
  · rw [e, c5, r2, hp]; rfl
  · rw [e, c6, r3, hp]; rfl
  · have hx : ∀ k ∈ sysComps, ¬ k = "H" ∧ ¬ (k = "alk_alpha" ∨ k = "alk_beta") := by decide
    obtain ⟨x1, x2⟩ := hx _ e
    rw [c2 _ e, r1, hp, twoCols, if_neg x1, if_neg x2]; rfl

open Classical in
/-- C103_sum applies: what is shown adds up at both points -/
example : ∃ tt, Titration_init tW aSys (tRow (some (.num (fin 1)))) p2Arg = .ok tt ∧
    ∀ i A : _, [(8 - 1e6 * (10 : ℝ) ^ (-8 : ℝ)) * 1e-6, (8 - 1e6 * (10 : ℝ) ^ (-3.5 : ℝ)) * 1e-6][i]? = some A →
    ((shownSpecies.tail.filter fun s => decide (∀ x ∈ twoCols s.1, 0 < x)).map fun s =>
      speciesHeight false s.2.2 ((twoCols s.1).getD i 0)).sum = A * 1e6 := by
  obtain ⟨tt, h, hs⟩ := a_made
  obtain ⟨hp, hcol⟩ := two_cols h hs (by
    intro s r hr
    rw [← Except.ok.inj hr]
    exact ⟨fun _ => rfl, rfl, rfl⟩)
  refine ⟨tt, h, fun i A hA => C103_sum tW aSys aSys_adds _ _ tt h twoCols hcol _ _ hp ?_ i A hA ?_⟩
  · obtain ⟨-, -, -, -, sin, r, c0, c1, -, c3, -⟩ := titration_table h
    rw [hp] at c1
    rw [c3, ← Except.ok.inj c0]
    simp only [← Option.some.inj c1]
    rfl
  · intro s hss hx
    obtain ⟨x, hx, hx'⟩ := hx
    have hi : i < 2 := (List.getElem?_eq_some_iff.mp hA).1
    unfold twoCols at hx ⊢
    split_ifs at hx ⊢ with h1 h2
    · simp only [List.mem_cons, List.not_mem_nil, or_false] at hx
      exfalso
      apply hx'
      rcases hx with rfl | rfl <;> positivity
    · rcases i with _ | _ | i
      · simp
      · simp
      · omega
    · simp only [List.mem_cons, List.not_mem_nil, or_false, or_self] at hx
      subst hx
      norm_num at hx'

/-- an interpolation -/
noncomputable def flatPchip : Pchip := fun _ _ x => .ok (x.map fun _ => fin 0)

open Classical in
/-- The rest of C103 applies: hydrogen ion and the twelve species are shown; α and β are not -/
example : ∃ (tt : Titration) (col : String → List ℝ) (fig : Figure), Titration_init tW tSys (tRow (some (.num (fin 1)))) p2Arg = .ok tt ∧
    (∀ s ∈ shownSpecies, tt.t.nums.get? s.1 = some ((col s.1).map fin)) ∧
    plot_components flatPchip tt true = .ok fig ∧
    (∀ c ∈ "H" :: sysComps, ∀ x ∈ col c, 0 < x) ∧ ¬ (∀ x ∈ col "alk_alpha", 0 < x) ∧
    .points none true [(fin 0 * fin 1e3, fin 8), (fin 1 * fin 1e3, fin 3.5)] ∈ fig.artists ∧
    .line (some "+2[CO$_3^{2-}$]")
      (((spaced 0 1).map fun x => fin (x * 1e3)).zip (((spaced 0 1).map fin).map fun _ => fin 0))
        ∈ fig.artists := by
  obtain ⟨tt, h, hs⟩ := p2_made
  obtain ⟨hp, hcol⟩ := two_cols h hs (by
    intro s r hr
    rw [← Except.ok.inj hr]
    exact ⟨fun _ => rfl, rfl, rfl⟩)
  have ha : tt.sr.sr.alks = some p2Res.alkalinity_all := by rw [hs]; rfl
  obtain ⟨est, e1, e2, -, e3⟩ := C63_estimate _ _ tSys_agrees _ _ tt p2_nodup.1 p2_nodup.2 h _ _ _ _ _
    (p2_real hs) _ ha
  obtain ⟨x0, -, y0⟩ := e3 0 0 rfl
  obtain ⟨x1, -, y1⟩ := e3 1 1 rfl
  have he : ∃ ys : List ℝ, est = ys.map fin := by
    rcases est with _ | ⟨a, _ | ⟨b, _ | _⟩⟩ <;> simp at e2 y0 y1
    exact ⟨[_, _], by rw [y0, y1]; rfl⟩
  obtain ⟨ys, rfl⟩ := he
  let col : String → List ℝ := fun k => if k = "alkalinity_estimate" then ys else twoCols k
  have hall : ∀ s ∈ shownSpecies, tt.t.nums.get? s.1 = some ((col s.1).map fin) := by
    intro s hss
    rcases List.mem_cons.mp (show s ∈ ("alkalinity_estimate", "Total", 1) :: shownSpecies.tail from hss) with
      rfl | hss
    · exact e1
    · have : s.1 ≠ "alkalinity_estimate" := by
        have h2 : s.1 ∈ shownSpecies.tail.map Prod.fst := List.mem_map.mpr ⟨s, hss, rfl⟩
        rw [List.map_tail, species_vars] at h2
        have : ∀ k ∈ componentVars.tail, k ≠ "alkalinity_estimate" := by decide
        exact this _ h2
      simp only [col, if_neg this]
      exact hcol s hss
  have hpos : ∀ c ∈ "H" :: sysComps, ∀ x ∈ col c, 0 < x := by
    intro c hc x hx
    have : ∀ c ∈ "H" :: sysComps, c ≠ "alkalinity_estimate" ∧ ¬ (c = "alk_alpha" ∨ c = "alk_beta") := by
      decide
    obtain ⟨n1, n2⟩ := this c hc
    simp only [col, if_neg n1, twoCols, if_neg n2] at hx
    split_ifs at hx
    all_goals
      simp only [List.mem_cons, List.not_mem_nil, or_false, or_self] at hx
    · rcases hx with rfl | rfl <;> positivity
    · subst hx; norm_num
  obtain ⟨fig, hf⟩ := C103_drawn _ _ _ _ _ p2_nodup.1 p2_nodup.2 h flatPchip (fun _ _ _ => ⟨_, rfl⟩) true
  have htm : tt.sr.cv.titrant_mass = ([0, 1] : List ℝ).map fin := by rw [hs]; rfl
  refine ⟨tt, col, fig, h, hall, hf, hpos, ?_, ?_, ?_⟩
  · intro hc
    have := hc (0 * 1e-6) (by simp [col, twoCols])
    norm_num at this
  · obtain ⟨u, hu, hd⟩ := C103_pH _ _ _ _ _ p2_nodup.1 p2_nodup.2 h flatPchip fig hf _ hp
    have hu' : u = [true, true] := by
      have := (titration_table h).2.2.1
      rw [hu] at this
      rw [Option.some.inj this, hs]
      simp only [p2Out, SolveRes.useds, p2Res, phRes, pH_used, List.map_cons, List.map_nil, le_fin]
      norm_num
    have := hd true
    rw [htm, hu'] at this
    exact this
  · obtain ⟨curve, q1, q2⟩ := C103_curve _ _ _ _ _ p2_nodup.1 p2_nodup.2 h flatPchip true fig hf
      ("CO3", "+2[CO$_3^{2-}$]", 2) (by simp [shownSpecies]) _ _ (hall _ (by simp [shownSpecies]))
      (hpos "CO3" (by decide)) htm (by simp) 0 1 (by simp) (by simp) (by simp) (by simp)
    rw [← Except.ok.inj q1] at q2
    exact q2

end Calk
