import Verif.Lemmas.Order
import Verif.Props.SolvePH
import Verif.Lemmas.Ols
import Verif.Props.EmfFit

/-! # C138: the order of the points -/

namespace Calk
open Flt

/-! ## Specification -/

/-- The optimiser does not mind the order of the residuals: reordered alike at every trial, they lead to the
same estimates and the same residuals, reordered. -/
def Spec.Unordered (ls : LsFun (Flt × Flt)) : Prop :=
  ∀ (n : ℕ) (σ : List ℕ) (f : Flt × Flt → List Flt) (x0 : Flt × Flt) (r : LsqResult (Flt × Flt)),
    σ.Perm (List.range n) → (∀ x, (f x).length = n) → ls (fun x => .ok (f x)) x0 = .ok r →
    ∃ r', ls (fun x => .ok (pick nan σ (f x))) x0 = .ok r' ∧ r'.x = r.x ∧ r'.fun_.Perm r.fun_

/-! ## Parts -/

theorem idx_lt {idx : List ℕ} {n : ℕ} (h : idx.Perm (List.range n)) : ∀ i ∈ idx, i < n :=
  fun i hi => by simpa using h.mem_iff.mp hi

theorem pH_used_pick {idx : List ℕ} {pH : List Flt} (h : ∀ i ∈ idx, i < pH.length) (lo hi : Flt) :
    pH_used (pick nan idx pH) lo hi = pick false idx (pH_used pH lo hi) :=
  (pick_map nan false _ idx pH h).symm

theorem emf_to_pH_pick {idx : List ℕ} {emf T : List Flt} (h1 : ∀ i ∈ idx, i < emf.length)
    (h2 : ∀ i ∈ idx, i < T.length) (e : Flt) :
    emf_to_pH_arr (pick nan idx emf) e (pick nan idx T) = pick nan idx (emf_to_pH_arr emf e T) :=
  (pick_zipWith nan nan nan _ idx emf T h1 h2).symm

theorem zip3_pick {idx : List ℕ} {a b c : List Flt} (h1 : ∀ i ∈ idx, i < a.length)
    (h2 : ∀ i ∈ idx, i < b.length) (h3 : ∀ i ∈ idx, i < c.length) (f : Flt → Flt → Flt → Flt) :
    zip3With f (pick nan idx a) (pick nan idx b) (pick nan idx c) = pick nan idx (zip3With f a b c) := by
  unfold zip3With
  rw [pick_zipWith nan (nan, nan) nan _ idx a _ h1 (fun i hi => by
    rw [List.length_zip]; exact lt_min (h2 i hi) (h3 i hi))]
  congr 1
  rw [List.zip_eq_zipWith, List.zip_eq_zipWith, pick_zipWith nan nan (nan, nan) _ idx b c h2 h3]

theorem phAll_pick {idx : List ℕ} {c M n : Flt} {tm pH : List Flt} {totals ks : Dict NpVal}
    (hi : ∀ i ∈ idx, i < pH.length) (hl : tm.length = pH.length)
    (hf : dictFits pH.length totals = true) (hf' : dictFits pH.length ks = true) :
    phAll c (pick nan idx tm) (pick nan idx pH) M (reindexD idx totals) (reindexD idx ks) n
      = pick nan idx (phAll c tm pH M totals ks n) := by
  unfold phAll
  rw [alkList_reindex hf hf' hi, pick_zipWith nan nan nan _ idx _ tm
    (by rw [alkList_length]; exact hi) (by rw [hl]; exact hi)]

/-- the points of a Gran fit, reordered -/
theorem gran_pick {idx : List ℕ} {tm emf T : List Flt} {M c n : Flt} {logic : String} {g : GranGuesses}
    (hp : idx.Perm (List.range emf.length)) (hg : gran_guesses tm emf T M c n logic = .ok g)
    (hu : gran_used (pick nan idx g.ga.gfunc) logic = .ok (pick false idx g.ga.used)) :
    ∃ g', gran_guesses (pick nan idx tm) (pick nan idx emf) (pick nan idx T) M c n logic = .ok g' ∧
      g'.ga.alkalinity = g.ga.alkalinity ∧ g'.emf0 = g.emf0 ∧ g'.ga.lr = g.ga.lr ∧
      g'.ga.used = pick false idx g.ga.used ∧ g'.ga.gfunc = pick nan idx g.ga.gfunc ∧
      g'.emf0s = pick nan idx g.emf0s ∧ g'.pH = pick nan idx g.pH ∧
      g'.ga.warnFew = g.ga.warnFew ∧ g'.ga.warnR = g.ga.warnR := by
  obtain ⟨l1, l2, -⟩ := gran_guesses_ok hg
  have i2 := idx_lt hp
  have i1 : ∀ i ∈ idx, i < tm.length := by rw [l1]; exact i2
  have i3 : ∀ i ∈ idx, i < T.length := by rw [← l2]; exact i2
  simp only [gran_guesses, gran_alkalinity, bind_ok_iff] at hg
  obtain ⟨ga, ⟨_, -, used, hus, lr, hlr, hga⟩, hg⟩ := hg
  cases Except.ok.inj hga
  cases Except.ok.inj hg
  dsimp only at hu
  have hgl : (zip3With (fun m e t => gran_function m e t M) tm emf T).length = emf.length := by
    unfold zip3With; simp [l1, l2]
  have hul : used.length = emf.length := by
    rw [← hgl]
    unfold gran_used at hus
    split at hus
    · rw [bind_ok_iff] at hus
      obtain ⟨mx, -, hus⟩ := hus
      dsimp only at hus
      split at hus
      · cases hus
      · rename_i k hk
        rw [← Except.ok.inj hus]
        have := (List.findIdx?_eq_some_iff_getElem.mp hk).1
        rw [List.length_map] at this
        simp only [List.length_append, List.length_replicate]
        omega
    · split at hus
      · rw [bind_ok_iff] at hus
        obtain ⟨mx, -, hus⟩ := hus
        rw [← Except.ok.inj hus, List.length_map]
      · cases hus
  have hsel : (selIdx idx used).Perm (maskIdx used) := selIdx_perm (by rw [hul]; exact hp)
  have hlin : linregress (mask (pick false idx used) (pick nan idx tm)) (mask (pick false idx used)
      (pick nan idx (zip3With (fun m e t => gran_function m e t M) tm emf T))) = .ok lr := by
    rw [mask_pick, mask_pick, linregress_pick hsel, ← mask_eq_pick nan used tm (by omega),
      ← mask_eq_pick nan used _ (by omega)]
    exact hlr
  have hz0 := zip3_pick i1 i2 i3 (fun m e t => gran_function m e t M)
  have hz1 := zip3_pick i1 i2 i3 (fun m e t => gran_emf0 m e t M c
    (-lr.intercept / lr.slope * c * n / M) n)
  have hmean : npMean (mask (pick false idx used) (pick nan idx (zip3With (fun m e t => gran_emf0 m e t M c
      (-lr.intercept / lr.slope * c * n / M) n) tm emf T)))
      = npMean (mask used (zip3With (fun m e t => gran_emf0 m e t M c
      (-lr.intercept / lr.slope * c * n / M) n) tm emf T)) := by
    rw [mask_pick, mask_eq_pick nan used _ (by unfold zip3With; simp [l1, l2, hul])]
    exact npMean_perm (pick_perm nan hsel _)
  have hlen3 : sameShape3 (pick nan idx tm) (pick nan idx emf) (pick nan idx T) = .ok () := by
    unfold sameShape3; rw [if_pos (by simp [pick_length])]
  have hfew : ((pick false idx used).filter id).length = (used.filter id).length := by
    have : (pick false idx used).Perm used := by
      have := pick_perm false hp used
      rwa [← hul, pick_range] at this
    exact (this.filter _).length_eq
  simp only [gran_guesses, gran_alkalinity, hlen3, bind_ok, hz0, hu, hlin, hz1, hmean, pure_ok]
  refine ⟨_, rfl, rfl, rfl, rfl, rfl, rfl, rfl, emf_to_pH_pick i2 i3 _, ?_, rfl⟩
  simp only [hfew]


/-- the legacy choice of points goes with the points -/
theorem legacy_pick {idx : List ℕ} {gf : List Flt} {used : List Bool}
    (hp : idx.Perm (List.range gf.length)) (h : gran_used gf "legacy" = .ok used) :
    gran_used (pick nan idx gf) "legacy" = .ok (pick false idx used) := by
  unfold gran_used at h ⊢
  rw [if_neg (by decide), if_pos rfl, bind_ok_iff] at h
  obtain ⟨mx, hmx, h⟩ := h
  rw [← Except.ok.inj h, if_neg (by decide), if_pos rfl]
  have hpp : (pick nan idx gf).Perm gf := by
    have := pick_perm nan hp gf
    rwa [pick_range] at this
  rw [npMax_perm hpp, hmx, bind_ok, pick_map nan false _ idx gf (idx_lt hp)]
  rfl

theorem gran_parts {tm emf T : List Flt} {M c n : Flt} {logic : String} {g : GranGuesses}
    (h : gran_guesses tm emf T M c n logic = .ok g) :
    gran_used g.ga.gfunc logic = .ok g.ga.used ∧ g.ga.gfunc.length = emf.length := by
  obtain ⟨l1, l2, -⟩ := gran_guesses_ok h
  simp only [gran_guesses, gran_alkalinity, bind_ok_iff] at h
  obtain ⟨ga, ⟨_, -, used, hus, lr, hlr, hga⟩, hg⟩ := h
  cases Except.ok.inj hga
  cases Except.ok.inj hg
  refine ⟨hus, ?_⟩
  unfold zip3With; simp [l1, l2]

/-! ## Gran estimates -/

/-- C138 (legacy Gran logic): reordering the points changes neither the Gran estimate of the alkalinity, nor the
estimate of the electrode constant, nor the line; the choice of points goes with the points. -/
theorem C138_legacy (idx : List ℕ) (tm emf T : List Flt) (M c n : Flt) (g : GranGuesses)
    (hp : idx.Perm (List.range emf.length)) (hg : gran_guesses tm emf T M c n "legacy" = .ok g) :
    ∃ g', gran_guesses (pick nan idx tm) (pick nan idx emf) (pick nan idx T) M c n "legacy" = .ok g' ∧
      g'.ga.alkalinity = g.ga.alkalinity ∧ g'.emf0 = g.emf0 ∧ g'.ga.lr = g.ga.lr ∧
      g'.ga.used = pick false idx g.ga.used ∧ g'.emf0s = pick nan idx g.emf0s ∧
      g'.ga.warnFew = g.ga.warnFew ∧ g'.ga.warnR = g.ga.warnR := by
  obtain ⟨hu, hl⟩ := gran_parts hg
  obtain ⟨g', h1, h2, h3, h4, h5, -, h6, -, h7, h8⟩ :=
    gran_pick hp hg (legacy_pick (by rw [hl]; exact hp) hu)
  exact ⟨g', h1, h2, h3, h4, h5, h6, h7, h8⟩

/-- C138 (Gran mode for pH data): reordering the points changes neither the alkalinity nor the line. -/
theorem C138_gran_mode (idx : List ℕ) (c M : Flt) (tm pH : List Flt) (o : PHOpts) (r : SolvePHGran)
    (hp : idx.Perm (List.range pH.length)) (hr : solve_pH_gran c tm pH M o = .ok r) :
    ∃ r', solve_pH_gran c (pick nan idx tm) (pick nan idx pH) M o = .ok r' ∧
      r'.alkalinity = r.alkalinity ∧ r'.lr = r.lr ∧ r'.used = pick false idx r.used ∧
      r'.gfunc = pick nan idx r.gfunc := by
  simp only [solve_pH_gran, bind_ok_iff] at hr
  obtain ⟨_, hw, _, hs, lr, hlr, hr⟩ := hr
  cases Except.ok.inj hr
  have hl : tm.length = pH.length := by
    by_contra hc; simp [sameShape2, hc] at hs
  have hi := idx_lt hp
  have hi' : ∀ i ∈ idx, i < tm.length := by rw [hl]; exact hi
  have hs' : sameShape2 (pick nan idx tm) (pick nan idx pH) = .ok () := by
    unfold sameShape2; rw [if_pos (by simp [pick_length])]
  have hz := pick_zipWith nan nan nan (fun m p => (m + M) * Flt.pow10 (-p)) idx tm pH hi' hi
  have hsel : (selIdx idx (pH_used pH o.pH_min o.pH_max)).Perm (maskIdx (pH_used pH o.pH_min o.pH_max)) :=
    selIdx_perm (by simpa [pH_used] using hp)
  have hlin : linregress (mask (pick false idx (pH_used pH o.pH_min o.pH_max)) (pick nan idx tm))
      (mask (pick false idx (pH_used pH o.pH_min o.pH_max))
      (pick nan idx (List.zipWith (fun m p => (m + M) * Flt.pow10 (-p)) tm pH))) = .ok lr := by
    rw [mask_pick, mask_pick, linregress_pick hsel, ← mask_eq_pick nan _ tm (by simp [pH_used, hl]),
      ← mask_eq_pick nan _ _ (by simp [pH_used, hl])]
    exact hlr
  simp only [solve_pH_gran, hw, hs', bind_ok, pH_used_pick hi, ← hz, hlin, pure_ok]
  exact ⟨_, rfl, rfl, rfl, rfl, rfl⟩

/-- a point whose Gran function exceeds a tenth of the largest is followed by such points only -/
def Spec.TailAbove (gs : List Flt) : Prop :=
  ∀ mx, npMax gs = .ok mx → gs.Pairwise fun a b => (fin 0.1 * mx).lt a = true → (fin 0.1 * mx).lt b = true

theorem tail_replicate {l : List Bool} (h : l.Pairwise fun a b => a = true → b = true) {k : ℕ}
    (hk : l.findIdx? id = some k) : List.replicate k false ++ List.replicate (l.length - k) true = l := by
  induction l generalizing k with
  | nil => simp at hk
  | cons a l ih =>
    rw [List.pairwise_cons] at h
    cases a with
    | true =>
      simp only [List.findIdx?_cons, id, if_true, Option.some.injEq] at hk
      subst hk
      simp only [List.replicate_zero, List.nil_append, Nat.sub_zero, List.length_cons, List.replicate_succ]
      congr 1
      exact (List.eq_replicate_iff.mpr ⟨rfl, fun b hb => h.1 b hb rfl⟩).symm
    | false =>
      simp only [List.findIdx?_cons, id, Bool.false_eq_true, if_false, Option.map_eq_some_iff] at hk
      obtain ⟨j, hj, rfl⟩ := hk
      have := ih h.2 hj
      simp only [List.replicate_succ, List.cons_append, List.length_cons, Nat.add_sub_add_right]
      rw [this]

theorem gran_used_tail {gs : List Flt} {mx : Flt} (hmx : npMax gs = .ok mx) (h : Spec.TailAbove gs)
    (hex : ∃ g ∈ gs, (fin 0.1 * mx).lt g = true) :
    gran_used gs "v23.7+" = .ok (gs.map fun g => (fin 0.1 * mx).lt g) := by
  unfold gran_used
  rw [if_pos rfl, hmx, bind_ok]
  dsimp only
  have hp : (gs.map fun g => (fin 0.1 * mx).lt g).Pairwise fun a b => a = true → b = true := by
    rw [List.pairwise_map]; exact h mx hmx
  cases hk : (gs.map fun g => (fin 0.1 * mx).lt g).findIdx? id with
  | none =>
    rw [List.findIdx?_eq_none_iff] at hk
    obtain ⟨g, hg, hg'⟩ := hex
    have := hk _ (List.mem_map.mpr ⟨g, hg, rfl⟩)
    simp only [id, hg'] at this
    cases this
  | some k =>
    dsimp only
    have := tail_replicate hp hk
    rw [List.length_map] at this
    rw [this]

/-- C138 (default Gran logic): the same, provided that in both orders every point above a tenth of the largest Gran
function is followed by such points only. -/
theorem C138_default (idx : List ℕ) (tm emf T : List Flt) (M c n : Flt) (g : GranGuesses)
    (hp : idx.Perm (List.range emf.length)) (hg : gran_guesses tm emf T M c n "v23.7+" = .ok g)
    (h1 : Spec.TailAbove g.ga.gfunc) (h2 : Spec.TailAbove (pick nan idx g.ga.gfunc)) :
    ∃ g', gran_guesses (pick nan idx tm) (pick nan idx emf) (pick nan idx T) M c n "v23.7+" = .ok g' ∧
      g'.ga.alkalinity = g.ga.alkalinity ∧ g'.emf0 = g.emf0 ∧ g'.ga.lr = g.ga.lr ∧
      g'.ga.used = pick false idx g.ga.used ∧ g'.emf0s = pick nan idx g.emf0s ∧
      g'.ga.warnFew = g.ga.warnFew ∧ g'.ga.warnR = g.ga.warnR := by
  obtain ⟨hu, hl⟩ := gran_parts hg
  have hpp : (pick nan idx g.ga.gfunc).Perm g.ga.gfunc := by
    have := pick_perm nan (show idx.Perm (List.range g.ga.gfunc.length) by rw [hl]; exact hp) g.ga.gfunc
    rwa [pick_range] at this
  have hmx : ∃ mx, npMax g.ga.gfunc = .ok mx ∧ ∃ x ∈ g.ga.gfunc, (fin 0.1 * mx).lt x = true := by
    unfold gran_used at hu
    rw [if_pos rfl, bind_ok_iff] at hu
    obtain ⟨mx, hmx, hu⟩ := hu
    refine ⟨mx, hmx, ?_⟩
    dsimp only at hu
    split at hu
    · cases hu
    · rename_i k hk
      obtain ⟨hk1, hk2, -⟩ := List.findIdx?_eq_some_iff_getElem.mp hk
      rw [List.getElem_map] at hk2
      exact ⟨_, List.getElem_mem (by simpa using hk1), hk2⟩
  obtain ⟨mx, hmx, x, hx, hx'⟩ := hmx
  have e1 := gran_used_tail hmx h1 ⟨x, hx, hx'⟩
  have e2 := gran_used_tail (by rw [npMax_perm hpp]; exact hmx) h2 ⟨x, hpp.mem_iff.mpr hx, hx'⟩
  rw [hu] at e1
  have hu' : gran_used (pick nan idx g.ga.gfunc) "v23.7+" = .ok (pick false idx g.ga.used) := by
    rw [e2, Except.ok.inj e1, pick_map nan false _ idx _ (by rw [hl]; exact idx_lt hp)]
  obtain ⟨g', h1, h2, h3, h4, h5, -, h6, -, h7, h8⟩ := gran_pick hp hg hu'
  exact ⟨g', h1, h2, h3, h4, h5, h6, h7, h8⟩

/-- three points with Gran functions 1, 20 and 100 -/
noncomputable def ordPt (m r : ℝ) : ℝ × ℝ × ℝ := (m, Spec.nernst 0 25 r, 25)

theorem ord_gran {m r : ℝ} (hr : 0 < r) : Spec.gran 1 (ordPt m r) = (m + 1) * r := by
  rw [ordPt, gran_nernst (by norm_num) hr]
  simp

/-- the Gran estimate of three such points, given which are used -/
theorem ord_run {pts : List (ℝ × ℝ × ℝ)} {gs : List ℝ} {u : List Bool} {l : List (ℝ × ℝ)}
    {logic : String}
    (ht : ∀ p ∈ pts, -273.15 < p.2.2) (hg : pts.map (Spec.gran 1) = gs)
    (hu : gran_used (gs.map fin) logic = .ok u)
    (hl1 : mask u (pts.map fun p => fin p.1) = l.map fun p => fin p.1)
    (hl2 : mask u (gs.map fin) = l.map fun p => fin p.2) (h : ∃ p ∈ l, ∃ q ∈ l, p.1 ≠ q.1) (A : ℝ)
    (hA : ∀ a b : ℝ, a * (l.map fun p => p.1 ^ 2).sum + b * (l.map fun p => p.1).sum
        = (l.map fun p => p.1 * p.2).sum →
      a * (l.map fun p => p.1).sum + b * l.length = (l.map fun p => p.2).sum → a ≠ 0 ∧ -b / a = A) :
    ∃ g, gran_guesses (pts.map fun p => fin p.1) (pts.map fun p => fin p.2.1) (pts.map fun p => fin p.2.2)
      (fin 1) (fin 1) (fin 1) logic = .ok g ∧ g.ga.alkalinity = fin A ∧ g.ga.used = u := by
  obtain ⟨lr, a, b, hlr, hs, hi, e1, e2⟩ := linregress_real h
  obtain ⟨ha, hab⟩ := hA a b e1 e2
  simp only [gran_guesses, gran_alkalinity, sameShape3_map, bind_ok, gran_gfunc pts 1 ht, hg, hu, hl1, hl2, hlr,
    pure_ok, hs, hi, neg_fin, div_fin _ _ ha, hab, mul_fin, mul_one, div_fin _ _ one_ne_zero, div_one]
  exact ⟨_, rfl, rfl, rfl⟩

/-- C138 (finding): with the default logic the Gran estimate depends on the order of the points.  Three points with
Gran functions 1, 20, 100 give 3/4; with the first two exchanged, so that the point of 1 comes after the point of 20
and is used too, they give 5/27. -/
theorem C138_default_order : ∃ (tm emf T : List Flt) (idx : List ℕ) (g g' : GranGuesses),
    idx.Perm (List.range 3) ∧ tm.length = 3 ∧
    gran_guesses tm emf T (fin 1) (fin 1) (fin 1) "v23.7+" = .ok g ∧
    gran_guesses (pick nan idx tm) (pick nan idx emf) (pick nan idx T) (fin 1) (fin 1) (fin 1) "v23.7+" = .ok g' ∧
    g.ga.alkalinity = fin (3 / 4) ∧ g'.ga.alkalinity = fin (5 / 27) ∧
    g.ga.used = [false, true, true] ∧ g'.ga.used = [true, true, true] := by
  have g1 : Spec.gran 1 (ordPt 0 1) = 1 := by rw [ord_gran (by norm_num)]; norm_num
  have g2 : Spec.gran 1 (ordPt 1 10) = 20 := by rw [ord_gran (by norm_num)]; norm_num
  have g3 : Spec.gran 1 (ordPt 2 (100 / 3)) = 100 := by rw [ord_gran (by norm_num)]; norm_num
  obtain ⟨g, h1, h2, h3⟩ := ord_run (logic := "v23.7+") (pts := [ordPt 0 1, ordPt 1 10, ordPt 2 (100 / 3)]) (gs := [1, 20, 100])
    (u := [false, true, true]) (l := [(1, 20), (2, 100)]) (by simp [ordPt]; norm_num) (by simp [g1, g2, g3])
    (by norm_num [gran_used, npMax, fmax2, bind_ok, List.findIdx?, List.findIdx?.go, List.replicate])
    (by simp [mask, ordPt]) (by simp [mask]) ⟨(1, 20), by simp, (2, 100), by simp, by norm_num⟩ (3 / 4) (by
      intro a b e1 e2
      norm_num at e1 e2
      have ha : a = 80 := by linarith
      have hb : b = -60 := by linarith
      rw [ha, hb]; norm_num)
  obtain ⟨g', h1', h2', h3'⟩ := ord_run (logic := "v23.7+") (pts := [ordPt 1 10, ordPt 0 1, ordPt 2 (100 / 3)]) (gs := [20, 1, 100])
    (u := [true, true, true]) (l := [(1, 20), (0, 1), (2, 100)]) (by simp [ordPt]; norm_num) (by simp [g1, g2, g3])
    (by norm_num [gran_used, npMax, fmax2, bind_ok, List.findIdx?, List.findIdx?.go, List.replicate])
    (by simp [mask, ordPt]) (by simp [mask]) ⟨(1, 20), by simp, (2, 100), by simp, by norm_num⟩ (5 / 27) (by
      intro a b e1 e2
      norm_num at e1 e2
      have ha : a = 99 / 2 := by linarith
      have hb : b = -(55 / 6) := by linarith
      rw [ha, hb]; norm_num)
  exact ⟨_, _, _, [1, 0, 2], g, g', by decide, rfl, h1, h1', h2, h2', h3, h3'⟩

/-! ## EMF mode -/

/-- one pass of the EMF solver -/
theorem pass_pick {ls : LsFun (Flt × Flt)} (hls : Spec.Unordered ls) {idx : List ℕ} {c M : Flt}
    {tm emf T : List Flt} {totals ks : Dict NpVal} {o : EmfOpts} {r : SolveEmf} {g' : GranGuesses}
    (hp : idx.Perm (List.range emf.length))
    (hr : solve_emf ls c tm emf T M totals ks o false = .ok r)
    (hg' : gran_guesses (pick nan idx tm) (pick nan idx emf) (pick nan idx T) M c o.titrant_normality
      o.gran_logic = .ok g')
    (ha : o.alkalinity_init = none → g'.ga.alkalinity = r.ggr.ga.alkalinity)
    (he : o.emf0_init = none → g'.emf0 = r.ggr.emf0) :
    ∃ r', solve_emf ls c (pick nan idx tm) (pick nan idx emf) (pick nan idx T) M (reindexD idx totals)
        (reindexD idx ks) o false = .ok r' ∧
      r'.alkalinity = r.alkalinity ∧ r'.emf0 = r.emf0 ∧ r'.alkalinity_std = r.alkalinity_std ∧
      r'.used = pick false idx r.used ∧ r'.pH = pick nan idx r.pH ∧
      r'.alkalinity_all = pick nan idx r.alkalinity_all := by
  obtain ⟨g, opt, hg, hw, hk, hf, hf', hopt, rfl⟩ := solve_emf_false_iff.mp hr
  obtain ⟨l1, l2, hpH⟩ := gran_guesses_ok hg
  obtain ⟨-, -, hpH'⟩ := gran_guesses_ok hg'
  have i2 := idx_lt hp
  have i1 : ∀ i ∈ idx, i < tm.length := by rw [l1]; exact i2
  have i3 : ∀ i ∈ idx, i < T.length := by rw [← l2]; exact i2
  have hpl : ∀ e, (emf_to_pH_arr emf e T).length = emf.length := fun e => emf_to_pH_arr_length l2
  have hul : (emfStart o g emf T).used.length = emf.length := emfStart_used_length hg
  have hs1 : (emfStart o g' (pick nan idx emf) (pick nan idx T)).alk = (emfStart o g emf T).alk := by
    unfold emfStart
    cases h : o.alkalinity_init with
    | none => exact ha h
    | some a => rfl
  have hs2 : (emfStart o g' (pick nan idx emf) (pick nan idx T)).emf0 = (emfStart o g emf T).emf0 := by
    unfold emfStart
    cases h : o.emf0_init with
    | none => exact he h
    | some a => rfl
  have hs3 : (emfStart o g' (pick nan idx emf) (pick nan idx T)).used
      = pick false idx (emfStart o g emf T).used := by
    unfold emfStart
    cases h : o.emf0_init with
    | none =>
      have : g'.emf0 = g.emf0 := he h
      simp only [hpH, hpH', this]
      rw [emf_to_pH_pick i2 i3, pH_used_pick (by rw [hpl]; exact i2)]
    | some a =>
      simp only
      rw [emf_to_pH_pick i2 i3, pH_used_pick (by rw [hpl]; exact i2)]
  generalize (emfStart o g emf T).used = u at *
  have hres : ∀ x, emfRes c o.titrant_normality M (pick nan idx tm) (pick nan idx emf) (pick nan idx T)
      (reindexD idx totals) (reindexD idx ks) x
      = pick nan idx (emfRes c o.titrant_normality M tm emf T totals ks x) := by
    intro x
    unfold emfRes
    rw [emf_to_pH_pick i2 i3, alkList_reindex (by rw [hpl]; exact hf) (by rw [hpl]; exact hf')
      (by rw [hpl]; exact i2), pick_zipWith nan nan nan _ idx _ tm (by rw [alkList_length, hpl]; exact i2) i1]
  have hrl : ∀ x, (emfRes c o.titrant_normality M tm emf T totals ks x).length = emf.length := by
    intro x; unfold emfRes; rw [List.length_zipWith, alkList_length, hpl, l1]; simp
  have hsel : (selIdx idx u).Perm (maskIdx u) := selIdx_perm (by rw [hul]; exact hp)
  obtain ⟨σ, hσ, hσe⟩ := exists_idx_of_perm 0 hsel
  have hprob : emfProblem c o.titrant_normality M (pick nan idx tm) (pick nan idx emf) (pick nan idx T)
      (reindexD idx totals) (reindexD idx ks) (pick false idx u)
      = fun x => .ok (pick nan σ (mask u (emfRes c o.titrant_normality M tm emf T totals ks x))) := by
    funext x
    unfold emfProblem
    rw [hres, mask_pick, hσe, pick_pick _ _ _ _ (idx_lt hσ), ← mask_eq_pick nan u _ (by rw [hul, hrl])]
  obtain ⟨opt', ho1, ho2, ho3⟩ := hls (maskIdx u).length σ
    (fun x => mask u (emfRes c o.titrant_normality M tm emf T totals ks x)) _ opt hσ (by
      intro x
      rw [mask_eq_pick nan u _ (by rw [hul, hrl]), pick_length]) hopt
  have h0 : emf.length = 0 → idx = [] := by
    intro h0; rw [h0] at hp; simpa using hp
  refine ⟨_, solve_emf_false_iff.mpr ⟨g', opt', hg', hw, hasKsN_reindex.mpr hk, ?_, ?_, ?_, rfl⟩, ?_⟩
  · rw [pick_length]; exact reindexD_fits hf h0
  · rw [pick_length]; exact reindexD_fits hf' h0
  · rw [hs1, hs2, hs3, hprob]; exact ho1
  · simp only [emfResult, ho2, hs3]
    refine ⟨trivial, trivial, ?_, trivial, emf_to_pH_pick i2 i3 _, ?_⟩
    · rw [npStd_perm ho3]
    · rw [emf_to_pH_pick i2 i3, phAll_pick (by rw [hpl]; exact i2) (by rw [hpl, l1])
        (by rw [hpl]; exact hf) (by rw [hpl]; exact hf')]

/-- C138 (EMF mode): when the start does not depend on the order - both start values given, or legacy Gran logic -
and the optimiser does not mind the order of residuals, reordering the points (masses, EMFs, temperatures, totals
and constants alike) changes neither the alkalinity, nor the electrode constant, nor the standard deviation; the
choice of points, the pH values and the alkalinities of the points go with the points.  The solver makes the default
Gran estimate even where it does not use it, so that has to be possible for the new order. -/
theorem C138_emf (ls : LsFun (Flt × Flt)) (hls : Spec.Unordered ls) (idx : List ℕ) (c M : Flt)
    (tm emf T : List Flt) (totals ks : Dict NpVal) (o : EmfOpts) (double : Bool) (r : SolveEmf)
    (hp : idx.Perm (List.range emf.length))
    (hstart : o.gran_logic = "legacy" ∨ (o.gran_logic = "v23.7+" ∧ (∃ a, o.alkalinity_init = some a) ∧
      ∃ e, o.emf0_init = some e))
    (hgran : double = true ∨ o.gran_logic = "v23.7+" → ∃ g, gran_guesses (pick nan idx tm) (pick nan idx emf)
      (pick nan idx T) M c o.titrant_normality "v23.7+" = .ok g)
    (hr : solve_emf ls c tm emf T M totals ks o double = .ok r) :
    ∃ r', solve_emf ls c (pick nan idx tm) (pick nan idx emf) (pick nan idx T) M (reindexD idx totals)
        (reindexD idx ks) o double = .ok r' ∧
      r'.alkalinity = r.alkalinity ∧ r'.emf0 = r.emf0 ∧ r'.alkalinity_std = r.alkalinity_std ∧
      r'.used = pick false idx r.used ∧ r'.pH = pick nan idx r.pH ∧
      r'.alkalinity_all = pick nan idx r.alkalinity_all := by
  have first : ∀ r, solve_emf ls c tm emf T M totals ks o false = .ok r →
      ∃ r', solve_emf ls c (pick nan idx tm) (pick nan idx emf) (pick nan idx T) M (reindexD idx totals)
        (reindexD idx ks) o false = .ok r' ∧
      r'.alkalinity = r.alkalinity ∧ r'.emf0 = r.emf0 ∧ r'.alkalinity_std = r.alkalinity_std ∧
      r'.used = pick false idx r.used ∧ r'.pH = pick nan idx r.pH ∧
      r'.alkalinity_all = pick nan idx r.alkalinity_all := by
    intro r hr
    have hr0 := hr
    obtain ⟨g, opt, hg, -, -, -, -, -, hre⟩ := solve_emf_false_iff.mp hr
    have hgg : r.ggr = g := by rw [hre]; rfl
    rcases hstart with hs | ⟨hs, ⟨a, ha⟩, e, he⟩
    · rw [hs] at hg
      obtain ⟨g', h1, h2, h3, -⟩ := C138_legacy idx tm emf T M c _ g hp hg
      exact pass_pick hls hp hr0 (by rw [hs]; exact h1) (fun _ => by rw [hgg]; exact h2)
        (fun _ => by rw [hgg]; exact h3)
    · obtain ⟨g', h1⟩ := hgran (.inr hs)
      exact pass_pick hls hp hr0 (by rw [hs]; exact h1) (fun h => by rw [ha] at h; cases h)
        (fun h => by rw [he] at h; cases h)
  cases double with
  | false => exact first r hr
  | true =>
    rw [solve_emf_true_eq, bind_ok_iff] at hr
    obtain ⟨r1, h1, h2⟩ := hr
    obtain ⟨r1', e1, e2, e3, -⟩ := first r1 h1
    rw [solve_emf_true_eq, e1, bind_ok, e2, e3]
    obtain ⟨g', hg'⟩ := hgran (.inl rfl)
    exact pass_pick hls hp h2 hg' (fun h => by cases h) (fun h => by cases h)


/-! ## Calibrations -/

theorem pick_short {α : Type} (d : α) {idx : List ℕ} {n : ℕ} (hp : idx.Perm (List.range n)) (hn : n ≤ 1)
    {xs : List α} (hx : xs.length = n) : pick d idx xs = xs := by
  have : idx = List.range n := by
    rcases Nat.le_one_iff_eq_zero_or_eq_one.mp hn with h | h
    · subst h; simpa using hp
    · subst h; simpa using hp
  rw [this, ← hx, pick_range]

theorem reindexD_short {idx : List ℕ} {n : ℕ} (hn : n ≤ 1) {d : Dict NpVal} (hf : dictFits n d = true) :
    reindexD idx d = d := by
  simp only [dictFits, List.all_eq_true] at hf
  unfold reindexD Dict.mapKV
  conv_rhs => rw [← List.map_id d]
  refine List.map_congr_left fun kv hkv => ?_
  have := hf kv hkv
  rcases kv with ⟨k, v⟩
  cases v with
  | scalar x => rfl
  | arr xs =>
    simp only [NpVal.fits, Bool.or_eq_true, beq_iff_eq] at this
    simp only [NpVal.reindex, id]
    rw [if_pos (by omega)]

theorem set_reindexD (idx : List ℕ) (d : Dict NpVal) (k : String) (v : NpVal) :
    (reindexD idx d).set k (v.reindex idx) = reindexD idx (d.set k v) := by
  induction d with
  | nil => rfl
  | cons kv d ih =>
    rcases kv with ⟨k', v'⟩
    show Dict.set ((k', v'.reindex idx) :: reindexD idx d) k _ = _
    simp only [Dict.set]
    split
    · rfl
    · rw [ih]; rfl

/-- adding the titrant goes with the points -/
theorem add_titrant_pick {idx : List ℕ} {tm : List Flt} (hp : idx.Perm (List.range tm.length)) (hn : 2 ≤ tm.length)
    (M c prev : Flt) (tts : List (String × Flt)) (s t : Dict NpVal)
    (h : add_titrant_totals tm M c prev tts s = (.ok (), t)) :
    add_titrant_totals (pick nan idx tm) M c prev tts (reindexD idx s) = (.ok (), reindexD idx t) := by
  have hil : idx.length = tm.length := by simpa using hp.length_eq
  induction tts generalizing s with
  | nil =>
    simp only [add_titrant_totals, PyS.pure_apply, Prod.mk.injEq, true_and] at h ⊢
    rw [h]
  | cons tt rest ih =>
    rcases tt with ⟨k, f⟩
    simp only [add_titrant_totals, PyS.bind_apply, PyS.lift_apply, PyS.get_apply, PyS.set_apply] at h ⊢
    cases ha : pyAssert (titrantPrefix.toList.isPrefixOf k.toList) with
    | error e => rw [ha] at h; simp at h
    | ok a =>
      rw [ha] at h
      simp only at h ⊢
      cases hg : s.get (dropTitrant k) with
      | error e => rw [hg] at h; simp at h
      | ok v =>
        rw [hg] at h
        simp only at h
        have hg' : (reindexD idx s).get (dropTitrant k) = .ok (v.reindex idx) := by
          unfold Dict.get at hg ⊢
          unfold reindexD
          rw [Dict.get?_mapKV]
          cases hh : s.get? (dropTitrant k) with
          | none => rw [hh] at hg; cases hg
          | some w => rw [hh] at hg; cases Except.ok.inj hg; rfl
        rw [hg']
        simp only
        cases hv : v.iadd (titrant_contribution tm M c prev f) with
        | error e => rw [hv] at h; simp at h
        | ok w =>
          rw [hv] at h
          simp only at h
          have hcon : titrant_contribution (pick nan idx tm) M c prev f
              = pick nan idx (titrant_contribution tm M c prev f) :=
            (pick_map nan nan _ idx tm (idx_lt hp)).symm
          have hcl : (titrant_contribution tm M c prev f).length = tm.length := by
            simp [titrant_contribution]
          have hi : ∀ i ∈ idx, i < (titrant_contribution tm M c prev f).length := by
            rw [hcl]; exact idx_lt hp
          have hv' : (v.reindex idx).iadd (titrant_contribution (pick nan idx tm) M c prev f)
              = .ok (w.reindex idx) := by
            rw [hcon]
            cases v with
            | scalar x =>
              simp only [NpVal.iadd, Except.ok.injEq] at hv
              subst hv
              simp only [NpVal.reindex, NpVal.iadd, List.length_map, hcl]
              rw [if_neg (by omega), ← pick_map nan nan (fun y => x + y) idx _ hi]
              rfl
            | arr ys =>
              simp only [NpVal.iadd] at hv
              by_cases hyl : ys.length = (titrant_contribution tm M c prev f).length
              · rw [if_pos hyl] at hv
                cases Except.ok.inj hv
                have hyl' : ys.length = tm.length := by rw [hyl, hcl]
                simp only [NpVal.reindex, NpVal.iadd]
                rw [if_neg (by omega), if_neg (by rw [List.length_zipWith]; omega)]
                simp only
                rw [if_pos (by simp [pick_length])]
                have := pick_zipWith nan nan nan (· + ·) idx ys (titrant_contribution tm M c prev f)
                  (by rw [hyl]; exact hi) hi
                unfold pick at this ⊢
                rw [← this]
              · rw [if_neg hyl] at hv
                split at hv
                · rename_i x hx
                  rw [hx] at hcl
                  simp at hcl
                  omega
                · cases hv
          rw [hv']
          simp only
          rw [set_reindexD]
          exact ih _ h

/-- two runs of the optimiser in step -/
theorem loop_sim {X σ τ : Type} (opt : Lsq X) (f : X → PyS σ (List Flt)) (g : X → PyS τ (List Flt)) (x0 : X)
    (R : σ → τ → Prop)
    (h : ∀ x s s' r t, R s s' → f x s = (.ok r, t) → ∃ t', g x s' = (.ok r, t') ∧ R t t')
    (n : ℕ) (hist : List (X × List Flt)) (s : σ) (s' : τ) (hs : R s s') (r : LsqResult X) (t : σ)
    (hr : opt.loop f x0 n hist s = (.ok r, t)) :
    ∃ t', opt.loop g x0 n hist s' = (.ok r, t') ∧ R t t' := by
  induction n generalizing hist s s' with
  | zero =>
    simp only [Lsq.loop, Prod.mk.injEq] at hr ⊢
    obtain ⟨h1, rfl⟩ := hr
    exact ⟨s', ⟨h1, rfl⟩, hs⟩
  | succ n ih =>
    simp only [Lsq.loop] at hr ⊢
    cases hx : opt.next x0 hist with
    | none =>
      rw [hx] at hr
      simp only [Prod.mk.injEq] at hr ⊢
      obtain ⟨h1, rfl⟩ := hr
      exact ⟨s', ⟨h1, rfl⟩, hs⟩
    | some x =>
      rw [hx] at hr
      simp only at hr ⊢
      rcases hfx : f x s with ⟨a, t1⟩
      rw [hfx] at hr
      cases a with
      | error e => simp at hr
      | ok a =>
        simp only at hr
        obtain ⟨t1', h1, h2⟩ := h x s s' a t1 hs hfx
        rw [h1]
        exact ih _ _ _ h2 hr

/-- a calibration of reordered points, for a solver that does not mind the order -/
theorem calibrate_pick (opt : Lsq Flt) {idx : List ℕ} {tm : List Flt} (hp : idx.Perm (List.range tm.length))
    (hn : 2 ≤ tm.length) {solver solver' : Flt → Dict NpVal → Py Flt}
    (hs : ∀ c d a, solver c d = .ok a → solver' c (reindexD idx d) = .ok a)
    (cert M x0 : Flt) (tts : List (String × Flt)) (totals final : Dict NpVal) (r : LsqResult Flt)
    (h : opt.run (lsqfun_calibrate solver cert tm M tts) x0 totals = (.ok r, final)) :
    opt.run (lsqfun_calibrate solver' cert (pick nan idx tm) M tts) x0 (reindexD idx totals)
      = (.ok r, reindexD idx final) := by
  obtain ⟨t', h1, h2⟩ := loop_sim opt _ (lsqfun_calibrate solver' cert (pick nan idx tm) M tts) x0
    (fun s s' => s' = reindexD idx s) (by
      intro x s s' r t hss hf
      subst hss
      unfold lsqfun_calibrate at hf ⊢
      simp only [PyS.bind_apply, PyS.get_apply, PyS.lift_apply, PyS.pure_apply] at hf ⊢
      rcases ha : add_titrant_totals tm M x (fin 0) tts s with ⟨a, s1⟩
      rw [ha] at hf
      cases a with
      | error e => simp at hf
      | ok a =>
        rw [add_titrant_pick hp hn _ _ _ _ _ _ ha]
        simp only at hf ⊢
        cases hv : solver x s1 with
        | error e => rw [hv] at hf; simp at hf
        | ok v =>
          rw [hv] at hf
          rw [hs _ _ _ hv]
          simp only at hf ⊢
          rcases hb : add_titrant_totals tm M (fin 0) x tts s1 with ⟨b, s2⟩
          rw [hb] at hf
          cases b with
          | error e => simp at hf
          | ok b =>
            rw [add_titrant_pick hp hn _ _ _ _ _ _ hb]
            simp only [Prod.mk.injEq] at hf ⊢
            obtain ⟨h1, rfl⟩ := hf
            exact ⟨_, ⟨h1, rfl⟩, rfl⟩) opt.maxEval [] totals _ rfl r final h
  rw [h2] at h1
  exact h1

/-- C138 (calibration on pH data): the titrant molinity found, and everything else the optimiser reports, does not
depend on the order of the points; the totals left behind go with the points. -/
theorem C138_calibrate_pH (opt : Lsq Flt) (idx : List ℕ) (cert M : Flt) (tm pH : List Flt) (ks : Dict NpVal)
    (lo hi x0 n : Flt) (tts : List (String × Flt)) (totals final : Dict NpVal) (r : LsqResult Flt)
    (hp : idx.Perm (List.range pH.length)) (hl : tm.length = pH.length)
    (hft : dictFits pH.length totals = true) (hfk : dictFits pH.length ks = true)
    (h : calibrate_pH opt cert tm pH M ks lo hi x0 n tts totals = (.ok r, final)) :
    ∃ final', calibrate_pH opt cert (pick nan idx tm) (pick nan idx pH) M (reindexD idx ks) lo hi x0 n tts
      (reindexD idx totals) = (.ok r, final') ∧ (2 ≤ pH.length → final' = reindexD idx final) := by
  by_cases hn : 2 ≤ pH.length
  · refine ⟨_, calibrate_pick opt (by rw [hl]; exact hp) (by rw [hl]; exact hn) ?_ cert M x0 tts totals final r h,
      fun _ => rfl⟩
    intro c d a hd
    rw [bind_ok_iff] at hd ⊢
    obtain ⟨sr, h1, h2⟩ := hd
    obtain ⟨sr', e1, e2, -⟩ := C15_order c M tm pH d ks _ sr idx hp h1
    exact ⟨sr', e1, by rw [e2]; exact h2⟩
  · have hn' : pH.length ≤ 1 := by omega
    rw [pick_short nan hp hn' hl, pick_short nan hp hn' rfl, reindexD_short hn' hft, reindexD_short hn' hfk]
    exact ⟨final, h, fun hc => absurd hc hn⟩

/-- C138 (calibration in Gran mode): likewise. -/
theorem C138_calibrate_gran (opt : Lsq Flt) (idx : List ℕ) (cert M : Flt) (tm pH : List Flt)
    (lo hi x0 n : Flt) (tts : List (String × Flt)) (totals final : Dict NpVal) (r : LsqResult Flt)
    (hp : idx.Perm (List.range pH.length)) (hl : tm.length = pH.length)
    (hft : dictFits pH.length totals = true)
    (h : calibrate_pH_gran opt cert tm pH M lo hi x0 n tts totals = (.ok r, final)) :
    ∃ final', calibrate_pH_gran opt cert (pick nan idx tm) (pick nan idx pH) M lo hi x0 n tts
      (reindexD idx totals) = (.ok r, final') ∧ (2 ≤ pH.length → final' = reindexD idx final) := by
  by_cases hn : 2 ≤ pH.length
  · refine ⟨_, calibrate_pick opt (by rw [hl]; exact hp) (by rw [hl]; exact hn) ?_ cert M x0 tts totals final r h,
      fun _ => rfl⟩
    intro c d a hd
    rw [bind_ok_iff] at hd ⊢
    obtain ⟨sr, h1, h2⟩ := hd
    obtain ⟨sr', e1, e2, -⟩ := C138_gran_mode idx c M tm pH _ sr hp h1
    exact ⟨sr', e1, by rw [e2]; exact h2⟩
  · have hn' : pH.length ≤ 1 := by omega
    rw [pick_short nan hp hn' hl, pick_short nan hp hn' rfl, reindexD_short hn' hft]
    exact ⟨final, h, fun hc => absurd hc hn⟩

/-- C138 (calibration in EMF mode): likewise, when both start values of the solver are given, the default Gran
estimate is possible for the new order, and the solver's optimiser does not mind the order of residuals. -/
theorem C138_calibrate_emf (opt : Lsq Flt) (ls : LsFun (Flt × Flt)) (hls : Spec.Unordered ls) (idx : List ℕ)
    (cert M : Flt) (tm emf T : List Flt) (ks : Dict NpVal) (a0 e0 : Flt) (double : Bool)
    (lo hi x0 n : Flt) (tts : List (String × Flt)) (totals final : Dict NpVal) (r : LsqResult Flt)
    (hp : idx.Perm (List.range emf.length)) (hl : tm.length = emf.length)
    (hn : 2 ≤ emf.length)
    (hgran : ∀ c, ∃ g, gran_guesses (pick nan idx tm) (pick nan idx emf) (pick nan idx T) M c n "v23.7+" = .ok g)
    (h : calibrate_emf opt ls cert tm emf T M ks (some a0) (some e0) double lo hi x0 n tts totals
      = (.ok r, final)) :
    calibrate_emf opt ls cert (pick nan idx tm) (pick nan idx emf) (pick nan idx T) M (reindexD idx ks)
      (some a0) (some e0) double lo hi x0 n tts (reindexD idx totals) = (.ok r, reindexD idx final) := by
  refine calibrate_pick opt (by rw [hl]; exact hp) (by rw [hl]; exact hn) ?_ cert M x0 tts totals final r h
  intro c d a hd
  rw [bind_ok_iff] at hd ⊢
  obtain ⟨sr, h1, h2⟩ := hd
  obtain ⟨sr', e1, e2, -⟩ := C138_emf ls hls idx c M tm emf T d ks _ double sr hp
    (.inr ⟨rfl, ⟨_, rfl⟩, _, rfl⟩) (fun _ => hgran c) h1
  exact ⟨sr', e1, by rw [e2]; exact h2⟩


/-! ## Examples -/

/-- the contract on the optimiser can be met -/
theorem lsStay_unordered : Spec.Unordered lsStay := by
  intro n σ f x0 r hσ hf h
  simp only [lsStay, bind_ok, pure_ok, Except.ok.injEq] at h ⊢
  subst h
  refine ⟨_, rfl, rfl, ?_⟩
  have := pick_perm nan (show σ.Perm (List.range (f x0).length) by rw [hf]; exact hσ) (f x0)
  rwa [pick_range] at this

/-- legacy logic: points with Gran functions 1, 6, 7, 10, of which the second and third are used; then the order is
turned round -/
example : ∃ g g', gran_guesses ([0, 5, 6, 9].map fin) ([0, 0, 0, 0].map fin) ([25, 25, 25, 25].map fin)
      (fin 1) (fin 1) (fin 1) "legacy" = .ok g ∧ g.ga.used = [false, true, true, false] ∧
    gran_guesses ([9, 6, 5, 0].map fin) ([0, 0, 0, 0].map fin) ([25, 25, 25, 25].map fin)
      (fin 1) (fin 1) (fin 1) "legacy" = .ok g' ∧ g'.ga.used = [false, true, true, false] ∧
    g.ga.alkalinity = fin (-1) ∧ g'.ga.alkalinity = fin (-1) := by
  have hne : ("legacy" : String) ≠ "v23.7+" := by decide
  obtain ⟨g, h1, h2, h3⟩ := ord_run (logic := "legacy") (pts := [(0, 0, 25), (5, 0, 25), (6, 0, 25), (9, 0, 25)])
    (gs := [1, 6, 7, 10]) (u := [false, true, true, false]) (l := [(5, 6), (6, 7)]) (by simp; norm_num)
    (by simp [Spec.gran]; norm_num)
    (by rw [gran_used, if_neg hne]; norm_num [npMax, fmax2, bind_ok])
    (by simp [mask]) (by simp [mask]) ⟨(5, 6), by simp, (6, 7), by simp, by norm_num⟩ (-1) (by
      intro a b e1 e2
      norm_num at e1 e2
      have ha : a = 1 := by linarith
      have hb : b = 1 := by linarith
      rw [ha, hb]; norm_num)
  obtain ⟨g', e1, e2, -, -, e5, -⟩ := C138_legacy [3, 2, 1, 0] _ _ _ _ _ _ g (by simp; decide) h1
  exact ⟨g, g', h1, h3, e1, by rw [e5, h3]; rfl, h2, by rw [e2, h2]⟩

/-- default logic: points with Gran functions 1, 20, 100 in the orders (1, 20, 100) and (1, 100, 20) -/
example : Spec.TailAbove ([1, 20, 100].map fin) ∧ Spec.TailAbove (pick nan [0, 2, 1] ([1, 20, 100].map fin)) ∧
    ¬ Spec.TailAbove (pick nan [1, 0, 2] ([1, 20, 100].map fin)) := by
  have h1 : npMax ([1, 20, 100].map fin) = .ok (fin 100) := by norm_num [npMax, fmax2]
  have h2 : npMax (pick nan [0, 2, 1] ([1, 20, 100].map fin)) = .ok (fin 100) := by
    norm_num [npMax, fmax2, pick]
  have h3 : npMax (pick nan [1, 0, 2] ([1, 20, 100].map fin)) = .ok (fin 100) := by
    norm_num [npMax, fmax2, pick]
  refine ⟨?_, ?_, ?_⟩
  · intro mx hmx
    rw [h1] at hmx
    cases Except.ok.inj hmx
    simp; norm_num
  · intro mx hmx
    rw [h2] at hmx
    cases Except.ok.inj hmx
    simp [pick]; norm_num
  · intro h
    have := h _ h3
    simp [pick] at this
    norm_num at this

/-- EMF mode: three points of a strong acid titration, and the same with the last point first -/
example : ∃ sr sr', solve_emf lsStay (fin 1) ([1, 2, 3].map fin) (fitEmf.map fin)
      ([25, 25, 25].map fin) (fin 1) [] [] (fitO 500000) false = .ok sr ∧ sr.used = [true, true, true] ∧
    solve_emf lsStay (fin 1) (pick nan [2, 0, 1] ([1, 2, 3].map fin)) (pick nan [2, 0, 1] (fitEmf.map fin))
      (pick nan [2, 0, 1] ([25, 25, 25].map fin)) (fin 1) [] [] (fitO 500000) false = .ok sr' ∧
    sr'.alkalinity = sr.alkalinity ∧ sr'.alkalinity_std = sr.alkalinity_std := by
  obtain ⟨sr, h, -, hu⟩ := fit_solves 500000
  obtain ⟨g, hg, -⟩ := C19_exact 0.5 400 25 1 1 1
    ([3, 1, 2].map fun m => (m, Spec.nernst 400 25 (Spec.strongAcidH 0.5 1 1 1 m), 25))
    ⟨by simp; norm_num, by simp; norm_num, by simp, by simp⟩ (by norm_num) (by norm_num)
    (by norm_num) (by norm_num)
    ⟨_, List.mem_map.mpr ⟨1, by simp, rfl⟩, _, List.mem_map.mpr ⟨2, by simp, rfl⟩, by norm_num,
      by simp; norm_num, by simp; norm_num⟩
  have h1 : pick nan [2, 0, 1] ([1, 2, 3].map fin) = [fin 3, fin 1, fin 2] := rfl
  have h2 : pick nan [2, 0, 1] (fitEmf.map fin) = [3, 1, 2].map
      fun m => fin (Spec.nernst 400 25 (Spec.strongAcidH 0.5 1 1 1 m)) := rfl
  have h3 : pick nan [2, 0, 1] ([25, 25, 25].map fin) = [fin 25, fin 25, fin 25] := rfl
  obtain ⟨sr', e1, e2, -, e3, -⟩ := C138_emf lsStay lsStay_unordered [2, 0, 1] _ _ _ _ _ _ _ _ _ sr
    (by simp [fitEmf]; decide) (.inr ⟨rfl, ⟨_, rfl⟩, _, rfl⟩)
    (fun _ => ⟨g, by rw [h1, h2, h3]; exact hg⟩) h
  exact ⟨sr, sr', h, hu, e1, e2, e3⟩

/-- an optimiser that evaluates the start and stops there -/
noncomputable def ordLsq : Lsq Flt where
  next := fun x0 hist => if hist.isEmpty then some x0 else none
  finish := fun x0 hist => .ok { x := x0, fun_ := (hist.map Prod.snd).flatten }
  maxEval := 5

/-- Gran mode: two points, and a calibration that adds sulfate to the totals -/
example : (∃ r, solve_pH_gran (fin 1) [fin 1, fin 2] [fin 0, fin 0] (fin 1)
      { pH_min := fin (-1), pH_max := fin 1, titrant_normality := fin 1 } = .ok r) ∧
    ∃ r final, calibrate_pH_gran ordLsq (fin 3) [fin 1, fin 2] [fin 0, fin 0] (fin 1) (fin (-1)) (fin 1) (fin 1)
      (fin 1) [("titrant_total_sulfate", fin 1)] [("total_sulfate", .scalar (fin 0))] = (.ok r, final) := by
  have hs : ∃ r, solve_pH_gran (fin 1) [fin 1, fin 2] [fin 0, fin 0] (fin 1)
      { pH_min := fin (-1), pH_max := fin 1, titrant_normality := fin 1 } = .ok r := by
    obtain ⟨lr, a, b, hlr, -⟩ := linregress_real (l := [(1, 2), (2, 3)])
      ⟨(1, 2), by simp, (2, 3), by simp, by norm_num⟩
    have hlr' : linregress [fin 1, fin 2] [fin 2, fin 3] = .ok lr := hlr
    have hp : (Flt.pow10 (-(fin 0))) = fin 1 := by
      rw [neg_fin, pow10_fin, neg_zero, Real.rpow_zero]
    have hu : pH_used [fin 0, fin 0] (fin (-1)) (fin 1) = [true, true] := by norm_num [pH_used]
    have hz : List.zipWith (fun m p => (m + fin 1) * Flt.pow10 (-p)) [fin 1, fin 2] [fin 0, fin 0]
        = [fin 2, fin 3] := by
      simp only [List.zipWith_cons_cons, List.zipWith_nil_left, hp, add_fin, mul_fin]; norm_num
    have hw : pyAssert ((fin (-1)).lt (fin 1)) = .ok () := by norm_num [pyAssert]
    simp only [solve_pH_gran, hw, bind_ok, hu, sameShape2, List.length_cons, List.length_nil, if_true, hz]
    have m1 : mask [true, true] [fin 1, fin 2] = [fin 1, fin 2] := rfl
    have m2 : mask [true, true] [fin 2, fin 3] = [fin 2, fin 3] := rfl
    rw [m1, m2, hlr']
    exact ⟨_, rfl⟩
  refine ⟨hs, ?_⟩
  obtain ⟨r, hr⟩ := hs
  have ht : ∀ (c p : Flt) (v : NpVal) (w : NpVal), v.iadd (titrant_contribution [fin 1, fin 2] (fin 1) c p (fin 1)) = .ok w →
      add_titrant_totals [fin 1, fin 2] (fin 1) c p [("titrant_total_sulfate", fin 1)] [("total_sulfate", v)]
        = (.ok (), [("total_sulfate", w)]) := by
    intro c p v w hv
    have h1 : pyAssert (titrantPrefix.toList.isPrefixOf "titrant_total_sulfate".toList) = .ok () := by
      rw [show titrantPrefix.toList.isPrefixOf "titrant_total_sulfate".toList = true by decide]; rfl
    have h2 : dropTitrant "titrant_total_sulfate" = "total_sulfate" := by decide
    simp only [add_titrant_totals, PyS.bind_apply, PyS.get_apply, PyS.lift_apply, PyS.pure_apply, PyS.set_apply, h1,
      h2, Dict.get, Dict.get?, List.find?, BEq.rfl, Option.map_some, hv, Dict.set, if_true]
  unfold calibrate_pH_gran Lsq.run
  simp only [ordLsq, Lsq.loop, List.isEmpty_nil, if_true]
  unfold lsqfun_calibrate
  simp only [PyS.bind_apply, PyS.get_apply, PyS.lift_apply, PyS.pure_apply]
  rw [ht (fin 1) (fin 0) (.scalar (fin 0)) _ rfl]
  simp only [hr, bind_ok, pure_ok]
  rw [ht (fin 0) (fin 1) _ _ rfl]
  exact ⟨_, _, rfl⟩


/-- a calibration on pH data, and one in EMF mode -/
example : (∃ r final, calibrate_pH ordLsq (fin 3) [fin 1, fin 2] [fin 3, fin 4] (fin 1) [] (fin 3) (fin 4) (fin 1)
      (fin 1) [] [] = (.ok r, final)) ∧
    ∃ r final, calibrate_emf ordLsq lsStay (fin 3) ([1, 2, 3].map fin) (fitEmf.map fin) ([25, 25, 25].map fin)
      (fin 1) [] (some (fin 500000)) (some (fin 400)) false (fin 0) (fin 1) (fin 1) (fin 1) [] []
      = (.ok r, final) := by
  have hk : HasKsN [] [] 3 := by intro tk _ h; simp [Dict.has] at h
  constructor
  · have hs := solve_pH_eq (c := fin 1) (tm := [fin 1, fin 2]) (pH := [fin 3, fin 4]) (M := fin 1) (totals := [])
      (ks := []) (o := { pH_min := fin 3, pH_max := fin 4, titrant_normality := fin 1 })
      (by norm_num) hk rfl rfl rfl
    unfold calibrate_pH Lsq.run
    simp only [ordLsq, Lsq.loop, List.isEmpty_nil, if_true]
    unfold lsqfun_calibrate
    simp only [add_titrant_totals, PyS.bind_apply, PyS.get_apply, PyS.lift_apply, PyS.pure_apply, hs, bind_ok,
      pure_ok]
    exact ⟨_, _, rfl⟩
  · obtain ⟨sr, h, -⟩ := fit_solves 500000
    have h' : solve_emf lsStay (fin 1) ([1, 2, 3].map fin) (fitEmf.map fin) ([25, 25, 25].map fin) (fin 1) [] []
        ⟨some (fin 500000), some (fin 400), "v23.7+", fin 0, fin 1, fin 1⟩ false = .ok sr := h
    unfold calibrate_emf Lsq.run
    simp only [ordLsq, Lsq.loop, List.isEmpty_nil, if_true]
    unfold lsqfun_calibrate
    simp only [add_titrant_totals, PyS.bind_apply, PyS.get_apply, PyS.lift_apply, PyS.pure_apply, h', bind_ok,
      pure_ok]
    exact ⟨_, _, rfl⟩

end Calk
