import Verif.Lemmas.Gran

/-! Helper lemmas: closed form of `solve_emf`. -/

namespace Calk
open Flt Spec

theorem emf_to_pH_arr_length {emf T : List Flt} {e0 : Flt} (h : emf.length = T.length) :
    (emf_to_pH_arr emf e0 T).length = emf.length := by simp [emf_to_pH_arr, h]

theorem mask_emf_to_pH (u : List Bool) (emf T : List Flt) (e0 : Flt) :
    emf_to_pH_arr (mask u emf) e0 (mask u T) = mask u (emf_to_pH_arr emf e0 T) := by
  simp [emf_to_pH_arr, mask_zipWith]

/-- residual at one point -/
noncomputable def resid (c n M A a m : Flt) : Flt :=
  a - A * get_dilution_factor m M + m * c * n / (m + M)

/-- the residuals on the used points are the used residuals of all points -/
theorem lsqfun_masked {c n M : Flt} {tm emf T : List Flt} {totals ks : Dict NpVal} {u : List Bool}
    (hk : HasKsN totals ks 3) (hl : emf.length = T.length) (hul : u.length = emf.length)
    (ht : dictFits emf.length totals = true) (hk' : dictFits emf.length ks = true)
    (x : Flt × Flt) :
    lsqfun_solve_emf c (mask u tm) (mask u emf) (mask u T) M (reindexD (maskIdx u) totals)
      (reindexD (maskIdx u) ks) n x
      = .ok (mask u (List.zipWith (resid c n M x.1) (alkList totals ks 3 (emf_to_pH_arr emf x.2 T)) tm)) := by
  have hlen := emf_to_pH_arr_length (e0 := x.2) hl
  unfold lsqfun_solve_emf
  simp only [mask_emf_to_pH]
  rw [alkalinity_arr_masked (by simp) hk (by rw [hlen, hul]) (by rw [hlen]; exact ht)
    (by rw [hlen]; exact hk')]
  simp only [bind_ok, pure_ok, mask_zipWith]
  rfl

/-- the start values and selected points of one solve -/
structure EmfStart where
  alk : Flt
  emf0 : Flt
  used : List Bool

noncomputable def emfStart (o : EmfOpts) (ggr : GranGuesses) (emf T : List Flt) : EmfStart :=
  { alk := match o.alkalinity_init with
      | none => ggr.ga.alkalinity
      | some a => a * fin 1e-6
    emf0 := match o.emf0_init with
      | none => ggr.emf0
      | some e => e
    used := pH_used (match o.emf0_init with
      | none => ggr.pH
      | some e => emf_to_pH_arr emf e T) o.pH_min o.pH_max }

/-- all residuals as a function of (alkalinity, EMF0) -/
noncomputable def emfRes (c n M : Flt) (tm emf T : List Flt) (totals ks : Dict NpVal)
    (x : Flt × Flt) : List Flt :=
  List.zipWith (resid c n M x.1) (alkList totals ks 3 (emf_to_pH_arr emf x.2 T)) tm

/-- the problem handed to the optimiser -/
noncomputable def emfProblem (c n M : Flt) (tm emf T : List Flt) (totals ks : Dict NpVal)
    (u : List Bool) (x : Flt × Flt) : Py (List Flt) :=
  .ok (mask u (emfRes c n M tm emf T totals ks x))

/-- the result assembled from the optimiser's answer -/
noncomputable def emfResult (c n M : Flt) (tm emf T : List Flt) (totals ks : Dict NpVal)
    (u : List Bool) (ggr : GranGuesses) (opt : LsqResult (Flt × Flt)) : SolveEmf :=
  { alkalinity := opt.x.1 * fin 1e6, emf0 := opt.x.2, used := u,
    pH := emf_to_pH_arr emf opt.x.2 T, alkalinity_std := npStd opt.fun_ * fin 1e6,
    alkalinity_all := phAll c tm (emf_to_pH_arr emf opt.x.2 T) M totals ks n,
    opt_result := opt, ggr }

theorem gran_guesses_ok {tm emf T : List Flt} {M c n : Flt} {logic : String} {g : GranGuesses}
    (h : gran_guesses tm emf T M c n logic = .ok g) :
    tm.length = emf.length ∧ emf.length = T.length ∧ g.pH = emf_to_pH_arr emf g.emf0 T := by
  simp only [gran_guesses, gran_alkalinity, bind_ok_iff] at h
  obtain ⟨ga, ⟨_, hs, -⟩, h⟩ := h
  have : tm.length = emf.length ∧ emf.length = T.length := by
    by_contra hc; simp [sameShape3, hc] at hs
  simp only [pure_ok, Except.ok.injEq] at h
  subst h
  exact ⟨this.1, this.2, rfl⟩

theorem emfStart_used_length {o : EmfOpts} {tm emf T : List Flt} {M c n : Flt} {logic : String}
    {g : GranGuesses} (h : gran_guesses tm emf T M c n logic = .ok g) :
    (emfStart o g emf T).used.length = emf.length := by
  obtain ⟨-, hl, hp⟩ := gran_guesses_ok h
  simp only [emfStart, pH_used, List.length_map]
  cases o.emf0_init with
  | none => simp only [hp]; exact emf_to_pH_arr_length hl
  | some e => exact emf_to_pH_arr_length hl

/-- one solve: what it takes for `solve_emf(double=False)` to return, and what it returns -/
theorem solve_emf_false_iff {ls : LsFun (Flt × Flt)} {c M : Flt} {tm emf T : List Flt}
    {totals ks : Dict NpVal} {o : EmfOpts} {sr : SolveEmf} :
    solve_emf ls c tm emf T M totals ks o false = .ok sr ↔
      ∃ g opt, gran_guesses tm emf T M c o.titrant_normality o.gran_logic = .ok g ∧
        o.pH_min.lt o.pH_max = true ∧ HasKsN totals ks 3 ∧ dictFits emf.length totals = true ∧
        dictFits emf.length ks = true ∧
        ls (emfProblem c o.titrant_normality M tm emf T totals ks (emfStart o g emf T).used)
          ((emfStart o g emf T).alk, (emfStart o g emf T).emf0) = .ok opt ∧
        sr = emfResult c o.titrant_normality M tm emf T totals ks (emfStart o g emf T).used g opt := by
  rw [solve_emf]
  constructor
  · intro h
    simp only [bind_ok_iff] at h
    obtain ⟨g, hg, _, hw, tu, htu, ku, hku, opt, hopt, a, ha, h⟩ := h
    have hw' : o.pH_min.lt o.pH_max = true := by
      by_contra hc; simp [pyAssert, hc] at hw
    obtain ⟨h1, h2, h3⟩ := gran_guesses_ok hg
    obtain ⟨-, hk, hf, hf', rfl⟩ := alkalinity_arr_ok ha
    rw [emf_to_pH_arr_length h2] at hf hf'
    have hul : (emfStart o g emf T).used.length = emf.length := emfStart_used_length hg
    change maskDict (emfStart o g emf T).used totals = _ at htu
    change maskDict (emfStart o g emf T).used ks = _ at hku
    rw [maskDict_eq (by rw [hul]; exact hf)] at htu
    rw [maskDict_eq (by rw [hul]; exact hf')] at hku
    simp only [Except.ok.injEq] at htu hku
    subst htu hku
    have hfun : lsqfun_solve_emf c (mask (emfStart o g emf T).used tm)
        (mask (emfStart o g emf T).used emf) (mask (emfStart o g emf T).used T) M
        (reindexD (maskIdx (emfStart o g emf T).used) totals)
        (reindexD (maskIdx (emfStart o g emf T).used) ks) o.titrant_normality
        = emfProblem c o.titrant_normality M tm emf T totals ks (emfStart o g emf T).used := by
      funext x
      exact lsqfun_masked hk h2 hul hf hf' x
    refine ⟨g, opt, hg, hw', hk, hf, hf', ?_, ?_⟩
    · rw [← hfun]; exact hopt
    · simp only [pure_ok, Except.ok.injEq] at h
      exact h.symm
  · rintro ⟨g, opt, hg, hw, hk, hf, hf', hopt, rfl⟩
    obtain ⟨h1, h2, h3⟩ := gran_guesses_ok hg
    have hul : (emfStart o g emf T).used.length = emf.length := emfStart_used_length hg
    have hfun : lsqfun_solve_emf c (mask (emfStart o g emf T).used tm)
        (mask (emfStart o g emf T).used emf) (mask (emfStart o g emf T).used T) M
        (reindexD (maskIdx (emfStart o g emf T).used) totals)
        (reindexD (maskIdx (emfStart o g emf T).used) ks) o.titrant_normality
        = emfProblem c o.titrant_normality M tm emf T totals ks (emfStart o g emf T).used := by
      funext x
      exact lsqfun_masked hk h2 hul hf hf' x
    have htu := maskDict_eq (used := (emfStart o g emf T).used) (d := totals) (by rw [hul]; exact hf)
    have hku := maskDict_eq (used := (emfStart o g emf T).used) (d := ks) (by rw [hul]; exact hf')
    simp only [hg, bind_ok, pyAssert, hw, if_true]
    change (maskDict (emfStart o g emf T).used totals >>= _) = _
    rw [htu, bind_ok]
    change (maskDict (emfStart o g emf T).used ks >>= _) = _
    rw [hku, bind_ok]
    rw [← hfun] at hopt
    change (ls (lsqfun_solve_emf c (mask (emfStart o g emf T).used tm)
        (mask (emfStart o g emf T).used emf) (mask (emfStart o g emf T).used T) M
        (reindexD (maskIdx (emfStart o g emf T).used) totals)
        (reindexD (maskIdx (emfStart o g emf T).used) ks) o.titrant_normality)
        ((emfStart o g emf T).alk, (emfStart o g emf T).emf0) >>= _) = _
    rw [hopt, bind_ok, alkalinity_arr_eq (by simp) hk _ (by rw [emf_to_pH_arr_length h2]; exact hf)
      (by rw [emf_to_pH_arr_length h2]; exact hf'), bind_ok]
    rfl

/-- double solving is a solve followed by a solve from its result -/
theorem solve_emf_true_eq {ls : LsFun (Flt × Flt)} {c M : Flt} {tm emf T : List Flt}
    {totals ks : Dict NpVal} {o : EmfOpts} :
    solve_emf ls c tm emf T M totals ks o true =
      (do
        let sr ← solve_emf ls c tm emf T M totals ks o false
        solve_emf ls c tm emf T M totals ks
          { alkalinity_init := some sr.alkalinity, emf0_init := some sr.emf0,
            pH_min := o.pH_min, pH_max := o.pH_max, titrant_normality := o.titrant_normality }
          false) := by
  rw [solve_emf, solve_emf.eq_1 ls c tm emf T M totals ks o false]
  simp only [bind_assoc, pure_bind]

/-- every result of `solve_emf` is the result of one solve -/
theorem solve_emf_last {ls : LsFun (Flt × Flt)} {c M : Flt} {tm emf T : List Flt}
    {totals ks : Dict NpVal} {o : EmfOpts} {double : Bool} {sr : SolveEmf}
    (h : solve_emf ls c tm emf T M totals ks o double = .ok sr) :
    ∃ o' : EmfOpts, o'.pH_min = o.pH_min ∧ o'.pH_max = o.pH_max ∧
      o'.titrant_normality = o.titrant_normality ∧
      solve_emf ls c tm emf T M totals ks o' false = .ok sr := by
  cases double with
  | false => exact ⟨o, rfl, rfl, rfl, h⟩
  | true =>
    rw [solve_emf_true_eq, bind_ok_iff] at h
    obtain ⟨sr1, -, h⟩ := h
    let o' : EmfOpts :=
      { alkalinity_init := some sr1.alkalinity, emf0_init := some sr1.emf0,
        pH_min := o.pH_min, pH_max := o.pH_max, titrant_normality := o.titrant_normality }
    exact ⟨o', rfl, rfl, rfl, h⟩


/-! ### real data -/

/-- pH at a point for real data -/
noncomputable def pHR (E e t : ℝ) : ℝ := -((e - E) / (nslope t * Real.log 10))

noncomputable def pHRs (E : ℝ) (emf T : List ℝ) : List ℝ := List.zipWith (fun e t => pHR E e t) emf T

theorem emf_to_pH_arr_fin {E : ℝ} {emf T : List ℝ} (hT : ∀ t ∈ T, -273.15 < t) :
    emf_to_pH_arr (emf.map fin) (fin E) (T.map fin) = (pHRs E emf T).map fin := by
  apply List.ext_getElem
  · simp [emf_to_pH_arr, pHRs]
  · intro i h1 h2
    simp only [emf_to_pH_arr, pHRs, List.getElem_zipWith, List.getElem_map]
    rw [emf_to_pH_fin (hT _ (List.getElem_mem _))]
    rfl

theorem resid_fin {c n M A a m : ℝ} (h : m + M ≠ 0) :
    resid (fin c) (fin n) (fin M) (fin A) (fin a) (fin m)
      = fin (a - A * (M / (m + M)) + m * c * n / (m + M)) := by
  simp only [resid, get_dilution_factor_fin h, mul_fin, add_fin, sub_fin, div_fin _ _ h]

noncomputable def emfResR (c n M A E : ℝ) (tm emf T : List ℝ) (totals ks : Dict NpVal) : List ℝ :=
  List.zipWith (fun pi m => specAlk totals ks pi.2 pi.1 - A * (M / (m + M)) + m * c * n / (m + M))
    (pHRs E emf T).zipIdx tm

theorem emfRes_fin {c n M A E : ℝ} {tm emf T : List ℝ} {totals ks : Dict NpVal}
    (hT : ∀ t ∈ T, -273.15 < t) (hm : ∀ m ∈ tm, 0 < m + M) (hl : emf.length = T.length)
    (hv : ValidRows totals ks emf.length) (hk : HasKsN totals ks 3) :
    emfRes (fin c) (fin n) (fin M) (tm.map fin) (emf.map fin) (T.map fin) totals ks (fin A, fin E)
      = (emfResR c n M A E tm emf T totals ks).map fin := by
  unfold emfRes
  rw [emf_to_pH_arr_fin hT]
  apply List.ext_getElem
  · simp [emfResR, alkList_length]
  · intro i h1 h2
    have hi : i < (pHRs E emf T).length ∧ i < tm.length := by simpa [emfResR] using h2
    have hi' : i < emf.length := by have := hi.1; simp [pHRs] at this; omega
    simp only [List.getElem_zipWith, List.getElem_map, emfResR, List.getElem_zipIdx, Nat.zero_add]
    rw [alkList_getElem _ _ _ _ _ (by simpa using hi.1)]
    simp only [List.getElem_map]
    rw [alkAt_fin hv hi' hk, resid_fin (hm _ (List.getElem_mem _)).ne']


/-- exact data: all residuals vanish at the truth -/
theorem emfResR_zero {c n M A E : ℝ} {tm emf T pH : List ℝ} {totals ks : Dict NpVal}
    (hl1 : tm.length = emf.length) (hl2 : emf.length = T.length) (hlp : pH.length = emf.length)
    (hm : ∀ m ∈ tm, 0 < m + M) (hT : ∀ t ∈ T, -273.15 < t)
    (hdata : ∀ i, (h1 : i < emf.length) → (h2 : i < T.length) → (h3 : i < tm.length) →
      (h4 : i < pH.length) → emf[i] = nernst E T[i] ((10:ℝ) ^ (-pH[i])) ∧
        specAlk totals ks i pH[i] * (tm[i] + M) = A * M - tm[i] * c * n) :
    emfResR c n M A E tm emf T totals ks = List.replicate emf.length 0 := by
  apply List.ext_getElem
  · simp [emfResR, pHRs]; omega
  intro i hi hi'
  have hi2 : i < emf.length ∧ i < tm.length ∧ i < T.length := by
    simp [emfResR, pHRs] at hi; omega
  obtain ⟨d1, d2⟩ := hdata i hi2.1 hi2.2.2 hi2.2.1 (by omega)
  have hpos := hm _ (List.getElem_mem hi2.2.1)
  have hTi := hT _ (List.getElem_mem hi2.2.2)
  have hp : pHR E emf[i] T[i] = pH[i] := by
    rw [d1, pHR, nernst, Real.log_rpow (by norm_num)]
    have hns := nslope_pos hTi
    have : 8.3144621 * (T[i] + 273.15) / 96.4853365 = nslope T[i] := by
      simp [nslope, ideal_gas, faraday, absolute_zero]
    rw [this]
    have := log10_pos
    field_simp
    ring
  simp only [emfResR, List.getElem_zipWith, List.getElem_zipIdx, pHRs, hp, Nat.zero_add,
    List.getElem_replicate]
  have : specAlk totals ks i pH[i] = (A * M - tm[i] * c * n) / (tm[i] + M) := by
    field_simp; linarith
  rw [this]; field_simp; ring

end Calk
