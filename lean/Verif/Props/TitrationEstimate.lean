import Verif.Props.TitrationTable

/-! # Property C63: the point estimates in the table of a `Titration` -/

namespace Calk
open Flt Spec

/-! ## Specification: what is assumed of PyCO2SYS -/

/-- the totals given to PyCO2SYS at point `i`, in mol/kg -/
noncomputable def SysIn.totalsAt (s : SysIn) (i : ℕ) : Dict Flt :=
  ("dic", s.dic.getD i nan * fin 1e-6) :: s.totals.mapKV fun _ v => v.at_ i * fin 1e-6

/-- the constants given to PyCO2SYS at point `i` -/
noncomputable def SysIn.ksAt (s : SysIn) (i : ℕ) : Dict Flt := s.ks.mapKV fun _ xs => xs.getD i nan

/-- PyCO2SYS agrees with the textbook alkalinity (in µmol/kg, free scale) at every point with finite
pH, non-negative totals and positive constants, if `k_water` and the constants of all totals that
are not zero are given. -/
def SysAgrees (sys : SysIn → Py SysOut) : Prop :=
  ∀ s r, sys s = .ok r → ∀ (i : ℕ) (p : ℝ), s.pH[i]? = some (fin p) →
    NonnegDict (s.totalsAt i) → PosDict (s.ksAt i) → (s.ksAt i).has "k_water" = true →
    (∀ tk ∈ requiredKs 3, rval (s.totalsAt i) 0 tk.1 ≠ 0 → (s.ksAt i).has tk.2 = true) →
    r.alkalinity[i]? = some (fin (1e6 * (Sol.of (s.totalsAt i) (s.ksAt i)).alk 3 ((10 : ℝ) ^ (-p))))

/-- the per-point alkalinities of the solver (the Gran-plot solver gives none) -/
def SolveRes.alks : SolveRes → Option (List Flt)
  | .emf sr _ => some sr.alkalinity_all
  | .pH sr _ _ => some sr.alkalinity_all
  | .pH_gran .. => none

/-! ## The solver -/

theorem emf_opts_normality {kw : Dict Val} {o : EmfOpts} {d : Bool} (h : emf_opts kw = .ok (o, d)) :
    argNum kw "titrant_normality" (fin 1) = .ok o.titrant_normality := by
  unfold emf_opts at h
  simp only [bind_ok_iff] at h
  obtain ⟨a, -, b, -, c, -, e, -, n, hn, h⟩ := h
  have h := Except.ok.inj h
  rw [Prod.mk.injEq] at h
  rw [hn, ← h.1]

theorem emf_alks {ls : LsFun (Flt × Flt)} {c M : Flt} {tm emf T : List Flt}
    {totals ks : Dict NpVal} {o : EmfOpts} {d : Bool} {sr : SolveEmf}
    (h : solve_emf ls c tm emf T M totals ks o d = .ok sr) :
    HasKsN totals ks 3 ∧ tm.length = sr.pH.length ∧
      sr.alkalinity_all = phAll c tm sr.pH M totals ks o.titrant_normality := by
  obtain ⟨o', -, -, hn, h⟩ := solve_emf_last h
  obtain ⟨g, opt, hg, -, hk, -, -, -, rfl⟩ := solve_emf_false_iff.mp h
  obtain ⟨g1, g2, -⟩ := gran_guesses_ok hg
  refine ⟨hk, ?_, ?_⟩
  · simp only [emfResult, emf_to_pH_arr_length g2, g1]
  · simp only [emfResult, hn]

theorem dispatch_alks {w : World} {mode : String} {cv : Converted} {c : Flt}
    {totals ks : Dict NpVal} {kw : Dict Val} {sr : SolveRes} {all : List Flt}
    (h : solve_dispatch w mode cv c totals ks kw = .ok sr) (ha : sr.alks = some all) :
    ∃ n, argNum kw "titrant_normality" (fin 1) = .ok n ∧ HasKsN totals ks 3 ∧
      cv.titrant_mass.length = sr.pHs.length ∧
      all = phAll c cv.titrant_mass sr.pHs cv.analyte_mass totals ks n := by
  unfold solve_dispatch at h
  split at h
  · simp only [bind_ok_iff] at h
    obtain ⟨⟨o, d⟩, ho, s, hs, h⟩ := h
    have h := Except.ok.inj h
    subst h
    obtain ⟨h1, h2, h3⟩ := emf_alks hs
    have hn := emf_opts_normality ho
    rw [argNum_kwargs (by decide)] at hn
    exact ⟨_, hn, h1, h2, by rw [← Option.some.inj ha, h3]; rfl⟩
  · split at h
    · simp only [bind_ok_iff] at h
      obtain ⟨⟨o, d⟩, ho, emf, he, s, hs, h⟩ := h
      have h := Except.ok.inj h
      subst h
      obtain ⟨h1, h2, h3⟩ := emf_alks hs
      have hn := emf_opts_normality ho
      rw [argNum_set _ _ _ (by decide), argNum_kwargs (by decide)] at hn
      exact ⟨_, hn, h1, h2, by rw [← Option.some.inj ha, h3]; rfl⟩
    · split at h
      · simp only [bind_ok_iff] at h
        obtain ⟨o, ho, s, hs, h⟩ := h
        have h := Except.ok.inj h
        subst h
        obtain ⟨-, h1, -, -, h2, h3⟩ := solve_pH_ok hs
        have hn : argNum kw "titrant_normality" (fin 1) = .ok o.titrant_normality := by
          unfold ph_opts at ho
          simp only [bind_ok_iff] at ho
          obtain ⟨c1, -, c2, -, n, hn, ho⟩ := ho
          have ho := Except.ok.inj ho
          rw [argNum_kwargs (by decide)] at hn
          rw [hn, ← ho]
        refine ⟨_, hn, h1, h2, ?_⟩
        rw [← Option.some.inj ha, h3]; rfl
      · split at h
        · simp only [bind_ok_iff] at h
          obtain ⟨o, ho, s, hs, h⟩ := h
          have h := Except.ok.inj h
          subst h
          cases ha
        · cases h

/-! ## The table -/

theorem isConstant_names : (∀ k ∈ calk_to_pyco2_ks.map Prod.fst, isConstant k = true) ∧
    ∀ k ∈ totalNames, isConstant k = false := by decide

theorem numColumns_names (o : SolveOut) (k : String)
    (hk : k ∉ ["titrant_mass", "temperature", "pH", "emf", "gran_func", "gran_emf0", "gran_pH"]) :
    (numColumns o).get? k = none := by
  rw [Dict.get?_eq_none_iff]
  intro hc
  apply hk
  unfold numColumns at hc
  split at hc <;> simp only [Dict.keys, List.map_append, List.map_cons, List.map_nil, List.mem_append,
    List.mem_cons, List.not_mem_nil, or_false] at hc ⊢ <;> tauto

theorem makeTable_ok {o : SolveOut} {t : Table} (h : makeTable o = .ok t) :
    t.rows = o.cv.titrant_mass.length ∧
      ∀ k, ((allColumns o).get? k = none ∧ t.nums.get? k = none) ∨
        ∃ v xs, (allColumns o).get? k = some v ∧ v.column o.cv.titrant_mass.length = .ok xs ∧
          t.nums.get? k = some xs := by
  unfold makeTable at h
  simp only [bind_ok_iff] at h
  obtain ⟨nums, h1, bools, -, h⟩ := h
  have h := Except.ok.inj h
  subst h
  exact ⟨rfl, fun k => mapValsM_get? _ _ _ h1 k⟩

/-- names and shapes of what was solved -/
structure Names (o : SolveOut) : Prop where
  tnodup : o.totals.keys.Nodup
  knodup : o.ks.keys.Nodup
  totals : ∀ k ∈ o.totals.keys, k ∈ totalNames
  dic : "dic" ∈ o.totals.keys
  ks : ∀ k ∈ o.ks.keys, k ∈ calk_to_pyco2_ks.map Prod.fst

theorem names_of_solve {w : World} {f : String} {c S : Flt} {kw : Dict Val} {o : SolveOut}
    (h : files_solve_all w f c S kw = .ok o) : Names o := by
  obtain ⟨totals, tts, mode, hl, -, ha, -⟩ := files_solve_all_ok h
  obtain ⟨n1, n2, n3, n4⟩ := load_names hl
  have hk := add_titrant_keys ha
  exact ⟨by rw [hk]; exact (load_totals hl).1, n4, by rw [hk]; exact n1, by rw [hk]; exact n2, n3⟩

theorem get?_none_of {α : Type} {d : Dict α} {k : String} {l : List String}
    (h : ∀ k ∈ d.keys, k ∈ l) (hk : k ∉ l) : d.get? k = none :=
  (Dict.get?_eq_none_iff _ _).mpr fun hc => hk (h k hc)

theorem allColumns_get? {o : SolveOut} (hn : Names o) (k : String) :
    (allColumns o).get? k = (o.ks.get? k).or ((o.totals.get? k).or ((numColumns o).get? k)) := by
  unfold allColumns
  rw [foldl_set_get? _ _ hn.knodup, foldl_set_get? _ _ hn.tnodup]

theorem not_total_of_const {k : String} (hk : isConstant k = true) : k ∉ totalNames := by
  intro hc
  rw [isConstant_names.2 k hc] at hk
  cases hk

theorem allColumns_const {o : SolveOut} (hn : Names o) {k : String} (hk : isConstant k = true) :
    (allColumns o).get? k = o.ks.get? k := by
  have h3 : k ∉ ["titrant_mass", "temperature", "pH", "emf", "gran_func", "gran_emf0",
      "gran_pH"] := by
    intro hc
    have : ∀ k ∈ ["titrant_mass", "temperature", "pH", "emf", "gran_func", "gran_emf0", "gran_pH"],
      isConstant k = false := by decide
    rw [this k hc] at hk; cases hk
  rw [allColumns_get? hn, get?_none_of hn.totals (not_total_of_const hk), numColumns_names o k h3]
  simp

theorem allColumns_total {o : SolveOut} (hn : Names o) {k : String} (hk : k ∈ totalNames) :
    (allColumns o).get? k = o.totals.get? k := by
  have h2 : k ∉ calk_to_pyco2_ks.map Prod.fst := fun hc =>
    not_total_of_const (isConstant_names.1 k hc) hk
  have h3 : k ∉ ["titrant_mass", "temperature", "pH", "emf", "gran_func", "gran_emf0",
      "gran_pH"] := by
    intro hc
    have : ∀ k ∈ ["titrant_mass", "temperature", "pH", "emf", "gran_func", "gran_emf0", "gran_pH"],
      k ∉ totalNames := by decide
    exact this k hc hk
  rw [allColumns_get? hn, get?_none_of hn.ks h2, numColumns_names o k h3]
  simp

theorem allColumns_num {o : SolveOut} (hn : Names o) {k : String} (h1 : isConstant k = false)
    (h2 : k ∉ totalNames) : (allColumns o).get? k = (numColumns o).get? k := by
  have h3 : k ∉ calk_to_pyco2_ks.map Prod.fst := fun hc => by
    rw [isConstant_names.1 k hc] at h1; cases h1
  rw [allColumns_get? hn, get?_none_of hn.totals h2, get?_none_of hn.ks h3]
  simp

/-- the value of a column at one point -/
theorem table_at {o : SolveOut} {t : Table} (h : makeTable o = .ok t) (k : String) {i : ℕ}
    (hi : i < o.cv.titrant_mass.length) :
    (t.nums.get? k).map (fun xs => xs.getD i nan) = ((allColumns o).get? k).map fun v => v.at_ i := by
  rcases (makeTable_ok h).2 k with ⟨h1, h2⟩ | ⟨v, xs, h1, h2, h3⟩
  · rw [h1, h2]; rfl
  · rw [h1, h3]
    have := (column_ok h2).2 i hi
    simp [List.getD_eq_getElem?_getD, this]

/-! ## What PyCO2SYS is given -/

theorem sysIn_ks {o : SolveOut} {t t1 : Table} (hn : Names o) (ht : makeTable o = .ok t)
    (h1 : ∀ k, isConstant k = true → t1.nums.get? k = t.nums.get? k) {dic pH T : List Flt} {S : Val}
    {i : ℕ} (hi : i < o.cv.titrant_mass.length) (k : String) :
    ((sysIn t1 dic pH T S).ksAt i).get? k = (rowAt o.ks i).get? k := by
  have hf := Dict.get?_filter isConstant t1.nums k
  unfold SysIn.ksAt sysIn
  rw [Dict.get?_mapKV, hf, rowAt_get?]
  cases hc : isConstant k with
  | true =>
    have := table_at ht k hi
    rw [allColumns_const hn hc] at this
    simp only [if_true]
    rw [h1 k hc, this]
  | false =>
    have h3 : k ∉ calk_to_pyco2_ks.map Prod.fst := fun hm => by
      rw [isConstant_names.1 k hm] at hc; cases hc
    rw [get?_none_of hn.ks h3]
    rfl

theorem sysTotals_sub : ∀ k ∈ sysTotals, k ∈ totalNames := by decide

theorem sysTotals_get? (t : Table) (k : String) :
    Dict.get? (sysTotals.map fun k => (k, sysTotal t k)) k
      = if k ∈ sysTotals then some (sysTotal t k) else none := by
  generalize sysTotals = l
  induction l with
  | nil => rfl
  | cons c l ih =>
    rw [List.map_cons, Dict.get?_cons, ih]
    by_cases h : c = k
    · subst h; simp
    · simp [h, Ne.symm h]

theorem micro_mega (x : ℝ) : (fin x : Flt) * fin 1e6 * fin 1e-6 = fin x := by
  simp only [mul_fin, fin_inj]
  norm_num [mul_assoc]

/-- each total given to PyCO2SYS is the one solved with, or zero where that is missing -/
theorem sysIn_totals {o : SolveOut} {t t1 : Table} (hn : Names o) (ht : makeTable o = .ok t)
    (h1 : ∀ k ∈ totalNames, t1.nums.get? k = t.nums.get? k) {dic pH T : List Flt} {S : Val}
    (hdic : t.nums.get? "dic" = some dic)
    {i : ℕ} (hi : i < o.cv.titrant_mass.length) (hv : NonnegDict (rowAt o.totals i)) (k : String) :
    ((sysIn t1 dic pH T S).totalsAt i).get? k
      = if k ∈ totalNames then some (((rowAt o.totals i).get? k).getD (fin 0)) else none := by
  have hsome : ∀ k ∈ totalNames, ∀ xs, t.nums.get? k = some xs → xs.length = o.cv.titrant_mass.length ∧
      ∃ x : ℝ, (rowAt o.totals i).get? k = some (fin x) ∧ xs[i]? = some (fin x) := by
    intro k hk xs hx
    rcases (makeTable_ok ht).2 k with ⟨-, h2⟩ | ⟨v, ys, h2, h3, h4⟩
    · rw [h2] at hx; cases hx
    · rw [hx] at h4
      have h4 := Option.some.inj h4
      subst h4
      rw [allColumns_total hn hk] at h2
      have hr : (rowAt o.totals i).get? k = some (v.at_ i) := by rw [rowAt_get?, h2]; rfl
      obtain ⟨x, -, hx'⟩ := hv _ _ hr
      obtain ⟨c1, c2⟩ := column_ok h3
      exact ⟨c1, x, by rw [hr, hx'], by rw [c2 i hi, hx']⟩
  have hnone : ∀ k ∈ totalNames, t.nums.get? k = none → (rowAt o.totals i).get? k = none := by
    intro k hk hx
    rcases (makeTable_ok ht).2 k with ⟨h2, -⟩ | ⟨v, ys, -, -, h4⟩
    · rw [allColumns_total hn hk] at h2
      rw [rowAt_get?, h2]; rfl
    · rw [hx] at h4; cases h4
  have hnames : ∀ k, k ∈ totalNames ↔ k = "dic" ∨ k ∈ sysTotals := by
    intro k
    simp only [totalNames, sysTotals, List.mem_cons, List.not_mem_nil, or_false]
    tauto
  unfold SysIn.totalsAt
  rw [Dict.get?_cons]
  by_cases hk : "dic" = k
  · subst hk
    obtain ⟨hl, x, hx1, hx2⟩ := hsome "dic" (by decide) dic hdic
    rw [if_pos rfl, if_pos (by decide), hx1]
    simp only [sysIn, List.getD_eq_getElem?_getD, List.getElem?_map, hx2, Option.map_some,
      Option.getD_some, micro_mega]
  · rw [if_neg hk, Dict.get?_mapKV]
    unfold sysIn
    simp only
    rw [sysTotals_get?]
    by_cases hs : k ∈ sysTotals
    · have hk' := sysTotals_sub k hs
      rw [if_pos hs, if_pos hk']
      unfold sysTotal
      rw [h1 k hk']
      cases hx : t.nums.get? k with
      | none =>
        rw [hnone k hk' hx]
        simp [NpVal.at_]
      | some xs =>
        obtain ⟨hl, x, hx1, hx2⟩ := hsome k hk' xs hx
        have hi' : i < xs.length := by omega
        rw [List.getElem?_eq_getElem hi'] at hx2
        rw [hx1]
        simp only [Option.map_some, Option.getD_some]
        rw [at_arr (by simpa using hi')]
        simp [Option.some.inj hx2, micro_mega, -mul_fin]
    · rw [if_neg hs, if_neg (fun hc => ?_)]
      · rfl
      · rcases (hnames k).mp hc with h | h
        · exact hk h.symm
        · exact hs h

theorem rval_congr {d d' : Dict Flt} {x : ℝ} {k : String} (h : d.get? k = d'.get? k) :
    rval d x k = rval d' x k := by
  unfold rval; rw [h]

theorem rval_totals {d d' : Dict Flt} {k : String} (h : d.get? k = some ((d'.get? k).getD (fin 0))) :
    rval d 0 k = rval d' 0 k := by
  unfold rval
  rw [h]
  cases d'.get? k <;> rfl

theorem Sol_of_congr {t t' k k' : Dict Flt}
    (ht : ∀ n ∈ totalNames, t.get? n = some ((t'.get? n).getD (fin 0)))
    (hk : ∀ n, k.get? n = k'.get? n) : Sol.of t k = Sol.of t' k' := by
  have h1 : ∀ n ∈ totalNames, rval t 0 n = rval t' 0 n := fun n hn => rval_totals (ht n hn)
  have h2 : ∀ (x : ℝ) n, rval k x n = rval k' x n := fun x n => rval_congr (hk n)
  unfold Sol.of
  simp only [h2]
  rw [h1 "dic" (by decide), h1 "total_borate" (by decide), h1 "total_phosphate" (by decide),
    h1 "total_silicate" (by decide), h1 "total_ammonia" (by decide), h1 "total_sulfide" (by decide),
    h1 "total_alpha" (by decide), h1 "total_beta" (by decide), h1 "total_fluoride" (by decide),
    h1 "total_sulfate" (by decide)]

/-- PyCO2SYS gives the alkalinity that the solver's simulation gives. -/
theorem sys_value {sys : SysIn → Py SysOut} (hsys : SysAgrees sys) {o : SolveOut} {t t1 : Table}
    (hn : Names o) (ht : makeTable o = .ok t)
    (h1 : ∀ k ∈ totalNames, t1.nums.get? k = t.nums.get? k)
    (h2 : ∀ k, isConstant k = true → t1.nums.get? k = t.nums.get? k) {dic pH T : List Flt} {S : Val}
    (hdic : t.nums.get? "dic" = some dic) {r : SysOut} (hr : sys (sysIn t1 dic pH T S) = .ok r)
    (hv : ValidRows o.totals o.ks o.cv.titrant_mass.length) (hk : HasKsN o.totals o.ks 3)
    (hw : o.ks.has "k_water" = true) {i : ℕ} (hi : i < o.cv.titrant_mass.length) {p : ℝ}
    (hp : pH[i]? = some (fin p)) :
    r.alkalinity[i]? = some (fin (1e6 * specAlk o.totals o.ks i p)) := by
  obtain ⟨hv1, hv2⟩ := hv i hi
  have ht' := sysIn_totals (pH := pH) (T := T) (S := S) hn ht h1 hdic hi hv1
  have hk' := sysIn_ks (dic := dic) (pH := pH) (T := T) (S := S) hn ht h2 hi
  have htn : ∀ n ∈ totalNames, ((sysIn t1 dic pH T S).totalsAt i).get? n
      = some (((rowAt o.totals i).get? n).getD (fin 0)) := by
    intro n hm; rw [ht' n, if_pos hm]
  have hhas : ∀ k, ((sysIn t1 dic pH T S).ksAt i).has k = o.ks.has k := by
    intro k; simp only [Dict.has, hk', rowAt_get?, Option.isSome_map]
  have := hsys _ r hr i p hp ?_ ?_ ?_ ?_
  · rw [this, Sol_of_congr htn hk', specAlk]
  · intro k v hx
    rw [ht' k] at hx
    split at hx
    · cases hg : (rowAt o.totals i).get? k with
      | none => rw [hg] at hx; exact ⟨0, le_rfl, (Option.some.inj hx).symm⟩
      | some u => rw [hg] at hx; rw [← Option.some.inj hx]; exact hv1 _ _ hg
    · cases hx
  · intro k v hx
    rw [hk' k] at hx
    exact hv2 _ _ hx
  · rw [hhas, hw]
  · intro tk htk hne
    rw [hhas]
    have hm : tk.1 ∈ totalNames := (by decide : ∀ tk ∈ requiredKs 3, tk.1 ∈ totalNames) tk htk
    rw [rval_totals (htn _ hm)] at hne
    apply hk tk htk
    cases hg : o.totals.get? tk.1 with
    | none =>
      exfalso; apply hne
      unfold rval
      rw [rowAt_get?, hg]; rfl
    | some v => simp [Dict.has, hg]

/-! ## C63 -/

/-- a titration with finite data, as C63 considers it -/
structure RealTitration (kw row : Dict Val) (tt : Titration) (tm pH : List ℝ) (M c n : ℝ) :
    Prop where
  mass : titrationSetting kw row "analyte_mass" = some (.num (fin M))
  mass_pos : 0 < M
  molinity : titrationSetting kw row "titrant_molinity" = some (.num (fin c))
  normality : titrationSetting kw row "titrant_normality" = some (.num (fin n)) ∨
    titrationSetting kw row "titrant_normality" = none ∧ n = 1
  titrant : tt.sr.cv.titrant_mass = tm.map fin
  titrant_pos : ∀ m ∈ tm, 0 < m + M
  pHs : tt.sr.sr.pHs = pH.map fin
  valid : ValidRows tt.sr.totals tt.sr.ks tm.length
  water : tt.sr.ks.has "k_water" = true

theorem column_of_num {o : SolveOut} {t : Table} (hn : Names o) (ht : makeTable o = .ok t)
    {k : String} {xs : List Flt} (h1 : isConstant k = false) (h2 : k ∉ totalNames)
    (h3 : (numColumns o).get? k = some (.arr xs)) :
    t.nums.get? k = some xs ∧ xs.length = o.cv.titrant_mass.length := by
  rcases (makeTable_ok ht).2 k with ⟨h4, -⟩ | ⟨v, ys, h4, h5, h6⟩
  · rw [allColumns_num hn h1 h2, h3] at h4; cases h4
  · rw [allColumns_num hn h1 h2, h3] at h4
    have h4 := Option.some.inj h4
    subst h4
    simp only [NpVal.column] at h5
    split at h5
    · rename_i hl
      rw [h6, ← Except.ok.inj h5]
      exact ⟨rfl, hl⟩
    · cases h5

theorem numColumns_get (o : SolveOut) :
    (numColumns o).get? "titrant_mass" = some (.arr o.cv.titrant_mass) ∧
    (numColumns o).get? "temperature" = some (.arr o.sr.temperatures) ∧
    (numColumns o).get? "pH" = some (.arr o.sr.pHs) := ⟨rfl, rfl, rfl⟩

theorem estimatePoint_fin {c M a m : ℝ} (hM : M ≠ 0) (hmM : m + M ≠ 0) :
    estimatePoint (fin c) (fin M) (fin a) (fin m) = fin ((a * (m + M) + m * c) / M) := by
  have h : M / (m + M) ≠ 0 := div_ne_zero hM hmM
  simp only [estimatePoint, get_dilution_factor_fin hmM, mul_fin, add_fin,
    div_fin _ _ hmM, div_fin _ _ h, fin_inj]
  field_simp

theorem acidPoint_fin {A M c m : ℝ} (hmM : m + M ≠ 0) :
    acidPoint (fin A) (fin M) (fin c) (fin m) = fin ((1e-6 * A * M - m * c) / (M + m)) := by
  have h : M + m ≠ 0 := by rwa [add_comm]
  simp only [acidPoint, mul_fin, add_fin, sub_fin, div_fin _ _ h]

/-- the derived columns of a titration with finite data -/
theorem table_values {w : World} {sys : SysIn → Py SysOut} (hsys : SysAgrees sys) {row : Series}
    {kw : Dict Val} {tt : Titration} (hk : kw.keys.Nodup) (hn : (nestedArgs kw).keys.Nodup)
    (h : Titration_init w sys row kw = .ok tt) {tm pH : List ℝ} {M c n : ℝ}
    (hr : RealTitration kw row.dict tt tm pH M c n) {all : List Flt}
    (ha : tt.sr.sr.alks = some all) :
    ∃ fromPH est acid, tt.t.nums.get? "alkalinity_from_pH" = some fromPH ∧
      tt.t.nums.get? "alkalinity_estimate" = some est ∧
      tt.t.nums.get? "alkalinity_from_acid" = some acid ∧
      fromPH.length = tm.length ∧ est.length = tm.length ∧ acid.length = tm.length ∧
      all.length = tm.length ∧ pH.length = tm.length ∧
      ∀ i m p, tm[i]? = some m → pH[i]? = some p →
        fromPH[i]? = some (fin (specAlk tt.sr.totals tt.sr.ks i p)) ∧
        est[i]? = some (fin ((specAlk tt.sr.totals tt.sr.ks i p * (m + M) + m * c) / M)) ∧
        all[i]? = some (fin (ptR c n M (specAlk tt.sr.totals tt.sr.ks i p) m)) ∧
        ∀ A : ℝ, tt.sr.sr.alkalinity = fin A →
          acid[i]? = some (fin ((1e-6 * A * M - m * c) / (M + m))) := by
  obtain ⟨row', t0, t1, h1, h2, h3, h4, h5, h6⟩ := Titration_ok h
  obtain ⟨hrow, halk⟩ := C64_row w sys row kw tt hk hn h
  obtain ⟨f, c', S', kws, hs, -, -, ⟨vc, hc1, hc2⟩, -, hkws⟩ := C64_call w sys row kw tt hk hn h
  have hnm := names_of_solve hs
  obtain ⟨totals0, tts, mode, hl, -, -, -, hd, -⟩ := files_solve_all_ok hs
  -- molinity
  have hc' : c' = fin c := by
    rw [hr.molinity] at hc1
    rw [← Option.some.inj hc1] at hc2
    exact (Except.ok.inj hc2).symm
  subst hc'
  -- normality
  obtain ⟨nn, hnn, hks, hlen, hall⟩ := dispatch_alks hd ha
  have hnn' : nn = fin n := by
    unfold argNum at hnn
    rw [hkws, if_neg (by decide)] at hnn
    rcases hr.normality with h | ⟨h, rfl⟩
    · rw [h] at hnn; exact (Except.ok.inj hnn).symm
    · rw [h] at hnn; exact (Except.ok.inj hnn).symm
  subst hnn'
  -- analyte mass
  have hM : tt.sr.cv.analyte_mass = fin M := by
    unfold load at hl
    simp only [bind_ok_iff] at hl
    obtain ⟨g, -, dd, -, cv, hcv, ⟨a, b⟩, -, hl⟩ := hl
    have hl := Except.ok.inj hl
    simp only [Prod.mk.injEq] at hl
    rw [← hl.1]
    unfold amount_units at hcv
    simp only [bind_ok_iff] at hcv
    obtain ⟨T, -, tms, -, am, ham, hcv⟩ := hcv
    rw [← Except.ok.inj hcv]
    unfold get_analyte_mass argNotNull at ham
    rw [get?_kwargs (by decide), hkws, if_neg (by decide), hr.mass] at ham
    simp only [Val.isNull, isNaN_fin, Bool.false_eq_true, if_false, Val.toFlt, bind_ok, pure_ok] at ham
    exact (Except.ok.inj ham).symm
  have hMa : ∀ x, numAttr tt.row "analyte_mass" = .ok x → x = fin M := by
    intro x hx
    obtain ⟨v, hv, hv'⟩ := numAttr_ok hx
    rw [hrow _ (by decide), hr.mass] at hv
    rw [← Option.some.inj hv] at hv'
    exact (Except.ok.inj hv').symm
  have hca : ∀ x, numAttr tt.row "titrant_molinity" = .ok x → x = fin c := by
    intro x hx
    obtain ⟨v, hv, hv'⟩ := numAttr_ok hx
    rw [hrow _ (by decide), hr.molinity] at hv
    rw [← Option.some.inj hv] at hv'
    exact (Except.ok.inj hv').symm
  have hAa : ∀ x, numAttr tt.row "alkalinity" = .ok x → x = tt.sr.sr.alkalinity := by
    intro x hx
    obtain ⟨v, hv, hv'⟩ := numAttr_ok hx
    rw [halk] at hv
    rw [← Option.some.inj hv] at hv'
    exact (Except.ok.inj hv').symm
  -- columns
  obtain ⟨A, M1, tm1, c1, a1, a2, a3, a4, a5, a6, a7⟩ := acid_ok h5
  obtain ⟨tm2, M2, t2, dic, pH2, T, S, r, c2, b1, b2, b3, b4, b5, b6, b7, b8, b9, b10, b11, b12, b13⟩
    := co2sys_ok h6
  rw [a7, if_neg (by decide)] at b1 b6 b7 b8
  obtain ⟨e1, e2, e3⟩ := numColumns_get tt.sr
  have k1 := (column_of_num hnm h4 (by decide) (by decide) e1)
  have k3 := (column_of_num hnm h4 (by decide) (by decide) e3)
  have hA := hAa A a1
  have hM1 := hMa M1 a2
  have hM2 := hMa M2 b2
  have hc1 := hca c1 a4
  have hc2 := hca c2 b3
  subst hA hM1 hM2 hc1 hc2
  have htm1 : tm1 = tm.map fin := by
    rw [k1.1] at a3; rw [← hr.titrant]; exact (Option.some.inj a3).symm
  have htm2 : tm2 = tm.map fin := by
    rw [k1.1] at b1; rw [← hr.titrant]; exact (Option.some.inj b1).symm
  have hpH2 : pH2 = pH.map fin := by
    rw [k3.1] at b7; rw [← hr.pHs]; exact (Option.some.inj b7).symm
  subst htm1 htm2 hpH2
  have hrows : t0.rows = tm.length := by rw [(makeTable_ok h4).1, hr.titrant, List.length_map]
  have hlpH : pH.length = tm.length := by
    have := hlen
    rw [hr.titrant, hr.pHs, List.length_map, List.length_map] at this
    exact this.symm
  have hkey1 : ∀ k ∈ totalNames, t2.nums.get? k = t0.nums.get? k := by
    intro k hk
    have : ∀ k ∈ totalNames, k ≠ "dilution_factor" ∧ k ≠ "alkalinity_from_acid" := by decide
    rw [b5, if_neg (this k hk).1, a7, if_neg (this k hk).2]
  have hkey2 : ∀ k, isConstant k = true → t2.nums.get? k = t0.nums.get? k := by
    intro k hk
    have h1 : k ≠ "dilution_factor" := by rintro rfl; exact absurd hk (by decide)
    have h2 : k ≠ "alkalinity_from_acid" := by rintro rfl; exact absurd hk (by decide)
    rw [b5, if_neg h1, a7, if_neg h2]
  have hvalid : ValidRows tt.sr.totals tt.sr.ks tt.sr.cv.titrant_mass.length := by
    rw [hr.titrant, List.length_map]; exact hr.valid
  have hrl : r.alkalinity.length = tm.length := by rw [b10, a5, hrows]
  refine ⟨_, _, (tm.map fin).map (acidPoint tt.sr.sr.alkalinity (fin M) (fin c)), b12, b13, ?_, ?_,
    ?_, ?_, ?_, hlpH, ?_⟩
  · rw [b11 _ (by decide), b5, if_neg (by decide), a7, if_pos rfl]
  · simp [micro, hrl]
  · simp [micro, hrl]
  · simp
  · rw [hall, phAll_length (hlen), hr.pHs, List.length_map, hlpH]
  · intro i m p hm hp
    have hi : i < tm.length := by
      by_contra hc
      rw [List.getElem?_eq_none (by omega)] at hm; cases hm
    have hi' : i < pH.length := by omega
    have hm' : tm[i] = m := by rw [List.getElem?_eq_getElem hi] at hm; exact Option.some.inj hm
    have hp' : pH[i] = p := by rw [List.getElem?_eq_getElem hi'] at hp; exact Option.some.inj hp
    have hmpos : 0 < m + M := hr.titrant_pos m (hm' ▸ List.getElem_mem hi)
    have hval := sys_value hsys hnm h4 hkey1 hkey2 b6 b9 hvalid hks hr.water
      (by rw [hr.titrant, List.length_map]; exact hi) (p := p) (by simp [hp])
    have hmic : (micro r.alkalinity)[i]? = some (fin (specAlk tt.sr.totals tt.sr.ks i p)) := by
      rw [micro, List.getElem?_map, hval]
      simp only [Option.map_some, mul_fin, Option.some.injEq, fin_inj]
      ring
    refine ⟨hmic, ?_, ?_, ?_⟩
    · rw [List.getElem?_zipWith, hmic, List.getElem?_map, hm]
      simp only [Option.map_some]
      rw [estimatePoint_fin hr.mass_pos.ne' hmpos.ne']
    · rw [hall, hr.titrant, hr.pHs, hM]
      rw [phAll_fin (by rw [hlpH]; exact hr.valid) hks hr.mass_pos hr.titrant_pos]
      rw [List.getElem?_map, phAllR, List.getElem?_zipWith, hm]
      simp [List.getElem?_zipIdx, hp]
    · intro A hA
      rw [List.getElem?_map, List.getElem?_map, hm, hA]
      simp only [Option.map_some]
      rw [acidPoint_fin hmpos.ne']

/-- **C63**: at every point, the Titration's `alkalinity_estimate` is the solver's alkalinity there (in
mol/kg) less `m·c·(normality - 1)/M`: the column takes the acid as monoprotic. -/
theorem C63_estimate (w : World) (sys : SysIn → Py SysOut) (hsys : SysAgrees sys) (row : Series)
    (kw : Dict Val) (tt : Titration) (hk : kw.keys.Nodup) (hn : (nestedArgs kw).keys.Nodup)
    (h : Titration_init w sys row kw = .ok tt) (tm pH : List ℝ) (M c n : ℝ)
    (hr : RealTitration kw row.dict tt tm pH M c n) (all : List Flt)
    (ha : tt.sr.sr.alks = some all) :
    ∃ est, tt.t.nums.get? "alkalinity_estimate" = some est ∧ est.length = tm.length ∧
      all.length = tm.length ∧
      ∀ (i : ℕ) (m : ℝ), tm[i]? = some m → ∃ x : ℝ, all[i]? = some (fin x) ∧
        est[i]? = some (fin (x * 1e-6 - m * c * (n - 1) / M)) := by
  obtain ⟨fromPH, est, acid, -, h2, -, -, l2, -, l4, l5, hv⟩ := table_values hsys hk hn h hr ha
  refine ⟨est, h2, l2, l4, fun i m hm => ?_⟩
  have hi : i < tm.length := by
    by_contra hc
    rw [List.getElem?_eq_none (by omega)] at hm; cases hm
  obtain ⟨-, v2, v3, -⟩ := hv i m _ hm (List.getElem?_eq_getElem (by omega))
  refine ⟨_, v3, ?_⟩
  rw [v2]
  simp only [ptR, Option.some.injEq, fin_inj]
  have := hr.mass_pos.ne'
  field_simp
  ring

/-- **C63**: for a titrant of normality 1 the column is the solver's alkalinities in mol/kg. -/
theorem C63_equal (w : World) (sys : SysIn → Py SysOut) (hsys : SysAgrees sys) (row : Series)
    (kw : Dict Val) (tt : Titration) (hk : kw.keys.Nodup) (hn : (nestedArgs kw).keys.Nodup)
    (h : Titration_init w sys row kw = .ok tt) (tm pH : List ℝ) (M c : ℝ)
    (hr : RealTitration kw row.dict tt tm pH M c 1) (all : List Flt)
    (ha : tt.sr.sr.alks = some all) :
    tt.t.nums.get? "alkalinity_estimate" = some (all.map fun x => x * fin 1e-6) := by
  obtain ⟨est, h1, l1, l2, hv⟩ := C63_estimate w sys hsys row kw tt hk hn h tm pH M c 1 hr all ha
  rw [h1]
  congr 1
  apply List.ext_getElem?
  intro i
  by_cases hi : i < tm.length
  · obtain ⟨x, h2, h3⟩ := hv i _ (List.getElem?_eq_getElem hi)
    rw [h3, List.getElem?_map, h2]
    simp
  · rw [List.getElem?_eq_none (by omega), List.getElem?_eq_none (by simp; omega)]

/-- **C63**: for any other normality it differs at every point with titrant. -/
theorem C63_differs (w : World) (sys : SysIn → Py SysOut) (hsys : SysAgrees sys) (row : Series)
    (kw : Dict Val) (tt : Titration) (hk : kw.keys.Nodup) (hn : (nestedArgs kw).keys.Nodup)
    (h : Titration_init w sys row kw = .ok tt) (tm pH : List ℝ) (M c n : ℝ)
    (hr : RealTitration kw row.dict tt tm pH M c n) (all : List Flt)
    (ha : tt.sr.sr.alks = some all) (hn1 : n ≠ 1) (hc : c ≠ 0) (i : ℕ) (m : ℝ)
    (hm : tm[i]? = some m) (hm0 : m ≠ 0) :
    ∃ est x y, tt.t.nums.get? "alkalinity_estimate" = some est ∧ est[i]? = some x ∧
      all[i]? = some y ∧ x ≠ y * fin 1e-6 := by
  obtain ⟨est, h1, l1, l2, hv⟩ := C63_estimate w sys hsys row kw tt hk hn h tm pH M c n hr all ha
  obtain ⟨x, h2, h3⟩ := hv i m hm
  refine ⟨est, _, _, h1, h3, h2, ?_⟩
  simp only [mul_fin, ne_eq, fin_inj]
  have hne : m * c * (n - 1) / M ≠ 0 :=
    div_ne_zero (mul_ne_zero (mul_ne_zero hm0 hc) (sub_ne_zero.mpr hn1)) hr.mass_pos.ne'
  intro he
  apply hne
  linarith

/-- **C63**: the two alkalinity curves, from the acid added and from the pH, meet at exactly the points
where `alkalinity_estimate` is the solved alkalinity. -/
theorem C63_curves (w : World) (sys : SysIn → Py SysOut) (hsys : SysAgrees sys) (row : Series)
    (kw : Dict Val) (tt : Titration) (hk : kw.keys.Nodup) (hn : (nestedArgs kw).keys.Nodup)
    (h : Titration_init w sys row kw = .ok tt) (tm pH : List ℝ) (M c n : ℝ)
    (hr : RealTitration kw row.dict tt tm pH M c n) (all : List Flt)
    (ha : tt.sr.sr.alks = some all) (A : ℝ) (hA : tt.sr.sr.alkalinity = fin A) :
    ∃ fromPH est acid, tt.t.nums.get? "alkalinity_from_pH" = some fromPH ∧
      tt.t.nums.get? "alkalinity_estimate" = some est ∧
      tt.t.nums.get? "alkalinity_from_acid" = some acid ∧
      ∀ i < tm.length, (acid[i]? = fromPH[i]? ↔ est[i]? = some (fin (A * 1e-6))) := by
  obtain ⟨fromPH, est, acid, h1, h2, h3, -, -, -, -, l5, hv⟩ := table_values hsys hk hn h hr ha
  refine ⟨fromPH, est, acid, h1, h2, h3, fun i hi => ?_⟩
  obtain ⟨v1, v2, -, v4⟩ := hv i _ _ (List.getElem?_eq_getElem hi) (List.getElem?_eq_getElem (by omega))
  have hpos := hr.titrant_pos _ (List.getElem_mem hi)
  rw [v1, v2, v4 A hA]
  simp only [Option.some.injEq, fin_inj]
  have hM := hr.mass_pos.ne'
  have hpos' : M + tm[i] ≠ 0 := by linarith
  rw [div_eq_iff hpos', div_eq_iff hM]
  constructor <;> intro he <;> linarith

end Calk
