import Verif.Lemmas.Kwargs

/-! Helper lemmas about frames, `prepare` and the row functions. -/

namespace Calk
open Flt

/-! ## State steps -/

namespace PyS
variable {σ : Type}

theorem require_apply (c : σ → Bool) (s : σ) :
    (require c : PyS σ Unit) s = (if c s then .ok () else .error .AssertionError, s) := rfl
@[simp] theorem modify_apply (f : σ → σ) (s : σ) : (modify f : PyS σ Unit) s = (.ok (), f s) := rfl
theorem update_ok {f : σ → Py σ} {s s' : σ} (h : f s = .ok s') :
    (update f : PyS σ Unit) s = (.ok (), s') := by simp [update, h]
theorem update_error {f : σ → Py σ} {s : σ} {e : PyErr} (h : f s = .error e) :
    (update f : PyS σ Unit) s = (.error e, s) := by simp [update, h]

theorem require_bind {α : Type} (c : σ → Bool) (f : Unit → PyS σ α) (s : σ) :
    (require c >>= f) s = if c s then f () s else (.error .AssertionError, s) := by
  rw [bind_apply, require_apply]
  cases c s <;> rfl
theorem modify_bind {α : Type} (g : σ → σ) (f : Unit → PyS σ α) (s : σ) :
    (modify g >>= f) s = f () (g s) := rfl
theorem update_bind {α : Type} (g : σ → Py σ) (f : Unit → PyS σ α) (s : σ) :
    (update g >>= f) s = match g s with
      | .ok s' => f () s'
      | .error e => (.error e, s) := by
  rw [bind_apply, update]
  cases g s <;> rfl
theorem lift_bind {α β : Type} (x : Py α) (f : α → PyS σ β) (s : σ) :
    (lift x >>= f) s = match x with
      | .ok a => f a s
      | .error e => (.error e, s) := by
  rw [bind_apply, lift_apply]
  cases x <;> rfl

theorem bind_ok_inv {α β : Type} {x : PyS σ α} {f : α → PyS σ β} {s s' : σ} {b : β}
    (h : (x >>= f) s = (.ok b, s')) : ∃ a t, x s = (.ok a, t) ∧ f a t = (.ok b, s') := by
  rw [bind_apply] at h
  rcases hx : x s with ⟨r, t⟩
  cases r with
  | ok a => rw [hx] at h; exact ⟨a, t, rfl, h⟩
  | error e => rw [hx] at h; cases h

end PyS

/-! ## Columns -/

theorem contains_addCol (cols : List String) (c k : String) :
    (addCol cols c).contains k = (cols.contains k || k == c) := by
  unfold addCol
  by_cases h : cols.contains c = true
  · rw [if_pos h]
    by_cases hk : k = c
    · subst hk; rw [h]; simp
    · simp [hk]
  · rw [if_neg h]; simp [Bool.beq_eq_decide_eq]

theorem mem_addCol {cols : List String} {c k : String} : k ∈ addCol cols c ↔ k ∈ cols ∨ k = c := by
  have := contains_addCol cols c k
  rw [← List.contains_iff_mem, this]
  simp only [Bool.or_eq_true, List.contains_iff_mem, beq_iff_eq]

theorem addCol_of_mem {cols : List String} {c : String} (h : c ∈ cols) : addCol cols c = cols := by
  simp [addCol, h]

theorem addCol_prefix (cols : List String) (c : String) :
    ∃ extra, addCol cols c = cols ++ extra ∧ ∀ x ∈ extra, x = c := by
  unfold addCol
  split
  · exact ⟨[], by simp⟩
  · exact ⟨[c], by simp⟩

theorem mem_foldl_addCol (l cols : List String) (k : String) :
    k ∈ l.foldl addCol cols ↔ k ∈ cols ∨ k ∈ l := by
  induction l generalizing cols with
  | nil => simp
  | cons c l ih => rw [List.foldl_cons, ih, mem_addCol]; simp [or_assoc]

theorem foldl_addCol_of_mem {l cols : List String} (h : ∀ c ∈ l, c ∈ cols) :
    l.foldl addCol cols = cols := by
  induction l with
  | nil => rfl
  | cons c l ih =>
    rw [List.foldl_cons, addCol_of_mem (h c (by simp)), ih fun c hc => h c (by simp [hc])]

theorem has_iff {df : DF} {c : String} : df.has c = true ↔ c ∈ df.cols := by simp [DF.has]

theorem rowDict_get? (cols : List String) (r : Row) (k : String) :
    (rowDict cols r).get? k = if k ∈ cols then some (r k) else none := by
  induction cols with
  | nil => simp [rowDict]
  | cons c cols ih =>
    simp only [rowDict, List.map_cons, Dict.get?_cons] at *
    by_cases h : c = k
    · subst h; simp
    · simp [h, ih, Ne.symm h]

/-! ## mapPy -/

theorem mapPy_ok {α β : Type} {f : α → Py β} {l : List α} {l' : List β} (h : mapPy f l = .ok l') :
    List.Forall₂ (fun x y => f x = .ok y) l l' := by
  induction l generalizing l' with
  | nil => simp only [mapPy, Except.ok.injEq] at h; subst h; exact .nil
  | cons x l ih =>
    simp only [mapPy, bind_ok_iff, pure_ok, Except.ok.injEq] at h
    obtain ⟨y, hy, ys, hys, rfl⟩ := h
    exact .cons hy (ih hys)

theorem mapPy_of_forall₂ {α β : Type} {f : α → Py β} {l : List α} {l' : List β}
    (h : List.Forall₂ (fun x y => f x = .ok y) l l') : mapPy f l = .ok l' := by
  induction h with
  | nil => rfl
  | cons hx _ ih => simp only [mapPy, hx, ih, bind_ok, pure_ok]

theorem mapPy_of_ok {α β : Type} {f : α → Py β} {g : α → β} {l : List α}
    (h : ∀ x ∈ l, f x = .ok (g x)) : mapPy f l = .ok (l.map g) := by
  induction l with
  | nil => rfl
  | cons x l ih =>
    simp only [mapPy, h x (by simp), ih fun x hx => h x (by simp [hx]), bind_ok, pure_ok,
      List.map_cons]

theorem mapPy_error {α β : Type} {f : α → Py β} {l : List α} {e : PyErr}
    (h : mapPy f l = .error e) : ∃ x ∈ l, f x = .error e := by
  induction l with
  | nil => cases h
  | cons x l ih =>
    simp only [mapPy] at h
    cases hx : f x with
    | error e' =>
      rw [hx] at h; simp only [bind_error, Except.error.injEq] at h
      exact ⟨x, by simp, by rw [hx, h]⟩
    | ok y =>
      rw [hx] at h; simp only [bind_ok] at h
      cases hl : mapPy f l with
      | error e' =>
        rw [hl] at h; simp only [bind_error, Except.error.injEq] at h
        obtain ⟨z, hz, hz'⟩ := ih (by rw [hl, h])
        exact ⟨z, by simp [hz], hz'⟩
      | ok ys => rw [hl] at h; cases h

theorem mapPy_error_of {α β : Type} {f : α → Py β} {l : List α} {x : α} {e : PyErr} (hx : x ∈ l)
    (he : f x = .error e) : ∃ e', mapPy f l = .error e' := by
  cases h : mapPy f l with
  | error e' => exact ⟨e', rfl⟩
  | ok l' =>
    exfalso
    have := mapPy_ok h
    clear h
    induction this with
    | nil => simp at hx
    | cons hy _ ih =>
      rcases List.mem_cons.mp hx with rfl | hx
      · rw [he] at hy; cases hy
      · exact ih hx

theorem mapPy_congr {α β : Type} {f g : α → Py β} {l : List α} (h : ∀ x ∈ l, f x = g x) :
    mapPy f l = mapPy g l := by
  induction l with
  | nil => rfl
  | cons x l ih => simp only [mapPy, h x (by simp), ih fun x hx => h x (by simp [hx])]

theorem mapPy_map {α β γ : Type} (f : β → Py γ) (g : α → β) (l : List α) :
    mapPy f (l.map g) = mapPy (fun x => f (g x)) l := by
  induction l with
  | nil => rfl
  | cons x l ih => simp only [List.map_cons, mapPy, ih]

/-! ## Preparation, row by row -/

/-- the borate option after preparation -/
def prepBorate (cols : List String) (r : Row) : Val :=
  if "opt_total_borate" ∈ cols ∧ (r "opt_total_borate").isNull = false then r "opt_total_borate"
  else .num (fin 1)

/-- one row after `get_total_salts` -/
def saltRow (w : World) (cols : List String) (r : Row) : Row := fun c =>
  if c = "opt_total_borate" then prepBorate cols r
  else if c ∈ salts then
    if c ∈ cols ∧ (r c).isNull = false then r c
    else .num (w.sysSalts (r "salinity") (prepBorate cols r) c)
  else r c

def saltCols (cols : List String) : List String :=
  ["opt_total_borate", "total_sulfate", "total_borate", "total_fluoride"].foldl addCol cols

/-- one row after `prepare` -/
def prepRow (w : World) (cols : List String) (r : Row) : Row := fun c =>
  if c = "analyte_mass" then if c ∈ cols then r c else .num nan
  else if c = "titrant_amount_unit" then
    if c ∈ cols ∧ (r c).isNull = true then .str "ml" else r c
  else if c = "file_good" then if c ∈ cols then r c else .bool true
  else saltRow w cols r c

def prepCols (cols : List String) : List String :=
  ["analyte_mass", "file_good"].foldl addCol (saltCols cols)

theorem put_self (r : Row) (c : String) : r.put c (r c) = r := by
  funext k; unfold Row.put; split <;> simp_all

theorem setCol_self {df : DF} {c : String} {f : Row → Val} (hc : df.has c = true)
    (hf : ∀ r ∈ df.rows, f r = r c) : df.setCol c f = df := by
  obtain ⟨cols, rows⟩ := df
  have hc' : c ∈ cols := has_iff.mp hc
  simp only [DF.setCol, addCol_of_mem hc', DF.mk.injEq, true_and]
  conv_rhs => rw [← List.map_id rows]
  apply List.map_congr_left
  intro r hr
  rw [hf r hr, put_self]; rfl

theorem fillSalts_eq (w : World) (df : DF) : fillSalts w df = salts.foldl (fillSalt w) df := by
  unfold fillSalts
  by_cases h : saltsMissing df = true
  · rw [if_pos h]
  · rw [if_neg h]
    simp only [saltsMissing, Bool.not_eq_true, Bool.not_eq_false'] at h
    rw [List.all_eq_true] at h
    have hs : ∀ s ∈ salts, fillSalt w df s = df := by
      intro s hs
      have := h s hs
      simp only [Bool.and_eq_true, List.all_eq_true] at this
      refine setCol_self this.1 ?_
      intro r hr
      simp only [fillNull, this.1, this.2 r hr, Bool.and_true, if_true]
    have : ∀ l : List String, (∀ s ∈ l, s ∈ salts) → l.foldl (fillSalt w) df = df := by
      intro l
      induction l with
      | nil => simp
      | cons s l ih =>
        intro hl
        rw [List.foldl_cons, hs s (hl s (by simp)), ih fun s hs => hl s (by simp [hs])]
    exact (this salts fun _ h => h).symm

theorem salts_rows (w : World) (df : DF) :
    fillSalts w (defaultBorate df) = ⟨saltCols df.cols, df.rows.map (saltRow w df.cols)⟩ := by
  rw [fillSalts_eq]
  obtain ⟨cols, rows⟩ := df
  simp only [salts, List.foldl_cons, List.foldl_nil, fillSalt, defaultBorate, DF.setCol,
    List.map_map, saltCols, DF.mk.injEq, true_and]
  apply List.map_congr_left
  intro r _
  funext c
  simp only [Function.comp, Row.put, saltRow, DF.has, fillNull, contains_addCol, prepBorate, salts]
  by_cases h1 : c = "opt_total_borate"
  · subst h1; simp
  by_cases h2 : c = "total_sulfate"
  · subst h2; simp
  by_cases h3 : c = "total_borate"
  · subst h3; simp
  by_cases h4 : c = "total_fluoride"
  · subst h4; simp
  simp [h1, h2, h3, h4]

theorem get_total_salts_eq (w : World) (df : DF) :
    get_total_salts w df = if df.has "salinity" then
      (.ok (), ⟨saltCols df.cols, df.rows.map (saltRow w df.cols)⟩)
    else (.error .AssertionError, df) := by
  unfold get_total_salts
  rw [PyS.require_bind, PyS.modify_bind, PyS.modify_apply, salts_rows]

theorem mem_saltCols {cols : List String} {k : String} :
    k ∈ saltCols cols ↔ k ∈ cols ∨ k = "opt_total_borate" ∨ k ∈ salts := by
  rw [saltCols, mem_foldl_addCol]; simp [salts]

theorem mem_prepCols {cols : List String} {k : String} :
    k ∈ prepCols cols ↔ k ∈ cols ∨ k = "opt_total_borate" ∨ k ∈ salts ∨ k = "analyte_mass"
      ∨ k = "file_good" := by
  rw [prepCols, mem_foldl_addCol, mem_saltCols]; simp [or_assoc]

theorem map_id_of {l : List Row} {f : Row → Row} (h : ∀ r, f r = r) : l.map f = l := by
  conv_rhs => rw [← List.map_id l]
  exact List.map_congr_left fun r _ => h r

/-- one row after the analyte-mass step -/
def massRow (cols : List String) (r : Row) : Row := fun c =>
  if c = "analyte_mass" then if c ∈ cols then r c else .num nan else r c

theorem addAnalyteMass_eq (df : DF) : addAnalyteMass df =
    if df.has "analyte_mass" || df.has "analyte_volume" then
      .ok ⟨addCol df.cols "analyte_mass", df.rows.map (massRow df.cols)⟩
    else .error .AssertionError := by
  unfold addAnalyteMass
  by_cases hm : "analyte_mass" ∈ df.cols
  · have hm' : df.has "analyte_mass" = true := has_iff.mpr hm
    rw [if_pos hm', hm', Bool.true_or, if_pos rfl, addCol_of_mem hm, map_id_of]
    intro r; funext c; unfold massRow
    by_cases hc : c = "analyte_mass"
    · subst hc; rw [if_pos rfl, if_pos hm]
    · rw [if_neg hc]
  · have hm' : df.has "analyte_mass" = false := by
      rw [Bool.eq_false_iff]; exact fun h => hm (has_iff.mp h)
    rw [hm', if_neg (by decide), Bool.false_or]
    by_cases hv : df.has "analyte_volume" = true
    · rw [if_pos hv, if_pos hv]
      simp only [DF.setCol, Except.ok.injEq, DF.mk.injEq, true_and]
      apply List.map_congr_left
      intro r _; funext c
      simp only [Row.put, massRow]
      by_cases hc : c = "analyte_mass"
      · subst hc; rw [if_pos rfl, if_pos rfl, if_neg hm]
      · rw [if_neg hc, if_neg hc]
    · rw [if_neg hv, if_neg hv]

/-- one row after the unit step -/
def unitRow (cols : List String) (r : Row) : Row := fun c =>
  if c = "titrant_amount_unit" then
    if c ∈ cols ∧ (r c).isNull = true then .str "ml" else r c
  else r c

theorem defaultUnit_eq (df : DF) : defaultUnit df = ⟨df.cols, df.rows.map (unitRow df.cols)⟩ := by
  unfold defaultUnit
  by_cases hm : "titrant_amount_unit" ∈ df.cols
  · rw [if_pos (has_iff.mpr hm)]
    simp only [DF.setCol, addCol_of_mem hm, DF.mk.injEq, true_and]
    apply List.map_congr_left
    intro r _; funext c
    simp only [Row.put, unitRow]
    by_cases hc : c = "titrant_amount_unit"
    · subst hc; simp only [hm, true_and, if_true]
    · rw [if_neg hc, if_neg hc]
  · rw [if_neg (fun h => hm (has_iff.mp h)), map_id_of]
    intro r; funext c; unfold unitRow
    by_cases hc : c = "titrant_amount_unit"
    · subst hc; rw [if_pos rfl, if_neg (fun h => hm h.1)]
    · rw [if_neg hc]

/-- one row after the `file_good` step -/
def goodRow (cols : List String) (r : Row) : Row := fun c =>
  if c = "file_good" then if c ∈ cols then r c else .bool true else r c

theorem defaultFileGood_eq (df : DF) :
    defaultFileGood df = ⟨addCol df.cols "file_good", df.rows.map (goodRow df.cols)⟩ := by
  unfold defaultFileGood
  by_cases hm : "file_good" ∈ df.cols
  · rw [if_pos (has_iff.mpr hm), addCol_of_mem hm, map_id_of]
    intro r; funext c; unfold goodRow
    by_cases hc : c = "file_good"
    · subst hc; rw [if_pos rfl, if_pos hm]
    · rw [if_neg hc]
  · rw [if_neg (fun h => hm (has_iff.mp h))]
    simp only [DF.setCol, DF.mk.injEq, true_and]
    apply List.map_congr_left
    intro r _; funext c
    simp only [Row.put, goodRow]
    by_cases hc : c = "file_good"
    · subst hc; rw [if_pos rfl, if_pos rfl, if_neg hm]
    · rw [if_neg hc, if_neg hc]

theorem mem_saltCols_of_ne {cols : List String} {k : String} (h : k ≠ "opt_total_borate")
    (hs : k ∉ salts) : k ∈ saltCols cols ↔ k ∈ cols := by
  rw [mem_saltCols]; constructor
  · rintro (h' | h' | h')
    · exact h'
    · exact absurd h' h
    · exact absurd h' hs
  · exact .inl

theorem has_saltCols_of_ne {cols : List String} {rows : List Row} {df : DF} {k : String}
    (hd : df.cols = cols) (h : k ≠ "opt_total_borate") (hs : k ∉ salts) :
    (DF.mk (saltCols cols) rows).has k = df.has k := by
  rw [Bool.eq_iff_iff, has_iff, has_iff, hd]; exact mem_saltCols_of_ne h hs

theorem massRow_of_ne {cols : List String} {r : Row} {c : String} (h : c ≠ "analyte_mass") :
    massRow cols r c = r c := by unfold massRow; rw [if_neg h]
theorem unitRow_of_ne {cols : List String} {r : Row} {c : String} (h : c ≠ "titrant_amount_unit") :
    unitRow cols r c = r c := by unfold unitRow; rw [if_neg h]
theorem goodRow_of_ne {cols : List String} {r : Row} {c : String} (h : c ≠ "file_good") :
    goodRow cols r c = r c := by unfold goodRow; rw [if_neg h]
theorem saltRow_of_ne {w : World} {cols : List String} {r : Row} {c : String}
    (h : c ≠ "opt_total_borate") (hs : c ∉ salts) : saltRow w cols r c = r c := by
  unfold saltRow; rw [if_neg h, if_neg hs]

theorem prep_rows (w : World) (cols : List String) (r : Row) :
    goodRow (addCol (saltCols cols) "analyte_mass")
      (unitRow (addCol (saltCols cols) "analyte_mass") (massRow (saltCols cols) (saltRow w cols r)))
      = prepRow w cols r := by
  have e1 : "analyte_mass" ∈ saltCols cols ↔ "analyte_mass" ∈ cols :=
    mem_saltCols_of_ne (by decide) (by decide)
  have e2 : "titrant_amount_unit" ∈ addCol (saltCols cols) "analyte_mass"
      ↔ "titrant_amount_unit" ∈ cols := by
    rw [mem_addCol, mem_saltCols_of_ne (by decide) (by decide)]
    exact or_iff_left (by decide)
  have e3 : "file_good" ∈ addCol (saltCols cols) "analyte_mass" ↔ "file_good" ∈ cols := by
    rw [mem_addCol, mem_saltCols_of_ne (by decide) (by decide)]
    exact or_iff_left (by decide)
  funext c
  unfold prepRow
  by_cases h1 : c = "analyte_mass"
  · subst h1
    rw [if_pos rfl, goodRow_of_ne (by decide), unitRow_of_ne (by decide), massRow, if_pos rfl,
      saltRow_of_ne (by decide) (by decide), if_congr e1 rfl rfl]
  by_cases h2 : c = "titrant_amount_unit"
  · subst h2
    rw [if_neg h1, if_pos rfl, goodRow_of_ne (by decide), unitRow, if_pos rfl,
      massRow_of_ne (by decide), saltRow_of_ne (by decide) (by decide),
      if_congr (and_congr e2 Iff.rfl) rfl rfl]
  by_cases h3 : c = "file_good"
  · subst h3
    rw [if_neg h1, if_neg h2, if_pos rfl, goodRow, if_pos rfl, unitRow_of_ne (by decide),
      massRow_of_ne (by decide), saltRow_of_ne (by decide) (by decide), if_congr e3 rfl rfl]
  rw [if_neg h1, if_neg h2, if_neg h3, goodRow_of_ne h3, unitRow_of_ne h2, massRow_of_ne h1]

theorem prepare_eq (w : World) (df : DF) :
    prepare w df = if df.has "salinity" then
      if df.has "analyte_mass" || df.has "analyte_volume" then
        (.ok (), ⟨prepCols df.cols, df.rows.map (prepRow w df.cols)⟩)
      else (.error .AssertionError, ⟨saltCols df.cols, df.rows.map (saltRow w df.cols)⟩)
    else (.error .AssertionError, df) := by
  unfold prepare
  rw [PyS.bind_apply, get_total_salts_eq]
  by_cases hS : df.has "salinity" = true
  swap
  · rw [if_neg hS, if_neg hS]
  rw [if_pos hS, if_pos hS]
  show (PyS.update addAnalyteMass >>= _) _ = _
  have hS' : "salinity" ∈ df.cols := has_iff.mp hS
  rw [PyS.update_bind, addAnalyteMass_eq, has_saltCols_of_ne (df := df) rfl (by decide) (by decide),
    has_saltCols_of_ne (df := df) rfl (by decide) (by decide)]
  by_cases hmv : (df.has "analyte_mass" || df.has "analyte_volume") = true
  · rw [if_pos hmv, if_pos hmv]
    show (PyS.require _ >>= _) _ = _
    rw [PyS.require_bind, if_pos (has_iff.mpr (mem_addCol.mpr (.inl
      ((mem_saltCols_of_ne (by decide) (by decide)).mpr hS')))), PyS.modify_bind,
      PyS.modify_apply, defaultUnit_eq, defaultFileGood_eq]
    simp only [List.map_map, Prod.mk.injEq, DF.mk.injEq, true_and]
    refine ⟨rfl, ?_⟩
    apply List.map_congr_left
    intro r _
    exact prep_rows w df.cols r
  · rw [if_neg hmv, if_neg hmv]

/-! ## What the row functions look at -/

theorem get_kwargs_row_congr {keys : List String} {kw row row' : Dict Val}
    (h : ∀ k ∈ keys, row.get? k = row'.get? k) :
    get_kwargs_for keys kw (some row) = get_kwargs_for keys kw (some row') := by
  have : ∀ (l : List String) (d : Dict Val), (∀ k ∈ l, row.get? k = row'.get? k) →
      l.foldl (setFromRow row) d = l.foldl (setFromRow row') d := by
    intro l
    induction l with
    | nil => intros; rfl
    | cons k l ih =>
      intro d hl
      rw [List.foldl_cons, List.foldl_cons, ih _ fun k hk => hl k (by simp [hk])]
      simp only [setFromRow, hl k (by simp)]
  exact this keys _ h

theorem backcompat_row_congr {kw row row' : Dict Val}
    (h : row.get? "read_dat_method" = row'.get? "read_dat_method") :
    backcompat kw row = backcompat kw row' := by
  simp only [backcompat, h]

/-- two rows (in frames with these columns) that agree on the columns `cs` -/
def Agree (cs cols cols' : List String) (r r' : Row) : Prop :=
  ∀ c ∈ cs, (c ∈ cols ↔ c ∈ cols') ∧ (c ∈ cols → r c = r' c)

theorem Agree.dict {cs cols cols' : List String} {r r' : Row} (h : Agree cs cols cols' r r')
    {c : String} (hc : c ∈ cs) : (rowDict cols r).get? c = (rowDict cols' r').get? c := by
  obtain ⟨h1, h2⟩ := h c hc
  rw [rowDict_get?, rowDict_get?]
  by_cases hm : c ∈ cols
  · rw [if_pos hm, if_pos (h1.mp hm), h2 hm]
  · rw [if_neg hm, if_neg (fun h => hm (h1.mpr h))]

theorem Agree.rowAttr {cs cols cols' : List String} {r r' : Row} (h : Agree cs cols cols' r r')
    {c : String} (hc : c ∈ cs) : rowAttr cols r c = rowAttr cols' r' c := by
  obtain ⟨h1, h2⟩ := h c hc
  unfold Calk.rowAttr
  by_cases hm : c ∈ cols
  · rw [if_pos (by simpa using hm), if_pos (by simpa using h1.mp hm), h2 hm]
  · rw [if_neg (by simpa using hm), if_neg (by simpa using fun h => hm (h1.mpr h))]

/-- everything that `solve_row` can look at in a row, besides the columns named explicitly -/
def solveReads : List String := "file_name" :: "read_dat_method" :: keys_solve
def calibrateReads : List String := "file_name" :: "read_dat_method" :: keys_calibrate

theorem solve_call_congr {w : World} {kw : Dict Val} {cols cols' : List String} {r r' : Row}
    (h : Agree solveReads cols cols' r r') (h1 : r "titrant_molinity" = r' "titrant_molinity")
    (h2 : r "salinity" = r' "salinity") : solve_call w kw cols r = solve_call w kw cols' r' := by
  have hk : ∀ kw', get_kwargs_for keys_solve kw' (some (rowDict cols r))
      = get_kwargs_for keys_solve kw' (some (rowDict cols' r')) := fun kw' =>
    get_kwargs_row_congr fun k hk => h.dict (List.mem_cons_of_mem _ (List.mem_cons_of_mem _ hk))
  simp only [solve_call, backcompat_row_congr (h.dict (c := "read_dat_method") (by simp [solveReads])),
    h.rowAttr (c := "file_name") (by simp [solveReads]), h1, h2, hk]

theorem contains_congr {cols cols' : List String} {c : String} (h : c ∈ cols ↔ c ∈ cols') :
    cols.contains c = cols'.contains c := by
  rw [Bool.eq_iff_iff, List.contains_iff_mem, List.contains_iff_mem]; exact h

theorem solve_row_congr {w : World} {kw : Dict Val} {cols cols' : List String} {r r' : Row}
    (h : Agree solveReads cols cols' r r') (h1 : r "titrant_molinity" = r' "titrant_molinity")
    (h2 : r "salinity" = r' "salinity") (h3 : r "file_good" = r' "file_good")
    (h4 : r "analyte_mass" = r' "analyte_mass") :
    solve_row w kw cols r = solve_row w kw cols' r' := by
  have hb : blankSolved r = blankSolved r' := by
    funext c; simp only [blankSolved, h4]
  have hf : cols.contains "file_name" = cols'.contains "file_name" :=
    contains_congr (h "file_name" (by simp [solveReads])).1
  simp only [solve_row, solve_attempt, solve_call_congr h h1 h2, hb, h1, h3, caught, hf]

theorem calibrate_row_congr {w : World} {kw : Dict Val} {cols cols' : List String} {r r' : Row}
    (h : Agree calibrateReads cols cols' r r')
    (h1 : r "alkalinity_certified" = r' "alkalinity_certified")
    (h2 : r "salinity" = r' "salinity") (h3 : r "file_good" = r' "file_good") :
    calibrate_row w kw cols r = calibrate_row w kw cols' r' := by
  have hk : ∀ kw', get_kwargs_for keys_calibrate kw' (some (rowDict cols r))
      = get_kwargs_for keys_calibrate kw' (some (rowDict cols' r')) := fun kw' =>
    get_kwargs_row_congr fun k hk => h.dict (List.mem_cons_of_mem _ (List.mem_cons_of_mem _ hk))
  have hf : cols.contains "file_name" = cols'.contains "file_name" :=
    contains_congr (h "file_name" (by simp [calibrateReads])).1
  have ha : calibrate_attempt w kw cols r = calibrate_attempt w kw cols' r' := by
    simp only [calibrate_attempt,
      backcompat_row_congr (h.dict (c := "read_dat_method") (by simp [calibrateReads])),
      h.rowAttr (c := "file_name") (by simp [calibrateReads]), h1, h2, hk]
  simp only [calibrate_row, ha, h1, h3, caught, hf]

/-- the solver's row function fails only in its handler -/
theorem solve_row_outcome (w : World) (kw : Dict Val) (cols : List String) (r : Row) :
    (∃ s, solve_row w kw cols r = .ok s) ∨
      ("file_name" ∉ cols ∧ solve_row w kw cols r = .error (.AttributeError "file_name")) := by
  unfold solve_row
  split
  · split
    · exact .inl ⟨_, rfl⟩
    · unfold caught
      split
      · exact .inl ⟨_, rfl⟩
      · rename_i h; exact .inr ⟨by simpa using h, rfl⟩
  · exact .inl ⟨_, rfl⟩

theorem calibrate_row_outcome (w : World) (kw : Dict Val) (cols : List String) (r : Row) :
    (∃ x, calibrate_row w kw cols r = .ok (.num x)) ∨
      ("file_name" ∉ cols ∧ calibrate_row w kw cols r = .error (.AttributeError "file_name")) := by
  unfold calibrate_row
  split
  · split
    · exact .inl ⟨_, rfl⟩
    · unfold caught
      split
      · exact .inl ⟨_, rfl⟩
      · rename_i h; exact .inr ⟨by simpa using h, rfl⟩
  · exact .inl ⟨_, rfl⟩

/-! ## Results of the solver -/

theorem putNum_apply (c : String) (x : Flt) (s : Row) :
    putNum c x s = (.ok (), s.put c (.num x)) := rfl

theorem putFirst_state (c : String) (xs : List Flt) (s : Row) :
    (putFirst c xs s).2 = s ∨ ∃ x, (putFirst c xs s).2 = s.put c (.num x) := by
  cases xs with
  | nil => exact .inl rfl
  | cons x xs => exact .inr ⟨x, rfl⟩

/-- results are numbers, and the analyte mass is passed through -/
theorem add_solve_results_mass (sr : SolveRes) (s : Row) :
    (add_solve_results sr s).2 "analyte_mass" = s "analyte_mass" := by
  have hp : ∀ (c : String) (x : Flt) (s : Row), c ≠ "analyte_mass" →
      (s.put c (.num x)) "analyte_mass" = s "analyte_mass" := by
    intro c x s h; unfold Row.put; rw [if_neg (Ne.symm h)]
  have hf : ∀ (c : String) (xs : List Flt) (s : Row), c ≠ "analyte_mass" →
      (putFirst c xs s).2 "analyte_mass" = s "analyte_mass" := by
    intro c xs s h
    rcases putFirst_state c xs s with h' | ⟨x, h'⟩ <;> rw [h']
    exact hp c x s h
  have hff : ∀ (c c' : String) (xs ys : List Flt) (s : Row), c ≠ "analyte_mass" →
      c' ≠ "analyte_mass" →
      ((do putFirst c xs; putFirst c' ys : PyS Row Unit) s).2 "analyte_mass" = s "analyte_mass" := by
    intro c c' xs ys s h h'
    rw [PyS.bind_apply]
    have := hf c xs s h
    rcases hx : putFirst c xs s with ⟨res, t⟩
    rw [hx] at this
    cases res with
    | ok u => exact (hf c' ys t h').trans this
    | error e => exact this
  cases sr with
  | emf sr T =>
    refine (hff _ _ _ _ _ (by decide) (by decide)).trans ?_
    simp only [hp _ _ _ (by decide : "gran_emf0" ≠ "analyte_mass"),
      hp _ _ _ (by decide : "gran_alkalinity" ≠ "analyte_mass"),
      hp _ _ _ (by decide : "emf0" ≠ "analyte_mass"),
      hp _ _ _ (by decide : "alkalinity" ≠ "analyte_mass"),
      hp _ _ _ (by decide : "alkalinity_std" ≠ "analyte_mass"),
      hp _ _ _ (by decide : "alkalinity_npts" ≠ "analyte_mass")]
  | pH sr pH T =>
    refine (hff _ _ _ _ _ (by decide) (by decide)).trans ?_
    simp only [hp _ _ _ (by decide : "alkalinity" ≠ "analyte_mass"),
      hp _ _ _ (by decide : "alkalinity_std" ≠ "analyte_mass"),
      hp _ _ _ (by decide : "alkalinity_npts" ≠ "analyte_mass")]
  | pH_gran sr pH T =>
    refine (hff _ _ _ _ _ (by decide) (by decide)).trans ?_
    simp only [hp _ _ _ (by decide : "alkalinity" ≠ "analyte_mass"),
      hp _ _ _ (by decide : "alkalinity_npts" ≠ "analyte_mass")]

theorem solve_row_mass {w : World} {kw : Dict Val} {cols : List String} {r s : Row}
    (h : solve_row w kw cols r = .ok s) : s "analyte_mass" = r "analyte_mass" := by
  have hb : blankSolved r "analyte_mass" = r "analyte_mass" := by
    unfold blankSolved; rw [if_neg (by decide), if_pos rfl]
  have ha : (solve_attempt w kw cols r (blankSolved r)).2 "analyte_mass" = r "analyte_mass" := by
    unfold solve_attempt
    rw [PyS.lift_bind]
    cases solve_call w kw cols r with
    | error e => exact hb
    | ok sr => exact (add_solve_results_mass sr _).trans hb
  unfold solve_row at h
  split at h
  · rcases hx : solve_attempt w kw cols r (blankSolved r) with ⟨res, t⟩
    rw [hx] at h ha
    cases res with
    | ok u => simp only [Except.ok.injEq] at h; subst h; exact ha
    | error e =>
      simp only [caught] at h
      split at h
      · simp only [Except.ok.injEq] at h; subst h; exact ha
      · cases h
  · simp only [Except.ok.injEq] at h; subst h; exact hb

/-- cells of result columns are numbers -/
def NumRow (s : Row) : Prop := ∀ c ∈ solvedCols, c ≠ "analyte_mass" → ∃ x, s c = .num x

theorem NumRow.blank (r : Row) : NumRow (blankSolved r) := by
  intro c _ h
  unfold blankSolved
  by_cases h1 : c = "alkalinity_npts"
  · exact ⟨fin 0, by rw [if_pos h1]⟩
  · exact ⟨nan, by rw [if_neg h1, if_neg h]⟩

theorem NumRow.put {s : Row} (h : NumRow s) (c : String) (x : Flt) : NumRow (s.put c (.num x)) := by
  intro k hk hk'
  unfold Row.put
  by_cases hc : k = c
  · exact ⟨x, by rw [if_pos hc]⟩
  · rw [if_neg hc]; exact h k hk hk'

theorem NumRow.add {s : Row} (h : NumRow s) (sr : SolveRes) : NumRow (add_solve_results sr s).2 := by
  have hf : ∀ (c : String) (xs : List Flt) (s : Row), NumRow s → NumRow (putFirst c xs s).2 := by
    intro c xs s h
    rcases putFirst_state c xs s with h' | ⟨x, h'⟩ <;> rw [h']
    · exact h
    · exact h.put c x
  have hff : ∀ (c c' : String) (xs ys : List Flt) (s : Row), NumRow s →
      NumRow ((do putFirst c xs; putFirst c' ys : PyS Row Unit) s).2 := by
    intro c c' xs ys s h
    rw [PyS.bind_apply]
    have := hf c xs s h
    rcases hx : putFirst c xs s with ⟨res, t⟩
    rw [hx] at this
    cases res with
    | ok u => exact hf c' ys t this
    | error e => exact this
  cases sr with
  | emf sr T => exact hff _ _ _ _ _ ((((((h.put _ _).put _ _).put _ _).put _ _).put _ _).put _ _)
  | pH sr pH T => exact hff _ _ _ _ _ (((h.put _ _).put _ _).put _ _)
  | pH_gran sr pH T => exact hff _ _ _ _ _ ((h.put _ _).put _ _)

theorem solve_row_num {w : World} {kw : Dict Val} {cols : List String} {r s : Row}
    (h : solve_row w kw cols r = .ok s) : NumRow s := by
  have ha : NumRow (solve_attempt w kw cols r (blankSolved r)).2 := by
    unfold solve_attempt
    rw [PyS.lift_bind]
    cases solve_call w kw cols r with
    | error e => exact .blank r
    | ok sr => exact (NumRow.blank r).add sr
  unfold solve_row at h
  split at h
  · rcases hx : solve_attempt w kw cols r (blankSolved r) with ⟨res, t⟩
    rw [hx] at h ha
    cases res with
    | ok u => simp only [Except.ok.injEq] at h; subst h; exact ha
    | error e =>
      simp only [caught] at h
      split at h
      · simp only [Except.ok.injEq] at h; subst h; exact ha
      · cases h
  · simp only [Except.ok.injEq] at h; subst h; exact .blank r

/-! ## Solving, row by row -/

/-- `alkalinity_offset`, if there are certified values -/
def offsetRow (cols : List String) (r : Row) : Py Row :=
  if "alkalinity_certified" ∈ cols then do
    let a ← cellNum (r "alkalinity")
    let c ← cellNum (r "alkalinity_certified")
    return r.put "alkalinity_offset" (.num (a - c))
  else .ok r

def offsetCols (cols : List String) : List String :=
  if "alkalinity_certified" ∈ cols then addCol cols "alkalinity_offset" else cols

theorem addOffset_eq (df : DF) : addOffset df = (do
    let rows ← mapPy (offsetRow df.cols) df.rows
    return ⟨offsetCols df.cols, rows⟩) := by
  unfold addOffset
  by_cases h : "alkalinity_certified" ∈ df.cols
  · rw [if_pos (has_iff.mpr h)]
    unfold DF.setColM
    have : mapPy (offsetRow df.cols) df.rows = mapPy (fun r => do
        let v ← (do
          let a ← cellNum (r "alkalinity")
          let c ← cellNum (r "alkalinity_certified")
          return .num (a - c) : Py Val)
        return r.put "alkalinity_offset" v) df.rows := by
      apply mapPy_congr
      intro r _
      simp only [offsetRow, if_pos h]
      cases cellNum (r "alkalinity") with
      | error e => rfl
      | ok a => cases cellNum (r "alkalinity_certified") <;> rfl
    rw [this, offsetCols, if_pos h]
  · rw [if_neg (fun h' => h (has_iff.mp h'))]
    have : mapPy (offsetRow df.cols) df.rows = .ok (df.rows.map id) :=
      mapPy_of_ok fun r _ => by simp only [offsetRow, if_neg h]; rfl
    rw [this, bind_ok, pure_ok, offsetCols, if_neg h, List.map_id]

/-- one row, prepared and solved -/
noncomputable def mergedRow (w : World) (kw : Dict Val) (cols : List String) (r : Row) : Py Row := do
  let s ← solve_row w kw (prepCols cols) (prepRow w cols r)
  return mergeSolved (prepRow w cols r) s

/-- one row, prepared and solved, with its offset -/
noncomputable def solvedRow (w : World) (kw : Dict Val) (cols : List String) (r : Row) : Py Row :=
  mergedRow w kw cols r >>= offsetRow cols

theorem assignSolved_eq (w : World) (kw : Dict Val) (cols : List String) (rows : List Row) :
    assignSolved w kw ⟨prepCols cols, rows.map (prepRow w cols)⟩ = (do
      let rows ← mapPy (mergedRow w kw cols) rows
      return ⟨solvedCols.foldl addCol (prepCols cols), rows⟩) := by
  unfold assignSolved
  simp only [mapPy_map]
  rfl

/-- the columns after solving -/
def doneCols (cols : List String) : List String :=
  offsetCols (solvedCols.foldl addCol (prepCols cols))

theorem mem_offsetCols {cols : List String} {k : String} : k ∈ offsetCols cols ↔
    k ∈ cols ∨ ("alkalinity_certified" ∈ cols ∧ k = "alkalinity_offset") := by
  unfold offsetCols
  by_cases h : "alkalinity_certified" ∈ cols
  · rw [if_pos h, mem_addCol]; simp only [h, true_and]
  · rw [if_neg h]; simp only [h, false_and, or_false]

theorem mem_doneCols {cols : List String} {k : String} : k ∈ doneCols cols ↔
    k ∈ cols ∨ k = "opt_total_borate" ∨ k ∈ salts ∨ k = "analyte_mass" ∨ k = "file_good"
      ∨ k ∈ solvedCols ∨ ("alkalinity_certified" ∈ cols ∧ k = "alkalinity_offset") := by
  have hc : "alkalinity_certified" ∈ solvedCols.foldl addCol (prepCols cols)
      ↔ "alkalinity_certified" ∈ cols := by
    rw [mem_foldl_addCol, mem_prepCols]
    constructor
    · rintro ((h | h | h | h | h) | h)
      · exact h
      all_goals exact absurd h (by decide)
    · exact fun h => .inl (.inl h)
  rw [doneCols, mem_offsetCols, hc, mem_foldl_addCol, mem_prepCols]
  simp only [or_assoc]

theorem offsetRow_congr {cols cols' : List String} (h : "alkalinity_certified" ∈ cols ↔
    "alkalinity_certified" ∈ cols') : offsetRow cols = offsetRow cols' := by
  funext r; unfold offsetRow; rw [if_congr h rfl rfl]

theorem forall₂_comp {α β γ : Type} {R : α → β → Prop} {S : β → γ → Prop} {l : List α} {m : List β}
    {n : List γ} (h : List.Forall₂ R l m) (h' : List.Forall₂ S m n) :
    List.Forall₂ (fun a c => ∃ b, R a b ∧ S b c) l n := by
  induction h generalizing n with
  | nil => cases h'; exact .nil
  | cons hx _ ih => cases h' with | cons hy hr => exact .cons ⟨_, hx, hy⟩ (ih hr)

theorem forall₂_split {α β γ : Type} {R : α → β → Prop} {S : β → γ → Prop} {l : List α} {n : List γ}
    (h : List.Forall₂ (fun a c => ∃ b, R a b ∧ S b c) l n) :
    ∃ m, List.Forall₂ R l m ∧ List.Forall₂ S m n := by
  induction h with
  | nil => exact ⟨[], .nil, .nil⟩
  | cons hx _ ih =>
    obtain ⟨b, h1, h2⟩ := hx
    obtain ⟨m, h3, h4⟩ := ih
    exact ⟨b :: m, .cons h1 h3, .cons h2 h4⟩

theorem prep_certified {cols : List String} : "alkalinity_certified" ∈ prepCols cols
    ↔ "alkalinity_certified" ∈ cols := by
  rw [mem_prepCols]
  constructor
  · rintro (h | h | h | h | h)
    · exact h
    all_goals exact absurd h (by decide)
  · exact .inl

theorem assign_certified {cols : List String} :
    "alkalinity_certified" ∈ solvedCols.foldl addCol cols ↔ "alkalinity_certified" ∈ cols := by
  rw [mem_foldl_addCol]
  exact or_iff_left (by decide)

theorem prep_molinity {cols : List String} : "titrant_molinity" ∈ prepCols cols
    ↔ "titrant_molinity" ∈ cols := by
  rw [mem_prepCols]
  constructor
  · rintro (h | h | h | h | h)
    · exact h
    all_goals exact absurd h (by decide)
  · exact .inl

/-- `dataset.solve` finishes exactly if the frame has the columns it needs and every row can be
done, and then it is `solvedRow` row by row. -/
theorem dataset_solve_ok_iff {w : World} {kw : Dict Val} {df df' : DF} :
    dataset_solve w kw df = (.ok (), df') ↔
      (∃ l, dataset_ignored kw = .ok l) ∧ "salinity" ∈ df.cols ∧
      ("analyte_mass" ∈ df.cols ∨ "analyte_volume" ∈ df.cols) ∧ "titrant_molinity" ∈ df.cols ∧
      df'.cols = doneCols df.cols ∧
      List.Forall₂ (fun r r' => solvedRow w kw df.cols r = .ok r') df.rows df'.rows := by
  unfold dataset_solve
  rw [PyS.lift_bind]
  cases hi : dataset_ignored kw with
  | error e => simp
  | ok l =>
  show (prepare w >>= _) df = _ ↔ _
  rw [PyS.bind_apply, prepare_eq]
  by_cases hS : df.has "salinity" = true
  swap
  · rw [if_neg hS]
    constructor
    · intro h; cases h
    · intro h; exact absurd (has_iff.mpr h.2.1) hS
  rw [if_pos hS]
  by_cases hmv : (df.has "analyte_mass" || df.has "analyte_volume") = true
  swap
  · rw [if_neg hmv]
    constructor
    · intro h; cases h
    · intro h; exact absurd (by simpa only [Bool.or_eq_true, has_iff] using h.2.2.1) hmv
  rw [if_pos hmv]
  show (PyS.require _ >>= _) _ = _ ↔ _
  rw [PyS.require_bind]
  by_cases ht : "titrant_molinity" ∈ df.cols
  swap
  · rw [if_neg (fun h => ht (prep_molinity.mp (has_iff.mp h)))]
    constructor
    · intro h; cases h
    · intro h; exact absurd h.2.2.2.1 ht
  rw [if_pos (has_iff.mpr (prep_molinity.mpr ht)), PyS.update_bind]
  have hmv' : "analyte_mass" ∈ df.cols ∨ "analyte_volume" ∈ df.cols := by
    simpa only [Bool.or_eq_true, has_iff] using hmv
  rw [assignSolved_eq]
  simp only [has_iff.mp hS, hmv', ht, true_and, Except.ok.injEq, exists_eq']
  have hoff : ∀ cols, (offsetRow (solvedCols.foldl addCol (prepCols cols))) = offsetRow cols :=
    fun cols => offsetRow_congr (assign_certified.trans prep_certified)
  constructor
  · intro h
    cases hm : mapPy (mergedRow w kw df.cols) df.rows with
    | error e => rw [hm] at h; cases h
    | ok rows =>
      rw [hm] at h
      simp only [bind_ok, pure_ok] at h
      unfold PyS.update at h
      rw [addOffset_eq] at h
      simp only at h
      cases ho : mapPy (offsetRow (solvedCols.foldl addCol (prepCols df.cols))) rows with
      | error e => rw [ho] at h; cases h
      | ok rows' =>
        rw [ho] at h
        simp only [bind_ok, pure_ok, Prod.mk.injEq, true_and] at h
        subst h
        refine ⟨by rw [doneCols], ?_⟩
        rw [hoff] at ho
        refine (forall₂_comp (mapPy_ok hm) (mapPy_ok ho)).imp ?_
        rintro r r' ⟨b, h1, h2⟩
        unfold solvedRow
        rw [h1, bind_ok]
        exact h2
  · rintro ⟨hc, hr⟩
    have : List.Forall₂ (fun r r' => ∃ b, mergedRow w kw df.cols r = .ok b ∧
        offsetRow df.cols b = .ok r') df.rows df'.rows := by
      refine hr.imp ?_
      intro r r' h
      unfold solvedRow at h
      rw [bind_ok_iff] at h
      exact h
    obtain ⟨rows, h1, h2⟩ := forall₂_split this
    rw [mapPy_of_forall₂ h1]
    simp only [bind_ok, pure_ok]
    rw [PyS.update_ok (s' := df')]
    rw [addOffset_eq]
    simp only
    rw [hoff, mapPy_of_forall₂ h2, bind_ok, pure_ok]
    obtain ⟨c', r'⟩ := df'
    simp only at hc
    rw [hc, doneCols]

/-! ## What preparation keeps -/

theorem saltRow_keep {w : World} {cols : List String} {r : Row} {c : String} (hc : c ∈ cols)
    (hn : (r c).isNull = false) : saltRow w cols r c = r c := by
  unfold saltRow
  by_cases h1 : c = "opt_total_borate"
  · rw [if_pos h1]; unfold prepBorate; subst h1; rw [if_pos ⟨hc, hn⟩]
  · rw [if_neg h1]
    by_cases h2 : c ∈ salts
    · rw [if_pos h2, if_pos ⟨hc, hn⟩]
    · rw [if_neg h2]

theorem prepRow_keep {w : World} {cols : List String} {r : Row} {c : String} (hc : c ∈ cols)
    (hn : (r c).isNull = false) : prepRow w cols r c = r c := by
  unfold prepRow
  by_cases h1 : c = "analyte_mass"
  · rw [if_pos h1, if_pos hc]
  by_cases h2 : c = "titrant_amount_unit"
  · rw [if_neg h1, if_pos h2, if_neg]
    rintro ⟨_, h⟩; rw [hn] at h; cases h
  by_cases h3 : c = "file_good"
  · rw [if_neg h1, if_neg h2, if_pos h3, if_pos hc]
  rw [if_neg h1, if_neg h2, if_neg h3, saltRow_keep hc hn]

/-- the columns that preparation may fill in -/
def prepFills : List String :=
  ["opt_total_borate", "total_sulfate", "total_borate", "total_fluoride", "analyte_mass",
    "titrant_amount_unit", "file_good"]

theorem prepRow_other {w : World} {cols : List String} {r : Row} {c : String} (h : c ∉ prepFills) :
    prepRow w cols r c = r c := by
  simp only [prepFills, List.mem_cons, List.not_mem_nil, or_false, not_or] at h
  obtain ⟨h1, h2, h3, h4, h5, h6, h7⟩ := h
  unfold prepRow
  rw [if_neg h5, if_neg h6, if_neg h7, saltRow_of_ne h1]
  simp only [salts, List.mem_cons, List.not_mem_nil, or_false, not_or]
  exact ⟨h2, h3, h4⟩

theorem foldl_addCol_prefix (l cols : List String) :
    ∃ extra, l.foldl addCol cols = cols ++ extra ∧ ∀ x ∈ extra, x ∈ l := by
  induction l generalizing cols with
  | nil => exact ⟨[], by simp⟩
  | cons c l ih =>
    obtain ⟨e1, h1, h1'⟩ := addCol_prefix cols c
    obtain ⟨e2, h2, h2'⟩ := ih (addCol cols c)
    refine ⟨e1 ++ e2, by rw [List.foldl_cons, h2, h1, List.append_assoc], ?_⟩
    intro x hx
    rcases List.mem_append.mp hx with hx | hx
    · rw [h1' x hx]; exact List.mem_cons_self ..
    · exact List.mem_cons_of_mem _ (h2' x hx)

/-! ## Preparing twice -/

theorem prepBorate_prep (w : World) (cols cols' : List String) (r r' : Row)
    (hc : "opt_total_borate" ∈ cols') (hr : r' "opt_total_borate" = prepBorate cols r) :
    prepBorate cols' r' = prepBorate cols r := by
  have hn : (prepBorate cols r).isNull = false := by
    unfold prepBorate
    split
    · rename_i h; exact h.2
    · rfl
  unfold prepBorate at *
  rw [if_pos ⟨hc, by rw [hr]; exact hn⟩, hr]

theorem prepBorate_notNull (cols : List String) (r : Row) : (prepBorate cols r).isNull = false := by
  unfold prepBorate
  split
  · rename_i h; exact h.2
  · rfl

/-- A row that agrees with a prepared one outside the result columns is left alone by another
preparation. -/
theorem prepRow_again {w : World} {cols cols' : List String} {r r' : Row}
    (hc : ∀ c ∈ prepFills, c ∈ cols' ↔ c ∈ prepCols cols)
    (hr : ∀ c, c ∈ prepFills ∨ c = "salinity" → r' c = prepRow w cols r c) :
    prepRow w cols' r' = r' := by
  have hB : "opt_total_borate" ∈ cols' := (hc _ (by decide)).mpr (by rw [mem_prepCols]; simp)
  have hM : "analyte_mass" ∈ cols' := (hc _ (by decide)).mpr (by rw [mem_prepCols]; simp)
  have hF : "file_good" ∈ cols' := (hc _ (by decide)).mpr (by rw [mem_prepCols]; simp)
  have hb : r' "opt_total_borate" = prepBorate cols r := by
    rw [hr _ (.inl (by decide)), prepRow, if_neg (by decide), if_neg (by decide),
      if_neg (by decide), saltRow, if_pos rfl]
  have hS : r' "salinity" = r "salinity" := by
    rw [hr _ (.inr rfl), prepRow_other (by decide)]
  funext c
  unfold prepRow
  by_cases h1 : c = "analyte_mass"
  · subst h1; rw [if_pos rfl, if_pos hM]
  rw [if_neg h1]
  by_cases h2 : c = "titrant_amount_unit"
  · subst h2
    rw [if_pos rfl, if_neg]
    rintro ⟨hu, hn⟩
    have hu' : "titrant_amount_unit" ∈ cols := by
      have := (hc _ (by decide)).mp hu
      rw [mem_prepCols] at this
      rcases this with h | h | h | h | h
      · exact h
      all_goals exact absurd h (by decide)
    rw [hr _ (.inl (by decide)), prepRow, if_neg h1, if_pos rfl] at hn
    by_cases hn' : (r "titrant_amount_unit").isNull = true
    · rw [if_pos ⟨hu', hn'⟩] at hn; cases hn
    · rw [if_neg (fun h => hn' h.2)] at hn; exact hn' hn
  rw [if_neg h2]
  by_cases h3 : c = "file_good"
  · subst h3; rw [if_pos rfl, if_pos hF]
  rw [if_neg h3]
  unfold saltRow
  by_cases h4 : c = "opt_total_borate"
  · subst h4
    rw [if_pos rfl, prepBorate_prep w cols cols' r r' hB hb, hb]
  rw [if_neg h4]
  by_cases h5 : c ∈ salts
  · have hc5 : c ∈ cols' := by
      have : c ∈ prepFills := (by decide : ∀ c ∈ salts, c ∈ prepFills) c h5
      exact (hc _ this).mpr (by rw [mem_prepCols]; exact .inr (.inr (.inl h5)))
    have hr5 : r' c = prepRow w cols r c :=
      hr c (.inl ((by decide : ∀ c ∈ salts, c ∈ prepFills) c h5))
    rw [if_pos h5]
    by_cases hn : (r' c).isNull = false
    · rw [if_pos ⟨hc5, hn⟩]
    · rw [if_neg (fun h => hn h.2), hS, prepBorate_prep w cols cols' r r' hB hb]
      rw [hr5] at hn ⊢
      unfold prepRow at hn ⊢
      rw [if_neg h1, if_neg h2, if_neg h3] at hn ⊢
      unfold saltRow at hn ⊢
      rw [if_neg h4, if_pos h5] at hn ⊢
      by_cases hu : c ∈ cols ∧ (r c).isNull = false
      · rw [if_pos hu] at hn; exact absurd hu.2 hn
      · rw [if_neg hu]
  · rw [if_neg h5]

theorem saltCols_again {cols : List String} (h : ∀ c ∈ prepFills, c ≠ "titrant_amount_unit" →
    c ∈ cols) : prepCols cols = cols := by
  have h1 : saltCols cols = cols := by
    unfold saltCols
    exact foldl_addCol_of_mem fun c hc => by
      refine h c ?_ ?_
      · revert c; decide
      · rintro rfl; revert hc; decide
  unfold prepCols
  rw [h1]
  exact foldl_addCol_of_mem fun c hc => by
    refine h c ?_ ?_
    · revert c; decide
    · rintro rfl; revert hc; decide

attribute [irreducible] saltCols prepCols offsetCols doneCols

end Calk
