import Verif.Model.Metadata
import Verif.Lemmas.Dataset
import Verif.Lemmas.Text

/-! # VINDTA metadata (C59, C60, C79, C80) -/

namespace Calk
open Flt

/-! ## Reading numbers back from a name -/

/-- the text does not go on with a digit -/
def NoDigitNext (s : List Char) : Prop := ∀ c, s.head? = some c → isDigit c = false

theorem natChars_cancel {a b : ℕ} {x y : List Char} (hx : NoDigitNext x) (hy : NoDigitNext y)
    (h : natChars a ++ x = natChars b ++ y) : a = b ∧ x = y := by
  have h1 := takeDigits_append (natChars_digits a) hx
  have h2 := takeDigits_append (natChars_digits b) hy
  rw [h, h2] at h1
  obtain ⟨e1, e2⟩ := Prod.mk.inj h1
  refine ⟨?_, e2.symm⟩
  rw [← natChars_val a, ← natChars_val b, e1]

theorem natChars_head_ne (n : ℕ) (x s : List Char) : natChars n ++ x ≠ '-' :: s := by
  intro h
  cases hn : natChars n with
  | nil => exact natChars_ne_nil n hn
  | cons c t =>
    rw [hn, List.cons_append] at h
    have := natChars_digits n c (by rw [hn]; exact List.mem_cons_self)
    rw [(List.cons.inj h).1] at this
    exact absurd this (by decide)

theorem intChars_cancel {a b : Int} {x y : List Char} (hx : NoDigitNext x) (hy : NoDigitNext y)
    (h : intChars a ++ x = intChars b ++ y) : a = b ∧ x = y := by
  unfold intChars at h
  by_cases ha : a < 0 <;> by_cases hb : b < 0
  · rw [if_pos ha, if_pos hb] at h
    have h := natChars_cancel hx hy (List.cons.inj h).2
    exact ⟨by omega, h.2⟩
  · rw [if_pos ha, if_neg hb] at h
    exact absurd h.symm (natChars_head_ne _ _ _)
  · rw [if_neg ha, if_pos hb] at h
    exact absurd h (natChars_head_ne _ _ _)
  · rw [if_neg ha, if_neg hb] at h
    have h := natChars_cancel hx hy h
    exact ⟨by omega, h.2⟩

theorem noDigit_cons {c : Char} {s : List Char} (h : isDigit c = false) : NoDigitNext (c :: s) := by
  intro d hd
  rw [List.head?_cons] at hd
  rw [← Option.some.inj hd]; exact h

theorem defaultName_eq (id : BottleId) : formatName defaultFormat id =
    intChars id.station ++ '-' :: (intChars id.cast ++ ' ' :: ' ' :: (intChars id.niskin ++
      ' ' :: ' ' :: '(' :: (intChars id.depth ++ ')' :: (id.bottle ++ ['.', 'd', 'a', 't'])))) := by
  simp [formatName, defaultFormat]

/-- Two bottles with the same default name are the same bottle. -/
theorem defaultName_inj {a b : BottleId}
    (h : formatName defaultFormat a = formatName defaultFormat b) : a = b := by
  rw [defaultName_eq, defaultName_eq] at h
  obtain ⟨h1, h⟩ := intChars_cancel (noDigit_cons (by decide)) (noDigit_cons (by decide)) h
  obtain ⟨h2, h⟩ := intChars_cancel (noDigit_cons (by decide)) (noDigit_cons (by decide))
    (List.cons.inj h).2
  obtain ⟨h3, h⟩ := intChars_cancel (noDigit_cons (by decide)) (noDigit_cons (by decide))
    (List.cons.inj (List.cons.inj h).2).2
  obtain ⟨h4, h⟩ := intChars_cancel (noDigit_cons (by decide)) (noDigit_cons (by decide))
    (List.cons.inj (List.cons.inj (List.cons.inj h).2).2).2
  have h5 := List.append_cancel_right (List.cons.inj h).2
  cases a; cases b; simp_all

/-! ## What happens to a row -/

/-- the row's value under a column as a whole number -/
def WholeAt (lib : DbsLib) (r : Row) (c : String) (i : Int) : Prop := lib.int (r c) = .ok i

/-- whole numbers `(s, c, n, d)` and the printed bottle of a row -/
structure RowIs (lib : DbsLib) (r : Row) (id : BottleId) : Prop where
  station : lib.int (r "station") = .ok id.station
  cast : lib.int (r "cast") = .ok id.cast
  niskin : lib.int (r "niskin") = .ok id.niskin
  depth : lib.int (r "depth") = .ok id.depth
  bottle : lib.str (r "bottle") = id.bottle

theorem rowAttr_ok {cols : List String} {r : Row} {c : String} {v : Val}
    (h : rowAttr cols r c = .ok v) : cols.contains c = true ∧ v = r c := by
  unfold rowAttr at h
  split at h
  · rename_i hc; exact ⟨hc, (Except.ok.inj h).symm⟩
  · cases h

theorem bottleId_ok {lib : DbsLib} {cols : List String} {r : Row} {id : BottleId}
    (h : bottleId lib cols r = .ok id) : RowIs lib r id := by
  unfold bottleId at h
  simp only [bind_ok_iff] at h
  obtain ⟨s, hs, s', hs', c, hc, c', hc', n, hn, n', hn', d, hd, d', hd', b, hb, h⟩ := h
  obtain rfl := Except.ok.inj h
  obtain ⟨_, rfl⟩ := rowAttr_ok hs
  obtain ⟨_, rfl⟩ := rowAttr_ok hc
  obtain ⟨_, rfl⟩ := rowAttr_ok hn
  obtain ⟨_, rfl⟩ := rowAttr_ok hd
  obtain ⟨_, rfl⟩ := rowAttr_ok hb
  exact ⟨hs', hc', hn', hd', rfl⟩

/-- Kinds of run -/
inductive Run where
  | bottle | crm | other
  deriving DecidableEq

/-- the kind of run that a `run_type` cell stands for -/
def runOf : Val → Run
  | .str s => if s = "bottle" then .bottle else if s = "CRM" then .crm else .other
  | _ => .other

theorem isStr_bottle (v : Val) : v.isStr "bottle" = true ↔ runOf v = .bottle := by
  cases v with
  | str s =>
    simp only [Val.isStr, runOf, beq_iff_eq]
    by_cases h : s = "bottle"
    · simp [h]
    · by_cases h2 : s = "CRM" <;> simp [h, h2]
  | _ => simp [Val.isStr, runOf]

theorem isStr_crm (v : Val) : v.isStr "CRM" = true ↔ runOf v = .crm := by
  cases v with
  | str s =>
    simp only [Val.isStr, runOf, beq_iff_eq]
    by_cases h : s = "bottle"
    · simp [h]
    · by_cases h2 : s = "CRM" <;> simp [h, h2]
  | _ => simp [Val.isStr, runOf]

/-- the text of a file name cell -/
def Named (r : Row) (name : List Char) : Prop := r "file_name" = .str (String.ofList name)

/-- What the import does to one row: `r` before, `r'` after. -/
structure Imported (lib : DbsLib) (fmt : List Piece) (r r' : Row) : Prop where
  bottle : runOf (r "run_type") = .bottle → ∃ id, RowIs lib r id ∧ Named r' (formatName fmt id)
  crm : runOf (r "run_type") = .crm → Named r'
    ("CRM".toList ++ lib.str (r "batch") ++ lib.str (r "bottle") ++ ".dat".toList)
  other : runOf (r "run_type") = .other → r' "file_name" = r "file_name"
  good : r' "file_good" = if runOf (r "run_type") = .other then .bool false else r "file_good"
  certified : r' "alkalinity_certified" =
    if runOf (r "run_type") = .crm then r "cert. CRM AT" else r "alkalinity_certified"
  rest : ∀ c, c ∉ ["file_name", "file_good", "alkalinity_certified"] → r' c = r c

theorem vindtaRow_ok {lib : DbsLib} {fmt : List Piece} {cols : List String} {r r' : Row} {u : Unit}
    (h : vindtaRow lib fmt cols r = (.ok u, r')) : Imported lib fmt r r' := by
  unfold vindtaRow at h
  obtain ⟨r0, t0, h0, h⟩ := PyS.bind_ok_inv h
  obtain ⟨e1, e2⟩ := Prod.mk.inj h0
  obtain rfl := Except.ok.inj e1
  subst e2
  obtain ⟨rt, t1, h1, h⟩ := PyS.bind_ok_inv h
  rw [PyS.lift_apply] at h1
  obtain ⟨e1, e2⟩ := Prod.mk.inj h1
  subst e2
  obtain ⟨_, rfl⟩ := rowAttr_ok e1
  by_cases hb : (r "run_type").isStr "bottle" = true
  · rw [if_pos hb] at h
    have hk := (isStr_bottle _).mp hb
    obtain ⟨id, t, h2, h⟩ := PyS.bind_ok_inv h
    rw [PyS.lift_apply] at h2
    obtain ⟨e1, e2⟩ := Prod.mk.inj h2
    subst e2
    rw [PyS.modify_apply] at h
    obtain ⟨_, rfl⟩ := Prod.mk.inj h
    refine ⟨fun _ => ⟨id, bottleId_ok e1, ?_⟩, fun h => ?_, fun h => ?_, ?_, ?_, ?_⟩
    · exact if_pos rfl
    · rw [hk] at h; cases h
    · rw [hk] at h; cases h
    · rw [hk]; rfl
    · rw [hk]; rfl
    · intro c hc
      simp only [List.mem_cons, not_or] at hc
      exact if_neg hc.1
  · rw [if_neg hb] at h
    by_cases hc : (r "run_type").isStr "CRM" = true
    · rw [if_pos hc] at h
      have hk := (isStr_crm _).mp hc
      obtain ⟨name, t, h2, h⟩ := PyS.bind_ok_inv h
      rw [PyS.lift_apply] at h2
      obtain ⟨e1, e2⟩ := Prod.mk.inj h2
      subst e2
      obtain ⟨u1, t1, h3, h⟩ := PyS.bind_ok_inv h
      rw [PyS.modify_apply] at h3
      obtain ⟨_, rfl⟩ := Prod.mk.inj h3
      obtain ⟨cert, t2, h4, h⟩ := PyS.bind_ok_inv h
      rw [PyS.lift_apply] at h4
      obtain ⟨e4, e5⟩ := Prod.mk.inj h4
      subst e5
      rw [PyS.modify_apply] at h
      obtain ⟨_, rfl⟩ := Prod.mk.inj h
      have hcert : cert = r "cert. CRM AT" := by
        unfold rowItem at e4
        split at e4
        · exact (Except.ok.inj e4).symm
        · cases e4
      unfold crmName at e1
      simp only [bind_ok_iff] at e1
      obtain ⟨a, ha, b, hb', e1⟩ := e1
      obtain rfl := Except.ok.inj e1
      obtain ⟨_, rfl⟩ := rowAttr_ok ha
      obtain ⟨_, rfl⟩ := rowAttr_ok hb'
      refine ⟨fun h => ?_, fun _ => ?_, fun h => ?_, ?_, ?_, ?_⟩
      · rw [hk] at h; cases h
      · exact (if_neg (by decide)).trans (if_pos rfl)
      · rw [hk] at h; cases h
      · rw [hk]; rfl
      · rw [hk, if_pos rfl, ← hcert]; exact if_pos rfl
      · intro c hc
        simp only [List.mem_cons, not_or] at hc
        exact (if_neg hc.2.2.1).trans (if_neg hc.1)
    · rw [if_neg hc] at h
      rw [PyS.modify_apply] at h
      obtain ⟨_, rfl⟩ := Prod.mk.inj h
      have hk : runOf (r "run_type") = .other := by
        cases hr : runOf (r "run_type") with
        | bottle => exact absurd ((isStr_bottle _).mpr hr) hb
        | crm => exact absurd ((isStr_crm _).mpr hr) hc
        | other => rfl
      refine ⟨fun h => ?_, fun h => ?_, fun h => ?_, ?_, ?_, ?_⟩
      · rw [hk] at h; cases h
      · rw [hk] at h; cases h
      · rfl
      · rw [hk, if_pos rfl]; exact if_pos rfl
      · rw [hk]; rfl
      · intro c hc
        simp only [List.mem_cons, not_or] at hc
        exact if_neg hc.2.1

theorem vindtaLoop_ok {lib : DbsLib} {fmt : List Piece} {cols : List String} {u : Unit} :
    ∀ {rs rs' : List Row}, vindtaLoop lib fmt cols rs = (.ok u, rs') →
    List.Forall₂ (Imported lib fmt) rs rs' := by
  intro rs
  induction rs with
  | nil =>
    intro rs' h
    obtain ⟨_, rfl⟩ := Prod.mk.inj h
    exact .nil
  | cons r rs ih =>
    intro rs' h
    rw [vindtaLoop] at h
    rcases hr : vindtaRow lib fmt cols r with ⟨x, r'⟩
    rw [hr] at h
    cases x with
    | error e => cases (Prod.mk.inj h).1
    | ok v =>
      rcases hl : vindtaLoop lib fmt cols rs with ⟨y, rs''⟩
      simp only [hl] at h
      obtain ⟨e1, e2⟩ := Prod.mk.inj h
      subst e1 e2
      exact .cons (vindtaRow_ok hr) (ih hl)

/-! ## C60 -/

/-- What the import does to one row of a table: `had c` says whether the table has a column `c`
already. -/
structure ImportedRow (lib : DbsLib) (fmt : List Piece) (had : String → Bool) (r r' : Row) : Prop where
  /-- a bottle gets the formatted name -/
  bottle : runOf (r "run_type") = .bottle → ∃ id, RowIs lib r id ∧ Named r' (formatName fmt id)
  /-- a CRM gets the name made of batch and bottle -/
  crm : runOf (r "run_type") = .crm → Named r'
    ("CRM".toList ++ lib.str (r "batch") ++ lib.str (r "bottle") ++ ".dat".toList)
  /-- other runs get no name -/
  other : runOf (r "run_type") = .other → r' "file_name" = .str ""
  /-- `file_good`: False for other runs; otherwise as it was, True if there was none -/
  good : r' "file_good" = if runOf (r "run_type") = .other then .bool false
    else if had "file_good" then r "file_good" else .bool true
  /-- CRMs get their certified value; the others keep theirs -/
  certified : runOf (r "run_type") = .crm → r' "alkalinity_certified" = r "cert. CRM AT"
  uncertified : runOf (r "run_type") ≠ .crm → had "alkalinity_certified" = true →
    r' "alkalinity_certified" = r "alkalinity_certified"
  /-- nothing else changes -/
  rest : ∀ c, c ∉ ["file_name", "file_good", "alkalinity_certified"] → r' c = r c

theorem forall₂_map_left' {α β γ : Type} {R : γ → β → Prop} {f : α → γ} {l : List α} {l' : List β}
    (h : List.Forall₂ R (l.map f) l') : List.Forall₂ (fun a b => R (f a) b) l l' := by
  induction l generalizing l' with
  | nil => cases h; exact .nil
  | cons a l ih => cases h with | cons h1 h2 => exact .cons h1 (ih h2)

theorem Forall₂.imp' {α β : Type} {R S : α → β → Prop} (h : ∀ a b, R a b → S a b) {l : List α}
    {l' : List β} (hl : List.Forall₂ R l l') : List.Forall₂ S l l' := List.Forall₂.imp h hl

/-- **C60**: row by row, the effect of a successful import. -/
theorem C60_rows {lib : DbsLib} {fmt : List Piece} {df df' : DF} {u : Unit}
    (h : get_VINDTA_filenames lib fmt df = (.ok u, df')) :
    List.Forall₂ (ImportedRow lib fmt df.has) df.rows df'.rows := by
  unfold get_VINDTA_filenames at h
  rcases hl : vindtaLoop lib fmt (vindtaInit df).cols (certifiedCol (vindtaInit df)).rows with ⟨x, rows⟩
  simp only [hl] at h
  obtain ⟨e1, e2⟩ := Prod.mk.inj h
  subst e1 e2
  have key := vindtaLoop_ok hl
  show List.Forall₂ _ df.rows rows
  -- what a row looks like before the loop
  let init : Row → Row := fun r =>
    let r1 := r.put "file_name" (.str "")
    if df.has "file_good" then r1 else r1.put "file_good" (.bool true)
  have hgood : (df.setCol "file_name" fun _ => .str "").has "file_good" = df.has "file_good" := by
    show (addCol df.cols "file_name").contains "file_good" = df.cols.contains "file_good"
    rw [contains_addCol]; simp
  have hcert : (vindtaInit df).has "alkalinity_certified" = df.has "alkalinity_certified" := by
    unfold vindtaInit defaultFileGood
    rw [hgood]
    cases df.has "file_good" with
    | true =>
      show (addCol df.cols "file_name").contains _ = df.cols.contains _
      rw [contains_addCol]; simp
    | false =>
      show (addCol (addCol df.cols "file_name") "file_good").contains _ = df.cols.contains _
      rw [contains_addCol, contains_addCol]; simp
  have hinit : (vindtaInit df).rows = df.rows.map init := by
    unfold vindtaInit defaultFileGood
    rw [hgood]
    cases hh : df.has "file_good" with
    | true => simp only [if_true]; exact List.map_congr_left fun r _ => by simp [init, hh]
    | false =>
      simp only [Bool.false_eq_true, if_false]
      show (df.rows.map _).map _ = _
      rw [List.map_map]
      exact List.map_congr_left fun r _ => by simp [init, hh]
  have hinit_rest : ∀ r c, c ∉ ["file_name", "file_good"] → init r c = r c := by
    intro r c hc
    simp only [List.mem_cons, List.not_mem_nil, or_false, not_or] at hc
    simp only [init]
    split
    · exact if_neg hc.1
    · exact (if_neg hc.2).trans (if_neg hc.1)
  have hinit_name : ∀ r, init r "file_name" = .str "" := by
    intro r
    simp only [init]
    split
    · exact if_pos rfl
    · exact (if_neg (by decide)).trans (if_pos rfl)
  have hinit_good : ∀ r, init r "file_good" =
      if df.has "file_good" then r "file_good" else .bool true := by
    intro r
    simp only [init]
    split
    · exact if_neg (by decide)
    · exact if_pos rfl
  -- from the row before the loop to the row of the table
  have fin : ∀ (g : Row → Row), (∀ r c, c ≠ "alkalinity_certified" → g r c = init r c) →
      (df.has "alkalinity_certified" = true → ∀ r, g r "alkalinity_certified" = r "alkalinity_certified") →
      ∀ r r', Imported lib fmt (g r) r' → ImportedRow lib fmt df.has r r' := by
    intro g hg hgc r r' hi
    have hcol : ∀ c, c ∉ ["file_name", "file_good", "alkalinity_certified"] → g r c = r c := by
      intro c hc
      simp only [List.mem_cons, List.not_mem_nil, or_false, not_or] at hc
      rw [hg r c hc.2.2, hinit_rest r c (by simp [hc])]
    have hrt : g r "run_type" = r "run_type" := hcol _ (by decide)
    constructor
    · intro hb
      obtain ⟨id, hid, hn⟩ := hi.bottle (by rw [hrt]; exact hb)
      refine ⟨id, ⟨?_, ?_, ?_, ?_, ?_⟩, hn⟩
      · rw [← hcol "station" (by decide)]; exact hid.station
      · rw [← hcol "cast" (by decide)]; exact hid.cast
      · rw [← hcol "niskin" (by decide)]; exact hid.niskin
      · rw [← hcol "depth" (by decide)]; exact hid.depth
      · rw [← hcol "bottle" (by decide)]; exact hid.bottle
    · intro hc
      have := hi.crm (by rw [hrt]; exact hc)
      rw [hcol "batch" (by decide), hcol "bottle" (by decide)] at this
      exact this
    · intro ho
      rw [hi.other (by rw [hrt]; exact ho), hg r _ (by decide), hinit_name]
    · rw [hi.good, hrt, hg r _ (by decide), hinit_good]
    · intro hc
      rw [hi.certified, hrt, if_pos hc, hcol "cert. CRM AT" (by decide)]
    · intro hc hhad
      rw [hi.certified, hrt, if_neg hc, hgc hhad r]
    · intro c hc
      rw [hi.rest c hc, hcol c hc]
  unfold certifiedCol at key
  rw [hcert] at key
  split at key
  · rename_i hcond
    have hcond := (Bool.and_eq_true _ _ ▸ hcond).1
    have key2 : List.Forall₂ (Imported lib fmt)
        (df.rows.map fun r => (init r).put "alkalinity_certified" (.num nan)) rows := by
      have : (DF.setCol (vindtaInit df) "alkalinity_certified" fun _ => .num nan).rows =
          df.rows.map fun r => (init r).put "alkalinity_certified" (.num nan) := by
        show (vindtaInit df).rows.map _ = _
        rw [hinit, List.map_map]; rfl
      rw [this] at key
      exact key
    refine List.Forall₂.imp (fun r r' h => ?_) (forall₂_map_left' key2)
    refine fin _ (fun r c hc => if_neg hc) (fun hh r => ?_) r r' h
    rw [hh] at hcond; cases hcond
  · rw [hinit] at key
    refine List.Forall₂.imp (fun r r' h => ?_) (forall₂_map_left' key)
    exact fin init (fun _ _ _ => rfl) (fun _ r => hinit_rest r _ (by decide)) r r' h

theorem isCRM_iff (r : Row) : isCRM r = true ↔ runOf (r "run_type") = .crm := isStr_crm _

/-- the row before the loop -/
theorem vindtaInit_apply {df : DF} {r : Row} (hr : r ∈ (vindtaInit df).rows) :
    ∃ r0 ∈ df.rows, ∀ c, c ∉ ["file_name", "file_good"] → r c = r0 c := by
  unfold vindtaInit defaultFileGood at hr
  split at hr
  · obtain ⟨r0, h0, rfl⟩ := List.mem_map.mp hr
    refine ⟨r0, h0, fun c hc => ?_⟩
    simp only [List.mem_cons, List.not_mem_nil, or_false, not_or] at hc
    exact if_neg hc.1
  · obtain ⟨r1, h1, rfl⟩ := List.mem_map.mp hr
    obtain ⟨r0, h0, rfl⟩ := List.mem_map.mp h1
    refine ⟨r0, h0, fun c hc => ?_⟩
    simp only [List.mem_cons, List.not_mem_nil, or_false, not_or] at hc
    exact (if_neg hc.2).trans (if_neg hc.1)

/-- **C60**: in a table that had no certified values, rows other than CRMs have none afterwards
either: the cell is null if there is such a column now. -/
theorem C60_fresh {lib : DbsLib} {fmt : List Piece} {df df' : DF} {u : Unit}
    (h : get_VINDTA_filenames lib fmt df = (.ok u, df'))
    (hno : df.has "alkalinity_certified" = false) (hnow : df'.has "alkalinity_certified" = true) :
    ∀ r' ∈ df'.rows, runOf (r' "run_type") ≠ .crm → r' "alkalinity_certified" = .num nan := by
  unfold get_VINDTA_filenames at h
  rcases hl : vindtaLoop lib fmt (vindtaInit df).cols (certifiedCol (vindtaInit df)).rows with ⟨x, rows⟩
  simp only [hl] at h
  obtain ⟨e1, e2⟩ := Prod.mk.inj h
  subst e1 e2
  have key := vindtaLoop_ok hl
  intro r' hr' hk
  obtain ⟨i, hi, rfl⟩ := List.getElem_of_mem hr'
  rw [List.forall₂_iff_get] at key
  have him := key.2 i (key.1 ▸ hi) hi
  simp only [List.get_eq_getElem] at him
  have hrt := him.rest "run_type" (by decide)
  rw [hrt] at hk
  rw [him.certified, if_neg hk]
  have hcert : (vindtaInit df).has "alkalinity_certified" = false := by
    rw [← hno]
    unfold vindtaInit defaultFileGood
    split
    · show (addCol df.cols "file_name").contains _ = df.cols.contains _
      rw [contains_addCol]; simp
    · show (addCol (addCol df.cols "file_name") "file_good").contains _ = df.cols.contains _
      rw [contains_addCol, contains_addCol]; simp
  have hcond : ((vindtaInit df).rows.any isCRM) = true := by
    by_contra hc
    have : certifiedCol (vindtaInit df) = vindtaInit df := by
      unfold certifiedCol
      rw [if_neg]
      simp [hc]
    have hnow : (certifiedCol (vindtaInit df)).has "alkalinity_certified" = true := hnow
    rw [this, hcert] at hnow
    cases hnow
  have hrows : (certifiedCol (vindtaInit df)).rows =
      (vindtaInit df).rows.map fun r => r.put "alkalinity_certified" (.num nan) := by
    unfold certifiedCol
    rw [if_pos (by simp [hcert, hcond])]
    rfl
  have hlt : i < (certifiedCol (vindtaInit df)).rows.length := key.1 ▸ hi
  have hmem : (certifiedCol (vindtaInit df)).rows[i] ∈
      (vindtaInit df).rows.map fun r => r.put "alkalinity_certified" (.num nan) :=
    hrows ▸ List.getElem_mem _
  obtain ⟨r0, _, e⟩ := List.mem_map.mp hmem
  rw [← e]
  exact if_pos rfl

/-- **C60**: after an import there is a column of certified values if there was one before or some row is
a CRM, and not otherwise. -/
theorem C60_column {lib : DbsLib} {fmt : List Piece} {df df' : DF} {u : Unit}
    (h : get_VINDTA_filenames lib fmt df = (.ok u, df')) :
    "alkalinity_certified" ∈ df'.cols ↔
      "alkalinity_certified" ∈ df.cols ∨ ∃ r ∈ df.rows, runOf (r "run_type") = .crm := by
  unfold get_VINDTA_filenames at h
  rcases hl : vindtaLoop lib fmt (vindtaInit df).cols (certifiedCol (vindtaInit df)).rows with ⟨x, rows⟩
  simp only [hl] at h
  obtain ⟨e1, e2⟩ := Prod.mk.inj h
  subst e1 e2
  have hcert : "alkalinity_certified" ∈ (vindtaInit df).cols ↔ "alkalinity_certified" ∈ df.cols := by
    rw [← List.contains_iff_mem, ← List.contains_iff_mem]
    unfold vindtaInit defaultFileGood
    split
    · show (addCol df.cols "file_name").contains _ = true ↔ _
      rw [contains_addCol]; simp
    · show (addCol (addCol df.cols "file_name") "file_good").contains _ = true ↔ _
      rw [contains_addCol, contains_addCol]; simp
  have hrun : (vindtaInit df).rows.any isCRM = true ↔ ∃ r ∈ df.rows, runOf (r "run_type") = .crm := by
    rw [List.any_eq_true]
    constructor
    · rintro ⟨r, hr, hc⟩
      obtain ⟨r0, h0, he⟩ := vindtaInit_apply hr
      exact ⟨r0, h0, by rw [← he "run_type" (by decide)]; exact (isCRM_iff r).mp hc⟩
    · rintro ⟨r0, h0, hc⟩
      obtain ⟨r, hr, he⟩ : ∃ r ∈ (vindtaInit df).rows, r "run_type" = r0 "run_type" := by
        unfold vindtaInit defaultFileGood
        split
        · exact ⟨_, List.mem_map.mpr ⟨r0, h0, rfl⟩, if_neg (by decide)⟩
        · exact ⟨_, List.mem_map.mpr ⟨_, List.mem_map.mpr ⟨r0, h0, rfl⟩, rfl⟩,
            (if_neg (by decide)).trans (if_neg (by decide))⟩
      exact ⟨r, hr, (isCRM_iff r).mpr (by rw [he]; exact hc)⟩
  show "alkalinity_certified" ∈ (certifiedCol (vindtaInit df)).cols ↔ _
  rw [← hcert, ← hrun]
  unfold certifiedCol
  by_cases h1 : "alkalinity_certified" ∈ (vindtaInit df).cols
  · have : (vindtaInit df).has "alkalinity_certified" = true := List.contains_iff_mem.mpr h1
    rw [this]
    simp [h1]
  · have : (vindtaInit df).has "alkalinity_certified" = false := by
      rw [Bool.eq_false_iff]; exact fun hh => h1 (List.contains_iff_mem.mp hh)
    rw [this]
    by_cases h2 : (vindtaInit df).rows.any isCRM = true
    · rw [h2]
      simp only [Bool.not_false, Bool.and_self, if_true, or_true, iff_true]
      exact List.contains_iff_mem.mp (by
        show (addCol _ _).contains _ = true
        rw [contains_addCol]; simp)
    · rw [Bool.not_eq_true] at h2
      rw [h2]
      simp [h1]

/-- **C60**: an import with a bottle row whose station, cast, niskin or depth is not a number (a gap
in the table is NaN) fails as a whole. -/
theorem C60_gap {lib : DbsLib} {fmt : List Piece} {df : DF} {r : Row} {c : String}
    (hr : r ∈ df.rows) (hb : runOf (r "run_type") = .bottle)
    (hc : c ∈ ["station", "cast", "niskin", "depth"]) (hgap : r c = .num nan) :
    ∃ e df', get_VINDTA_filenames lib fmt df = (.error e, df') := by
  rcases h : get_VINDTA_filenames lib fmt df with ⟨x, df'⟩
  cases x with
  | error e => exact ⟨e, df', rfl⟩
  | ok u =>
    exfalso
    have key := C60_rows h
    obtain ⟨i, hi, rfl⟩ := List.getElem_of_mem hr
    rw [List.forall₂_iff_get] at key
    have him := key.2 i hi (key.1 ▸ hi)
    simp only [List.get_eq_getElem] at him
    obtain ⟨id, hid, _⟩ := him.bottle hb
    simp only [List.mem_cons, List.not_mem_nil, or_false] at hc
    rcases hc with rfl | rfl | rfl | rfl
    · have := hid.station; rw [hgap] at this; cases this
    · have := hid.cast; rw [hgap] at this; cases this
    · have := hid.niskin; rw [hgap] at this; cases this
    · have := hid.depth; rw [hgap] at this; cases this

/-- **C60**: `file_good` ends up False exactly for runs that are neither bottle nor CRM, and for rows
where it was False already. -/
theorem C60_flag {lib : DbsLib} {fmt : List Piece} {had : String → Bool} {r r' : Row}
    (h : ImportedRow lib fmt had r r') :
    r' "file_good" = .bool false ↔ runOf (r "run_type") = .other ∨
      (had "file_good" = true ∧ r "file_good" = .bool false) := by
  rw [h.good]
  by_cases ho : runOf (r "run_type") = .other
  · simp [ho]
  · cases hh : had "file_good" <;> simp [ho]

/-- **C60**: bottle and CRM rows all get a file name that is not empty (default format). -/
theorem C60_named {lib : DbsLib} {had : String → Bool} {r r' : Row}
    (h : ImportedRow lib defaultFormat had r r') :
    r' "file_name" = .str "" ↔ runOf (r "run_type") = .other := by
  constructor
  · intro he
    cases hr : runOf (r "run_type") with
    | other => rfl
    | bottle =>
      obtain ⟨id, _, hn⟩ := h.bottle hr
      unfold Named at hn
      rw [he] at hn
      have hn : ([] : List Char) = formatName defaultFormat id := by
        have := congrArg String.toList (Val.str.inj hn)
        simpa using this
      rw [defaultName_eq] at hn
      simp at hn
    | crm =>
      have hn := h.crm hr
      unfold Named at hn
      rw [he] at hn
      have hn := congrArg String.toList (Val.str.inj hn)
      simp at hn
  · exact h.other

/-! ## C59 -/

theorem named_inj {r : Row} {a b : List Char} (ha : Named r a) (hb : Named r b) : a = b := by
  unfold Named at ha hb
  rw [ha] at hb
  have := congrArg String.toList (Val.str.inj hb)
  simpa using this

/-- **C59**: two bottle rows of imported tables have the same file name exactly if station, cast,
niskin and depth agree as whole numbers and the bottles print the same. -/
theorem C59_bottles {lib : DbsLib} {had had2 : String → Bool} {r1 r1' r2 r2' : Row}
    (h1 : ImportedRow lib defaultFormat had r1 r1') (h2 : ImportedRow lib defaultFormat had2 r2 r2')
    (b1 : runOf (r1 "run_type") = .bottle) (b2 : runOf (r2 "run_type") = .bottle) :
    r1' "file_name" = r2' "file_name" ↔
      (∀ c ∈ ["station", "cast", "niskin", "depth"], lib.int (r1 c) = lib.int (r2 c)) ∧
        lib.str (r1 "bottle") = lib.str (r2 "bottle") := by
  obtain ⟨i, hi, ni⟩ := h1.bottle b1
  obtain ⟨j, hj, nj⟩ := h2.bottle b2
  constructor
  · intro he
    have hij : i = j := by
      refine defaultName_inj (named_inj (r := r2') ?_ nj)
      unfold Named at ni ⊢
      rw [← he, ni]
    subst hij
    refine ⟨?_, by rw [hi.bottle, hj.bottle]⟩
    intro c hc
    simp only [List.mem_cons, List.not_mem_nil, or_false] at hc
    rcases hc with rfl | rfl | rfl | rfl
    · rw [hi.station, hj.station]
    · rw [hi.cast, hj.cast]
    · rw [hi.niskin, hj.niskin]
    · rw [hi.depth, hj.depth]
  · rintro ⟨hn, hb⟩
    have e1 := hn "station" (by simp)
    have e2 := hn "cast" (by simp)
    have e3 := hn "niskin" (by simp)
    have e4 := hn "depth" (by simp)
    rw [hi.station, hj.station] at e1
    rw [hi.cast, hj.cast] at e2
    rw [hi.niskin, hj.niskin] at e3
    rw [hi.depth, hj.depth] at e4
    rw [hi.bottle, hj.bottle] at hb
    have : i = j := by
      cases i; cases j
      simp only [Except.ok.injEq] at e1 e2 e3 e4
      simp_all
    unfold Named at ni nj
    rw [ni, nj, this]

/-- **C59**: a bottle and a CRM never share a name. -/
theorem C59_kinds {lib : DbsLib} {had had2 : String → Bool} {r1 r1' r2 r2' : Row}
    (h1 : ImportedRow lib defaultFormat had r1 r1') (h2 : ImportedRow lib defaultFormat had2 r2 r2')
    (b1 : runOf (r1 "run_type") = .bottle) (b2 : runOf (r2 "run_type") = .crm) :
    r1' "file_name" ≠ r2' "file_name" := by
  obtain ⟨i, hi, ni⟩ := h1.bottle b1
  have nj := h2.crm b2
  intro he
  have : formatName defaultFormat i =
      "CRM".toList ++ lib.str (r2 "batch") ++ lib.str (r2 "bottle") ++ ".dat".toList := by
    refine named_inj (r := r2') ?_ nj
    unfold Named at ni ⊢
    rw [← he, ni]
  rw [defaultName_eq] at this
  unfold intChars at this
  by_cases hs : i.station < 0
  · rw [if_pos hs] at this
    have h := (List.cons.inj this).1
    exact absurd h (by decide)
  · rw [if_neg hs] at this
    cases hn : natChars i.station.natAbs with
    | nil => exact natChars_ne_nil _ hn
    | cons c t =>
      rw [hn] at this
      have h := (List.cons.inj this).1
      have hd := natChars_digits i.station.natAbs c (by rw [hn]; exact List.mem_cons_self)
      rw [h] at hd
      exact absurd hd (by decide)

/-- **C59**: `int` cuts fractions off, towards zero. -/
theorem C59_fraction (lib : DbsLib) (x : ℝ) (n : ℤ) :
    lib.int (.num (fin x)) = .ok n ↔
      (0 ≤ x → (n:ℝ) ≤ x ∧ x < n + 1) ∧ (x < 0 → (n:ℝ) - 1 < x ∧ x ≤ n) := by
  unfold DbsLib.int
  constructor
  · intro h
    obtain rfl := Except.ok.inj h
    split
    · rename_i hx
      exact ⟨fun _ => ⟨Int.floor_le x, Int.lt_floor_add_one x⟩, fun h => absurd hx (not_le.mpr h)⟩
    · rename_i hx
      exact ⟨fun h => absurd h hx, fun _ => ⟨by linarith [Int.ceil_lt_add_one x], Int.le_ceil x⟩⟩
  · rintro ⟨h1, h2⟩
    refine congrArg Except.ok ?_
    split
    · rename_i hx
      exact Int.floor_eq_iff.mpr (h1 hx)
    · rename_i hx
      exact Int.ceil_eq_iff.mpr (h2 (not_le.mp hx))

example (lib : DbsLib) : lib.int (.num (fin (-1.5))) = .ok (-1) :=
  (C59_fraction lib _ _).mpr ⟨fun h => by norm_num at h, fun _ => by norm_num⟩

/-- **C59**: two CRM rows share a name exactly if batch and bottle, written one after the other, print
the same. -/
theorem C59_crm {lib : DbsLib} {fmt fmt2 : List Piece} {had had2 : String → Bool}
    {r1 r1' r2 r2' : Row}
    (h1 : ImportedRow lib fmt had r1 r1') (h2 : ImportedRow lib fmt2 had2 r2 r2')
    (b1 : runOf (r1 "run_type") = .crm) (b2 : runOf (r2 "run_type") = .crm) :
    r1' "file_name" = r2' "file_name" ↔
      lib.str (r1 "batch") ++ lib.str (r1 "bottle") = lib.str (r2 "batch") ++ lib.str (r2 "bottle") := by
  have n1 := h1.crm b1
  have n2 := h2.crm b2
  constructor
  · intro he
    have : Named r2' ("CRM".toList ++ lib.str (r1 "batch") ++ lib.str (r1 "bottle") ++ ".dat".toList) := by
      unfold Named at n1 ⊢
      rw [← he, n1]
    have := List.append_cancel_right (named_inj this n2)
    rw [List.append_assoc, List.append_assoc] at this
    exact List.append_cancel_left this
  · intro he
    unfold Named at n1 n2
    rw [n1, n2]
    simp only [List.append_assoc] at he ⊢
    rw [← List.append_assoc (lib.str (r1 "batch")), he, List.append_assoc]

/-! Concrete tables. -/

/-- Python, as far as the values below need it -/
def plainLib : DbsLib where
  numStr := fun _ => []
  otherStr := fun _ => []
  intStr := fun s => if s = "7" then .ok 7 else .error .ValueError
  datetime64 := fun _ => some (fin 738000)

/-- a bottle, a CRM, a junk run and a bottle already marked as bad -/
def surveyTable : DF where
  cols := ["run_type", "station", "cast", "niskin", "depth", "batch", "bottle", "cert. CRM AT",
    "file_good"]
  rows := [
    fun c => if c = "run_type" then .str "bottle" else if c = "bottle" then .str "A"
      else if c = "file_good" then .bool true else .str "7",
    fun c => if c = "run_type" then .str "CRM" else if c = "batch" then .str "189"
      else if c = "bottle" then .str "12" else if c = "file_good" then .bool true
      else if c = "cert. CRM AT" then .num (fin 2212) else .num nan,
    fun c => if c = "run_type" then .str "junk" else if c = "file_good" then .bool true
      else .num nan,
    fun c => if c = "run_type" then .str "bottle" else if c = "bottle" then .str "B"
      else if c = "file_good" then .bool false else .str "7"]

/-- a successful import for `C60_rows`, `C60_fresh` -/
example : ∃ df', get_VINDTA_filenames plainLib defaultFormat surveyTable = (.ok (), df') ∧
    surveyTable.has "alkalinity_certified" = false ∧ df'.has "alkalinity_certified" = true ∧
    df'.rows.map (fun r => r "file_good") = [.bool true, .bool true, .bool false, .bool false] ∧
    df'.rows.map (fun r => r "alkalinity_certified") =
      [.num nan, .num (fin 2212), .num nan, .num nan] := by
  refine ⟨(get_VINDTA_filenames plainLib defaultFormat surveyTable).2, ?_, ?_, ?_, ?_, ?_⟩ <;>
    with_unfolding_all rfl

/-- a CRM run -/
def crmRow (batch bottle : String) : Row := fun c =>
  if c = "run_type" then .str "CRM" else if c = "batch" then .str batch
  else if c = "bottle" then .str bottle else if c = "cert. CRM AT" then .num (fin 2212) else .num nan

def crmTable : DF where
  cols := ["run_type", "batch", "bottle", "cert. CRM AT"]
  rows := [crmRow "18" "90123", crmRow "189" "0123"]

/-- **C59**: two CRMs of different batch and bottle that end up with the same file name. -/
theorem C59_collision : ∃ df' r1 r2, get_VINDTA_filenames plainLib defaultFormat crmTable = (.ok (), df') ∧
    df'.rows = [r1, r2] ∧ r1 "batch" ≠ r2 "batch" ∧ r1 "bottle" ≠ r2 "bottle" ∧
    r1 "file_name" = r2 "file_name" ∧ r1 "file_name" = .str "CRM1890123.dat" := by
  let df' := (get_VINDTA_filenames plainLib defaultFormat crmTable).2
  refine ⟨df', df'.rows.getD 0 (crmRow "" ""), df'.rows.getD 1 (crmRow "" ""),
    by with_unfolding_all rfl, by with_unfolding_all rfl, ?_, ?_, ?_, ?_⟩
  · intro h
    have h : (Val.str "18") = .str "189" := by with_unfolding_all exact h
    exact absurd (Val.str.inj h) (by decide)
  · intro h
    have h : (Val.str "90123") = .str "0123" := by with_unfolding_all exact h
    exact absurd (Val.str.inj h) (by decide)
  · with_unfolding_all rfl
  · with_unfolding_all rfl

/-! ## C79 -/

/-- **C79**: a date that is not text (for example a gap) gives the null time, whatever the time. -/
theorem C79_null {lib : DbsLib} {cols : List String} {r : Row} (hc : "date" ∈ cols)
    (h : ∀ s, r "date" ≠ .str s) : dbs_datetime lib cols r = .ok nan := by
  unfold dbs_datetime rowItem
  rw [if_pos (by simpa using hc), bind_ok]
  cases hd : r "date" with
  | str s => exact absurd hd (h s)
  | _ => rfl

/-- **C79**: month, day and year separated by slashes: the time is that of
`20<year>-<month>-<day>T<time>`. -/
theorem C79_date {lib : DbsLib} {cols : List String} {r : Row} {m d y : List Char} {time : String}
    (hc : "date" ∈ cols) (ht : "time" ∈ cols)
    (hm : '/' ∉ m) (hd : '/' ∉ d) (hy : '/' ∉ y)
    (h : r "date" = .str (String.ofList (m ++ '/' :: d ++ '/' :: y))) (htime : r "time" = .str time) :
    dbs_datetime lib cols r =
      match lib.datetime64 ("20".toList ++ y ++ ['-'] ++ m ++ ['-'] ++ d ++ ['T'] ++ time.toList) with
      | some t => .ok t
      | none => .error .ValueError := by
  unfold dbs_datetime rowItem
  rw [if_pos (by simpa using hc), bind_ok, h, if_pos (by simpa using ht)]
  have hs : splitC '/' (m ++ '/' :: d ++ '/' :: y) = [m, d, y] := by
    rw [List.append_assoc, List.cons_append, splitC_append hm, splitC_append hd, splitC_none hy]
  simp only [String.toList_ofList, dbsDay, hs, bind_ok, htime, Val.addStr, DbsLib.toDatetime]
  simp only [List.append_assoc, List.cons_append, List.nil_append]
  cases lib.datetime64 _ <;> rfl

theorem splitC_length (c : Char) (s : List Char) : (splitC c s).length = s.count c + 1 := by
  induction s with
  | nil => simp [splitC]
  | cons a s ih =>
    unfold splitC
    by_cases h : a = c
    · rw [if_pos h]; simp [ih, h]
    · rw [if_neg h]
      cases hs : splitC c s with
      | nil => exact absurd hs (splitC_ne_nil c s)
      | cons p ps =>
        rw [hs] at ih
        simp only [List.length_cons] at ih ⊢
        rw [ih, List.count_cons_of_ne h]

/-- **C79**: a text with fewer than two slashes is not skipped: it raises IndexError. -/
theorem C79_malformed {lib : DbsLib} {cols : List String} {r : Row} {s : String} (hc : "date" ∈ cols)
    (h : r "date" = .str s) (hs : s.toList.count '/' < 2) :
    dbs_datetime lib cols r = .error .IndexError := by
  unfold dbs_datetime rowItem
  rw [if_pos (by simpa using hc), bind_ok, h]
  have hl := splitC_length '/' s.toList
  have : dbsDay s.toList = .error .IndexError := by
    unfold dbsDay
    match hsp : splitC '/' s.toList with
    | [] => rfl
    | [_] => rfl
    | [_, _] => rfl
    | _ :: _ :: _ :: _ => rw [hsp] at hl; simp at hl; omega
  simp only [this, bind_error]

/-- the hypotheses of `C79_date` -/
example : dbs_datetime plainLib ["date", "time"]
    (fun c => if c = "date" then .str "03/21/18" else .str "16:11") = .ok (fin 738000) := by
  rw [C79_date (m := ['0', '3']) (d := ['2', '1']) (y := ['1', '8']) (time := "16:11") (by simp)
    (by simp) (by decide) (by decide) (by decide) rfl rfl]
  rfl

/-- the hypotheses of `C79_malformed`: ISO dates -/
example : dbs_datetime plainLib ["date", "time"]
    (fun c => if c = "date" then .str "2018-03-21" else .str "16:11") = .error .IndexError :=
  C79_malformed (s := "2018-03-21") (by simp) rfl (by decide)

end Calk
