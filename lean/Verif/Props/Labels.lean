import Verif.Model.Labels
import Verif.Props.Metadata
import Verif.Props.ReadDbs

/-! # Property C143: the labels of the rows -/

namespace Calk
open Flt

variable {L : Type} [DecidableEq L]

/-! ## One turn of the loop -/

theorem setLoc_absent {l : L} {c : String} {v : Val} {rows : List (L × Row)}
    (h : ∀ p ∈ rows, p.1 ≠ l) : setLoc l c v rows = rows := by
  unfold setLoc
  conv_rhs => rw [← List.map_id rows]
  exact List.map_congr_left fun p hp => if_neg (h p hp)

theorem setLoc_one {l : L} {c : String} {v : Val} {r : Row} {pre post : List (L × Row)}
    (h1 : ∀ p ∈ pre, p.1 ≠ l) (h2 : ∀ p ∈ post, p.1 ≠ l) :
    setLoc l c v (pre ++ (l, r) :: post) = pre ++ (l, r.put c v) :: post := by
  have h1 := setLoc_absent (c := c) (v := v) h1
  have h2 := setLoc_absent (c := c) (v := v) h2
  unfold setLoc at h1 h2 ⊢
  rw [List.map_append, List.map_cons, h1, h2, if_pos rfl]

/-- with one row of that label the loop works on that row -/
theorem vindtaRowAt_one {lib : DbsLib} {fmt : List Piece} {cols : List String} {l : L} {r r0 : Row}
    {pre post : List (L × Row)} (h1 : ∀ p ∈ pre, p.1 ≠ l) (h2 : ∀ p ∈ post, p.1 ≠ l)
    (hr : ∀ c, c ≠ "alkalinity_certified" → r c = r0 c) :
    vindtaRowAt lib fmt cols l r (pre ++ (l, r0) :: post) =
      ((vindtaRow lib fmt cols r0).1, pre ++ (l, (vindtaRow lib fmt cols r0).2) :: post) := by
  have ha : ∀ c, c ≠ "alkalinity_certified" → rowAttr cols r c = rowAttr cols r0 c := by
    intro c hc; unfold rowAttr; rw [hr c hc]
  have hid : bottleId lib cols r = bottleId lib cols r0 := by
    unfold bottleId
    rw [ha _ (by decide), ha _ (by decide), ha _ (by decide), ha _ (by decide), ha _ (by decide)]
  have hcrm : crmName lib cols r = crmName lib cols r0 := by
    unfold crmName; rw [ha _ (by decide), ha _ (by decide)]
  have hcert : rowItem cols r "cert. CRM AT" = rowItem cols r0 "cert. CRM AT" := by
    unfold rowItem; rw [hr _ (by decide)]
  unfold vindtaRowAt vindtaRow
  rw [ha _ (by decide), hid, hcrm, hcert]
  rw [PyS.bind_apply, PyS.bind_apply, PyS.lift_apply, PyS.get_apply]
  dsimp only
  rw [PyS.bind_apply, PyS.lift_apply]
  cases rowAttr cols r0 "run_type" with
  | error e => rfl
  | ok v =>
    dsimp only
    by_cases hb : v.isStr "bottle" = true
    · rw [if_pos hb, if_pos hb, PyS.bind_apply, PyS.bind_apply, PyS.lift_apply, PyS.lift_apply]
      cases bottleId lib cols r0 with
      | error e => rfl
      | ok id =>
        dsimp only
        rw [PyS.modify_apply, PyS.modify_apply, setLoc_one h1 h2]
    · rw [if_neg hb, if_neg hb]
      by_cases hc : v.isStr "CRM" = true
      · rw [if_pos hc, if_pos hc, PyS.bind_apply, PyS.bind_apply, PyS.lift_apply, PyS.lift_apply]
        cases crmName lib cols r0 with
        | error e => rfl
        | ok name =>
          dsimp only
          rw [PyS.bind_apply, PyS.bind_apply, PyS.modify_apply, PyS.modify_apply, setLoc_one h1 h2]
          dsimp only
          rw [PyS.bind_apply, PyS.bind_apply, PyS.lift_apply, PyS.lift_apply]
          cases rowItem cols r0 "cert. CRM AT" with
          | error e => rfl
          | ok cert =>
            dsimp only
            rw [PyS.modify_apply, PyS.modify_apply, setLoc_one h1 h2]
      · rw [if_neg hc, if_neg hc, PyS.modify_apply, PyS.modify_apply, setLoc_one h1 h2]

theorem vindtaLoopAt_distinct {lib : DbsLib} {fmt : List Piece} {cols : List String} :
    ∀ (S C : List (L × Row)) (pre : List (L × Row)),
      List.Forall₂ (fun s c => s.1 = c.1 ∧ ∀ k, k ≠ "alkalinity_certified" → s.2 k = c.2 k) S C →
      (pre ++ C).Pairwise (fun a b => a.1 ≠ b.1) →
      vindtaLoopAt lib fmt cols S (pre ++ C) = ((vindtaLoop lib fmt cols (C.map Prod.snd)).1,
        pre ++ (C.map Prod.fst).zip (vindtaLoop lib fmt cols (C.map Prod.snd)).2) := by
  intro S
  induction S with
  | nil =>
    intro C pre hSC _
    cases hSC
    rfl
  | cons s S ih =>
    intro C pre hSC hnd
    cases hSC with
    | @cons _ c _ C hsc hSC =>
      obtain ⟨l, r⟩ := s
      obtain ⟨l', r0⟩ := c
      obtain ⟨rfl, hr⟩ := hsc
      have hnd' := List.pairwise_append.mp hnd
      have h1 : ∀ p ∈ pre, p.1 ≠ l := fun p hp => hnd'.2.2 p hp _ List.mem_cons_self
      have h2 : ∀ p ∈ C, p.1 ≠ l := fun p hp => ((List.pairwise_cons.mp hnd'.2.1).1 p hp).symm
      show (vindtaRowAt lib fmt cols l r >>= fun _ => vindtaLoopAt lib fmt cols S) (pre ++ (l, r0) :: C) = _
      rw [PyS.bind_apply, vindtaRowAt_one h1 h2 hr]
      simp only [List.map_cons, vindtaLoop]
      rcases hv : vindtaRow lib fmt cols r0 with ⟨x, r'⟩
      cases x with
      | error e =>
        dsimp only
        refine congrArg _ (congrArg _ ?_)
        rw [List.zip_cons_cons]
        refine congrArg _ ?_
        exact (List.zip_of_prod rfl rfl)
      | ok u =>
        dsimp only
        have := ih C (pre ++ [(l, r')]) hSC (by
          rw [List.append_assoc]
          refine List.pairwise_append.mpr ⟨hnd'.1, ?_, ?_⟩
          · exact List.pairwise_cons.mpr ⟨fun p hp => (h2 p hp).symm, (List.pairwise_cons.mp hnd'.2.1).2⟩
          · intro a ha b hb
            rcases List.mem_cons.mp hb with rfl | hb
            · exact h1 a ha
            · exact hnd'.2.2 a ha b (List.mem_cons_of_mem _ hb))
        rw [List.append_assoc] at this
        rw [List.singleton_append] at this
        rw [this, List.append_assoc]
        rfl

/-! ## Before the loop -/

/-- a row before the loop; `had c` says whether the table has a column `c` -/
def initRow (had : String → Bool) (r : Row) : Row :=
  if had "file_good" then r.put "file_name" (.str "")
  else (r.put "file_name" (.str "")).put "file_good" (.bool true)

theorem initRow_name (had : String → Bool) (r : Row) : initRow had r "file_name" = .str "" := by
  unfold initRow
  split
  · exact if_pos rfl
  · exact (if_neg (by decide)).trans (if_pos rfl)

theorem initRow_good (had : String → Bool) (r : Row) :
    initRow had r "file_good" = if had "file_good" then r "file_good" else .bool true := by
  unfold initRow
  split
  · exact if_neg (by decide)
  · exact if_pos rfl

theorem initRow_rest (had : String → Bool) (r : Row) {c : String} (h1 : c ≠ "file_name")
    (h2 : c ≠ "file_good") : initRow had r c = r c := by
  unfold initRow
  split
  · exact if_neg h1
  · exact (if_neg h2).trans (if_neg h1)

theorem vindtaInit_rows (df : DF) : (vindtaInit df).rows = df.rows.map (initRow df.has) := by
  have hgood : (df.setCol "file_name" fun _ => .str "").has "file_good" = df.has "file_good" := by
    show (addCol df.cols "file_name").contains "file_good" = df.cols.contains "file_good"
    rw [contains_addCol]; simp
  unfold vindtaInit defaultFileGood
  rw [hgood]
  cases hh : df.has "file_good" with
  | true => simp only [if_true]; exact List.map_congr_left fun r _ => by simp [initRow, hh]
  | false =>
    simp only [Bool.false_eq_true, if_false]
    show (df.rows.map _).map _ = _
    rw [List.map_map]
    exact List.map_congr_left fun r _ => by simp [initRow, hh]

theorem vindtaInit_certified (df : DF) :
    (vindtaInit df).has "alkalinity_certified" = df.has "alkalinity_certified" := by
  unfold vindtaInit defaultFileGood
  split
  · show (addCol df.cols "file_name").contains _ = df.cols.contains _
    rw [contains_addCol]; simp
  · show (addCol (addCol df.cols "file_name") "file_good").contains _ = df.cols.contains _
    rw [contains_addCol, contains_addCol]; simp

/-- a row when the loop begins, with a cell for the certified value -/
theorem certifiedCol_rows (df : DF) : ∃ g : Row → Row, (certifiedCol (vindtaInit df)).rows = df.rows.map g ∧
    (∀ r c, c ≠ "alkalinity_certified" → g r c = initRow df.has r c) ∧
    (df.has "alkalinity_certified" = true → ∀ r, g r "alkalinity_certified" = r "alkalinity_certified") := by
  unfold certifiedCol
  rw [vindtaInit_certified]
  split
  · rename_i h
    refine ⟨fun r => (initRow df.has r).put "alkalinity_certified" (.num nan), ?_, fun r c hc => if_neg hc, ?_⟩
    · show (vindtaInit df).rows.map _ = _
      rw [vindtaInit_rows, List.map_map]; rfl
    · intro hh
      rw [hh] at h; simp at h
  · exact ⟨initRow df.has, vindtaInit_rows df, fun _ _ _ => rfl,
      fun _ r => initRow_rest _ _ (by decide) (by decide)⟩

theorem zip_labels (rows : List (L × Row)) (f : Row → Row) :
    (rows.map Prod.fst).zip ((rows.map Prod.snd).map f) = rows.map fun p => (p.1, f p.2) := by
  induction rows with
  | nil => rfl
  | cons p rows ih => simp only [List.map_cons, List.zip_cons_cons, ih]

theorem withRows_map {df : LDF L} {d : DF} {f : Row → Row} (h : d.rows = df.plain.rows.map f) :
    (df.withRows d).rows = df.rows.map fun p => (p.1, f p.2) := by
  show (df.rows.map Prod.fst).zip d.rows = _
  rw [h]
  exact zip_labels _ _

/-! ## Distinct labels -/

/-- **C143**: if no two rows have the same label, names are assigned row by row (C59, C60), whatever the
labels are and in whatever order. -/
theorem C143_distinct (lib : DbsLib) (fmt : List Piece) (df : LDF L)
    (h : (df.rows.map Prod.fst).Nodup) :
    (get_VINDTA_filenames_at lib fmt df).1 = (get_VINDTA_filenames lib fmt df.plain).1 ∧
    (get_VINDTA_filenames_at lib fmt df).2.cols = (get_VINDTA_filenames lib fmt df.plain).2.cols ∧
    (get_VINDTA_filenames_at lib fmt df).2.rows =
      (df.rows.map Prod.fst).zip (get_VINDTA_filenames lib fmt df.plain).2.rows := by
  obtain ⟨g, hg, hgr, -⟩ := certifiedCol_rows df.plain
  have hS := withRows_map (df := df) (vindtaInit_rows df.plain)
  have hC := withRows_map (df := df) hg
  have key := vindtaLoopAt_distinct (lib := lib) (fmt := fmt) (cols := (vindtaInit df.plain).cols)
    (df.withRows (vindtaInit df.plain)).rows (df.withRows (certifiedCol (vindtaInit df.plain))).rows []
    (by
      rw [hS, hC, List.forall₂_map_left_iff, List.forall₂_map_right_iff, List.forall₂_same]
      exact fun p _ => ⟨rfl, fun k hk => (hgr _ _ hk).symm⟩)
    (by
      rw [List.nil_append, hC, List.pairwise_map]
      exact List.pairwise_map.mp h)
  have e1 : (df.withRows (certifiedCol (vindtaInit df.plain))).rows.map Prod.snd =
      (certifiedCol (vindtaInit df.plain)).rows := by
    rw [hC, hg, List.map_map]
    show _ = (df.rows.map _).map _
    rw [List.map_map]; rfl
  have e2 : (df.withRows (certifiedCol (vindtaInit df.plain))).rows.map Prod.fst = df.rows.map Prod.fst := by
    rw [hC, List.map_map]; rfl
  rw [e1, e2, List.nil_append, List.nil_append] at key
  have hc : (df.withRows (vindtaInit df.plain)).cols = (vindtaInit df.plain).cols := rfl
  unfold get_VINDTA_filenames_at get_VINDTA_filenames
  simp only [hc, key]
  exact ⟨trivial, rfl, trivial⟩

/-! ## Repeated labels -/

/-- whether a turn succeeds does not depend on the labels -/
theorem vindtaRowAt_result {lib : DbsLib} {fmt : List Piece} {cols : List String} {l : L} {r r0 : Row}
    {rows : List (L × Row)} (hr : ∀ c, c ≠ "alkalinity_certified" → r c = r0 c) :
    (vindtaRowAt lib fmt cols l r rows).1 = (vindtaRow lib fmt cols r0).1 := by
  have ha : ∀ c, c ≠ "alkalinity_certified" → rowAttr cols r c = rowAttr cols r0 c := by
    intro c hc; unfold rowAttr; rw [hr c hc]
  have hid : bottleId lib cols r = bottleId lib cols r0 := by
    unfold bottleId
    rw [ha _ (by decide), ha _ (by decide), ha _ (by decide), ha _ (by decide), ha _ (by decide)]
  have hcrm : crmName lib cols r = crmName lib cols r0 := by
    unfold crmName; rw [ha _ (by decide), ha _ (by decide)]
  have hcert : rowItem cols r "cert. CRM AT" = rowItem cols r0 "cert. CRM AT" := by
    unfold rowItem; rw [hr _ (by decide)]
  unfold vindtaRowAt vindtaRow
  rw [ha _ (by decide), hid, hcrm, hcert]
  rw [PyS.bind_apply, PyS.bind_apply, PyS.lift_apply, PyS.get_apply]
  dsimp only
  rw [PyS.bind_apply, PyS.lift_apply]
  cases rowAttr cols r0 "run_type" with
  | error e => rfl
  | ok v =>
    dsimp only
    by_cases hb : v.isStr "bottle" = true
    · rw [if_pos hb, if_pos hb, PyS.bind_apply, PyS.bind_apply, PyS.lift_apply, PyS.lift_apply]
      cases bottleId lib cols r0 with
      | error e => rfl
      | ok id =>
        dsimp only
        rw [PyS.modify_apply, PyS.modify_apply]
    · rw [if_neg hb, if_neg hb]
      by_cases hc : v.isStr "CRM" = true
      · rw [if_pos hc, if_pos hc, PyS.bind_apply, PyS.bind_apply, PyS.lift_apply, PyS.lift_apply]
        cases crmName lib cols r0 with
        | error e => rfl
        | ok name =>
          dsimp only
          rw [PyS.bind_apply, PyS.bind_apply, PyS.modify_apply, PyS.modify_apply]
          dsimp only
          rw [PyS.bind_apply, PyS.bind_apply, PyS.lift_apply, PyS.lift_apply]
          cases rowItem cols r0 "cert. CRM AT" with
          | error e => rfl
          | ok cert =>
            dsimp only
            rw [PyS.modify_apply, PyS.modify_apply]
      · rw [if_neg hc, if_neg hc, PyS.modify_apply, PyS.modify_apply]

theorem vindtaLoopAt_result {lib : DbsLib} {fmt : List Piece} {cols : List String} :
    ∀ (S : List (L × Row)) (C : List Row) (rows : List (L × Row)),
      List.Forall₂ (fun s c => ∀ k, k ≠ "alkalinity_certified" → s.2 k = c k) S C →
      (vindtaLoopAt lib fmt cols S rows).1 = (vindtaLoop lib fmt cols C).1 := by
  intro S
  induction S with
  | nil => intro C rows h; cases h; rfl
  | cons s S ih =>
    intro C rows h
    cases h with
    | @cons _ c _ C hsc hSC =>
      obtain ⟨l, r⟩ := s
      have hr := vindtaRowAt_result (lib := lib) (fmt := fmt) (cols := cols) (l := l) (rows := rows) hsc
      show ((vindtaRowAt lib fmt cols l r >>= fun _ => vindtaLoopAt lib fmt cols S) rows).1 = _
      rw [PyS.bind_apply, vindtaLoop]
      rcases h1 : vindtaRowAt lib fmt cols l r rows with ⟨x, rows'⟩
      rcases h2 : vindtaRow lib fmt cols c with ⟨y, c'⟩
      rw [h1, h2] at hr
      dsimp only at hr
      subst hr
      cases x with
      | error e => rfl
      | ok u => exact ih C rows' hSC

/-- **C143**: whether an import succeeds, and with what exception it fails, does not depend on the labels. -/
theorem C143_result (lib : DbsLib) (fmt : List Piece) (df : LDF L) :
    (get_VINDTA_filenames_at lib fmt df).1 = (get_VINDTA_filenames lib fmt df.plain).1 := by
  obtain ⟨g, hg, hgr, -⟩ := certifiedCol_rows df.plain
  have hS := withRows_map (df := df) (vindtaInit_rows df.plain)
  show (vindtaLoopAt lib fmt (vindtaInit df.plain).cols _ _).1 = (vindtaLoop lib fmt (vindtaInit df.plain).cols _).1
  refine vindtaLoopAt_result _ _ _ ?_
  rw [hS, hg]
  show List.Forall₂ _ _ ((df.rows.map Prod.snd).map g)
  rw [List.map_map, List.forall₂_map_left_iff, List.forall₂_map_right_iff, List.forall₂_same]
  exact fun p _ k hk => (hgr _ _ hk).symm

/-- What one turn with the row `s` does to a row `r` of its label: afterwards it is `r'`. -/
structure Spec.Stored (lib : DbsLib) (fmt : List Piece) (s r r' : Row) : Prop where
  bottle : runOf (s "run_type") = .bottle → ∃ id, RowIs lib s id ∧ Named r' (formatName fmt id)
  crm : runOf (s "run_type") = .crm → Named r'
    ("CRM".toList ++ lib.str (s "batch") ++ lib.str (s "bottle") ++ ".dat".toList)
  other : runOf (s "run_type") = .other → r' "file_name" = r "file_name"
  good : r' "file_good" = if runOf (s "run_type") = .other then .bool false else r "file_good"
  certified : r' "alkalinity_certified" =
    if runOf (s "run_type") = .crm then s "cert. CRM AT" else r "alkalinity_certified"
  rest : ∀ c, c ∉ ["file_name", "file_good", "alkalinity_certified"] → r' c = r c

theorem forall₂_setLoc {l : L} {c : String} {v : Val} (rows : List (L × Row)) :
    List.Forall₂ (fun p p' => p'.1 = p.1 ∧ p'.2 = if p.1 = l then p.2.put c v else p.2) rows
      (setLoc l c v rows) := by
  unfold setLoc
  rw [List.forall₂_map_right_iff, List.forall₂_same]
  intro p _
  by_cases h : p.1 = l <;> simp [h]

theorem vindtaRowAt_ok {lib : DbsLib} {fmt : List Piece} {cols : List String} {l : L} {s : Row}
    {rows rows' : List (L × Row)} {u : Unit} (h : vindtaRowAt lib fmt cols l s rows = (.ok u, rows')) :
    List.Forall₂ (fun p p' => p'.1 = p.1 ∧ (p.1 = l → Spec.Stored lib fmt s p.2 p'.2) ∧
      (p.1 ≠ l → p'.2 = p.2)) rows rows' := by
  unfold vindtaRowAt at h
  obtain ⟨rt, t1, h1, h⟩ := PyS.bind_ok_inv h
  rw [PyS.lift_apply] at h1
  obtain ⟨e1, e2⟩ := Prod.mk.inj h1
  subst e2
  obtain ⟨_, rfl⟩ := rowAttr_ok e1
  by_cases hb : (s "run_type").isStr "bottle" = true
  · rw [if_pos hb] at h
    have hk := (isStr_bottle _).mp hb
    obtain ⟨id, t, h2, h⟩ := PyS.bind_ok_inv h
    rw [PyS.lift_apply] at h2
    obtain ⟨e1, e2⟩ := Prod.mk.inj h2
    subst e2
    rw [PyS.modify_apply] at h
    obtain ⟨_, rfl⟩ := Prod.mk.inj h
    refine (forall₂_setLoc rows).imp ?_
    rintro ⟨lp, p⟩ ⟨lp', p'⟩ ⟨h1, h2⟩
    refine ⟨h1, fun hl => ?_, fun hl => by rw [h2, if_neg hl]⟩
    dsimp only at hl h2 ⊢
    rw [if_pos hl] at h2
    subst h2
    refine ⟨fun _ => ⟨id, bottleId_ok e1, if_pos rfl⟩, fun h => ?_, fun h => ?_, ?_, ?_, ?_⟩
    · rw [hk] at h; cases h
    · rw [hk] at h; cases h
    · rw [hk]; rfl
    · rw [hk]; rfl
    · intro c hc
      simp only [List.mem_cons, not_or] at hc
      exact if_neg hc.1
  · rw [if_neg hb] at h
    by_cases hc : (s "run_type").isStr "CRM" = true
    · rw [if_pos hc] at h
      have hk := (isStr_crm _).mp hc
      obtain ⟨name, t, h2, h⟩ := PyS.bind_ok_inv h
      rw [PyS.lift_apply] at h2
      obtain ⟨e1, e2⟩ := Prod.mk.inj h2
      subst e2
      obtain ⟨u1, t1, h3, h⟩ := PyS.bind_ok_inv h
      rw [PyS.modify_apply] at h3
      obtain ⟨_, rfl⟩ := Prod.mk.inj h3
      obtain ⟨cert, t2, h4, h⟩ := PyS.bind_ok_inv h
      rw [PyS.lift_apply] at h4
      obtain ⟨e4, e5⟩ := Prod.mk.inj h4
      subst e5
      rw [PyS.modify_apply] at h
      obtain ⟨_, rfl⟩ := Prod.mk.inj h
      have hcert : cert = s "cert. CRM AT" := by
        unfold rowItem at e4
        split at e4
        · exact (Except.ok.inj e4).symm
        · cases e4
      unfold crmName at e1
      simp only [bind_ok_iff] at e1
      obtain ⟨a, ha, b, hb', e1⟩ := e1
      obtain rfl := Except.ok.inj e1
      obtain ⟨_, rfl⟩ := rowAttr_ok ha
      obtain ⟨_, rfl⟩ := rowAttr_ok hb'
      unfold setLoc
      rw [List.map_map, List.forall₂_map_right_iff, List.forall₂_same]
      rintro ⟨lp, p⟩ -
      by_cases hl : lp = l
      · simp only [Function.comp, hl, if_true, true_and, ne_eq, not_true, IsEmpty.forall_iff, and_true,
          forall_const]
        refine ⟨fun h => ?_, fun _ => ?_, fun h => ?_, ?_, ?_, ?_⟩
        · rw [hk] at h; cases h
        · exact (if_neg (by decide)).trans (if_pos rfl)
        · rw [hk] at h; cases h
        · rw [hk]; rfl
        · rw [hk, if_pos rfl, ← hcert]; exact if_pos rfl
        · intro c hc
          simp only [List.mem_cons, not_or] at hc
          exact (if_neg hc.2.2.1).trans (if_neg hc.1)
      · simp [Function.comp, hl]
    · rw [if_neg hc] at h
      rw [PyS.modify_apply] at h
      obtain ⟨_, rfl⟩ := Prod.mk.inj h
      have hk : runOf (s "run_type") = .other := by
        cases hr : runOf (s "run_type") with
        | bottle => exact absurd ((isStr_bottle _).mpr hr) hb
        | crm => exact absurd ((isStr_crm _).mpr hr) hc
        | other => rfl
      refine (forall₂_setLoc rows).imp ?_
      rintro ⟨lp, p⟩ ⟨lp', p'⟩ ⟨h1, h2⟩
      refine ⟨h1, fun hl => ?_, fun hl => by rw [h2, if_neg hl]⟩
      dsimp only at hl h2 ⊢
      rw [if_pos hl] at h2
      subst h2
      refine ⟨fun h => ?_, fun h => ?_, fun h => ?_, ?_, ?_, ?_⟩
      · rw [hk] at h; cases h
      · rw [hk] at h; cases h
      · rfl
      · rw [hk, if_pos rfl]; exact if_pos rfl
      · rw [hk]; rfl
      · intro c hc
        simp only [List.mem_cons, not_or] at hc
        exact if_neg hc.2.1

/-- What the rows `S` do, one after the other, to a row `r` with the label `l`: afterwards it is `r'`. -/
structure Spec.StoredAll (lib : DbsLib) (fmt : List Piece) (S : List (L × Row)) (l : L) (r r' : Row) :
    Prop where
  /-- the name is that of the last bottle or CRM under the label -/
  bottle : ∀ (A : List (L × Row)) (s : Row) (B : List (L × Row)), S = A ++ (l, s) :: B → runOf (s "run_type") = .bottle →
    (∀ q ∈ B, q.1 = l → runOf (q.2 "run_type") = .other) →
    ∃ id, RowIs lib s id ∧ Named r' (formatName fmt id)
  crm : ∀ (A : List (L × Row)) (s : Row) (B : List (L × Row)), S = A ++ (l, s) :: B → runOf (s "run_type") = .crm →
    (∀ q ∈ B, q.1 = l → runOf (q.2 "run_type") = .other) →
    Named r' ("CRM".toList ++ lib.str (s "batch") ++ lib.str (s "bottle") ++ ".dat".toList)
  unnamed : (∀ q ∈ S, q.1 = l → runOf (q.2 "run_type") = .other) → r' "file_name" = r "file_name"
  /-- one other run under the label is enough to mark the row as bad -/
  bad : (∃ q ∈ S, q.1 = l ∧ runOf (q.2 "run_type") = .other) → r' "file_good" = .bool false
  good : (∀ q ∈ S, q.1 = l → runOf (q.2 "run_type") ≠ .other) → r' "file_good" = r "file_good"
  /-- the certified value is that of the last CRM under the label -/
  certified : ∀ (A : List (L × Row)) (s : Row) (B : List (L × Row)), S = A ++ (l, s) :: B → runOf (s "run_type") = .crm →
    (∀ q ∈ B, q.1 = l → runOf (q.2 "run_type") ≠ .crm) →
    r' "alkalinity_certified" = s "cert. CRM AT"
  uncertified : (∀ q ∈ S, q.1 = l → runOf (q.2 "run_type") ≠ .crm) →
    r' "alkalinity_certified" = r "alkalinity_certified"
  rest : ∀ c, c ∉ ["file_name", "file_good", "alkalinity_certified"] → r' c = r c

theorem Spec.StoredAll.skip {lib : DbsLib} {fmt : List Piece} {S : List (L × Row)} {l l1 : L} {s r r' : Row}
    (h : Spec.StoredAll lib fmt S l r r') (hl : l1 ≠ l) : Spec.StoredAll lib fmt ((l1, s) :: S) l r r' := by
  have hall : ∀ {P : L × Row → Prop}, (∀ q ∈ (l1, s) :: S, q.1 = l → P q) ↔ ∀ q ∈ S, q.1 = l → P q := by
    intro P
    constructor
    · exact fun h q hq => h q (List.mem_cons_of_mem _ hq)
    · intro h q hq hq'
      rcases List.mem_cons.mp hq with rfl | hq
      · exact absurd hq' hl
      · exact h q hq hq'
  have hsplit : ∀ {A : List (L × Row)} {t : Row} {B : List (L × Row)},
      (l1, s) :: S = A ++ (l, t) :: B → ∃ A', S = A' ++ (l, t) :: B := by
    intro A t B h
    cases A with
    | nil => exact absurd (Prod.mk.inj (List.cons.inj h).1).1 hl
    | cons a A => exact ⟨A, (List.cons.inj h).2⟩
  refine ⟨fun A t B e => ?_, fun A t B e => ?_, fun h' => h.unnamed (hall.mp h'), ?_,
    fun h' => h.good (hall.mp h'), fun A t B e => ?_, fun h' => h.uncertified (hall.mp h'), h.rest⟩
  · obtain ⟨A', e⟩ := hsplit e; exact h.bottle A' t B e
  · obtain ⟨A', e⟩ := hsplit e; exact h.crm A' t B e
  · rintro ⟨q, hq, hql, hqo⟩
    rcases List.mem_cons.mp hq with rfl | hq
    · exact absurd hql hl
    · exact h.bad ⟨q, hq, hql, hqo⟩
  · obtain ⟨A', e⟩ := hsplit e; exact h.certified A' t B e

theorem Spec.StoredAll.cons {lib : DbsLib} {fmt : List Piece} {S : List (L × Row)} {l : L} {s r r1 r' : Row}
    (h1 : Spec.Stored lib fmt s r r1) (h : Spec.StoredAll lib fmt S l r1 r') :
    Spec.StoredAll lib fmt ((l, s) :: S) l r r' := by
  have hall : ∀ {P : L × Row → Prop}, (∀ q ∈ (l, s) :: S, q.1 = l → P q) →
      P (l, s) ∧ ∀ q ∈ S, q.1 = l → P q :=
    fun h => ⟨h _ List.mem_cons_self rfl, fun q hq => h q (List.mem_cons_of_mem _ hq)⟩
  refine ⟨fun A t B e hk hB => ?_, fun A t B e hk hB => ?_, fun h' => ?_, ?_, fun h' => ?_,
    fun A t B e hk hB => ?_, fun h' => ?_, fun c hc => (h.rest c hc).trans (h1.rest c hc)⟩
  · cases A with
    | nil =>
      obtain ⟨e1, rfl⟩ := List.cons.inj e
      obtain ⟨-, rfl⟩ := Prod.mk.inj e1
      obtain ⟨id, hid, hn⟩ := h1.bottle hk
      exact ⟨id, hid, (h.unnamed hB).trans hn⟩
    | cons a A => exact h.bottle A t B (List.cons.inj e).2 hk hB
  · cases A with
    | nil =>
      obtain ⟨e1, rfl⟩ := List.cons.inj e
      obtain ⟨-, rfl⟩ := Prod.mk.inj e1
      exact (h.unnamed hB).trans (h1.crm hk)
    | cons a A => exact h.crm A t B (List.cons.inj e).2 hk hB
  · obtain ⟨hs, hS⟩ := hall h'
    exact (h.unnamed hS).trans (h1.other hs)
  · rintro ⟨q, hq, hql, hqo⟩
    by_cases hS : ∃ q ∈ S, q.1 = l ∧ runOf (q.2 "run_type") = .other
    · exact h.bad hS
    · rcases List.mem_cons.mp hq with rfl | hq
      · rw [h.good fun q hq hql ho => hS ⟨q, hq, hql, ho⟩, h1.good, if_pos hqo]
      · exact absurd ⟨q, hq, hql, hqo⟩ hS
  · obtain ⟨hs, hS⟩ := hall h'
    rw [h.good hS, h1.good, if_neg hs]
  · cases A with
    | nil =>
      obtain ⟨e1, rfl⟩ := List.cons.inj e
      obtain ⟨-, rfl⟩ := Prod.mk.inj e1
      rw [h.uncertified hB, h1.certified, if_pos hk]
    | cons a A => exact h.certified A t B (List.cons.inj e).2 hk hB
  · obtain ⟨hs, hS⟩ := hall h'
    rw [h.uncertified hS, h1.certified, if_neg hs]

theorem vindtaLoopAt_ok {lib : DbsLib} {fmt : List Piece} {cols : List String} :
    ∀ {S rows rows' : List (L × Row)} {u : Unit}, vindtaLoopAt lib fmt cols S rows = (.ok u, rows') →
    List.Forall₂ (fun p p' => p'.1 = p.1 ∧ Spec.StoredAll lib fmt S p.1 p.2 p'.2) rows rows' := by
  intro S
  induction S with
  | nil =>
    intro rows rows' u h
    obtain ⟨_, rfl⟩ := Prod.mk.inj h
    rw [List.forall₂_same]
    refine fun p _ => ⟨rfl, ⟨?_, ?_, fun _ => rfl, ?_, fun _ => rfl, ?_, fun _ => rfl, fun _ _ => rfl⟩⟩
    · intro A s B h; simp at h
    · intro A s B h; simp at h
    · rintro ⟨q, hq, -⟩; simp at hq
    · intro A s B h; simp at h
  | cons x S ih =>
    intro rows rows' u h
    obtain ⟨l, s⟩ := x
    obtain ⟨v, rows1, h1, h⟩ := PyS.bind_ok_inv h
    have k1 := vindtaRowAt_ok h1
    have k2 := ih h
    refine (List.forall₂_iff_get.mpr ⟨k1.length_eq.trans k2.length_eq, ?_⟩)
    intro i hi hi'
    have hi1 : i < rows1.length := k1.length_eq ▸ hi
    obtain ⟨a1, a2, a3⟩ := k1.get hi hi1
    obtain ⟨b1, b2⟩ := k2.get hi1 hi'
    refine ⟨b1.trans a1, ?_⟩
    rw [a1] at b2
    by_cases hl : (rows.get ⟨i, hi⟩).1 = l
    · subst hl
      exact .cons (a2 rfl) b2
    · rw [a3 hl] at b2
      exact b2.skip (fun h => hl h.symm)

/-- What the import does to a row `r` with the label `l` of a table with the rows `rows`; `had c` says whether
the table has a column `c` already. -/
structure Spec.LabelledRow (lib : DbsLib) (fmt : List Piece) (had : String → Bool) (rows : List (L × Row))
    (l : L) (r r' : Row) : Prop where
  /-- the name is that of the last bottle or CRM under the label -/
  bottle : ∀ (A : List (L × Row)) (s : Row) (B : List (L × Row)), rows = A ++ (l, s) :: B →
    runOf (s "run_type") = .bottle → (∀ q ∈ B, q.1 = l → runOf (q.2 "run_type") = .other) →
    ∃ id, RowIs lib s id ∧ Named r' (formatName fmt id)
  crm : ∀ (A : List (L × Row)) (s : Row) (B : List (L × Row)), rows = A ++ (l, s) :: B →
    runOf (s "run_type") = .crm → (∀ q ∈ B, q.1 = l → runOf (q.2 "run_type") = .other) →
    Named r' ("CRM".toList ++ lib.str (s "batch") ++ lib.str (s "bottle") ++ ".dat".toList)
  /-- there is none if there are only other runs -/
  unnamed : (∀ q ∈ rows, q.1 = l → runOf (q.2 "run_type") = .other) → r' "file_name" = .str ""
  /-- one other run under the label is enough to mark the row as bad -/
  bad : (∃ q ∈ rows, q.1 = l ∧ runOf (q.2 "run_type") = .other) → r' "file_good" = .bool false
  good : (∀ q ∈ rows, q.1 = l → runOf (q.2 "run_type") ≠ .other) →
    r' "file_good" = if had "file_good" then r "file_good" else .bool true
  /-- the certified value is that of the last CRM under the label -/
  certified : ∀ (A : List (L × Row)) (s : Row) (B : List (L × Row)), rows = A ++ (l, s) :: B →
    runOf (s "run_type") = .crm → (∀ q ∈ B, q.1 = l → runOf (q.2 "run_type") ≠ .crm) →
    r' "alkalinity_certified" = s "cert. CRM AT"
  uncertified : (∀ q ∈ rows, q.1 = l → runOf (q.2 "run_type") ≠ .crm) → had "alkalinity_certified" = true →
    r' "alkalinity_certified" = r "alkalinity_certified"
  /-- nothing else changes -/
  rest : ∀ c, c ∉ ["file_name", "file_good", "alkalinity_certified"] → r' c = r c

theorem map_initRow_split {had : String → Bool} {rows A B : List (L × Row)} {l : L} {s : Row}
    (h : rows = A ++ (l, s) :: B) :
    rows.map (fun p => (p.1, initRow had p.2)) = A.map (fun p => (p.1, initRow had p.2)) ++
      (l, initRow had s) :: B.map (fun p => (p.1, initRow had p.2)) := by
  rw [h, List.map_append, List.map_cons]

/-- **C143**: in general, after a successful import the rows are there in order under their labels, and a
row holds what the rows under its label have left there. -/
theorem C143_rows {lib : DbsLib} {fmt : List Piece} {df df' : LDF L} {u : Unit}
    (h : get_VINDTA_filenames_at lib fmt df = (.ok u, df')) :
    List.Forall₂ (fun p p' => p'.1 = p.1 ∧
      Spec.LabelledRow lib fmt (fun c => decide (c ∈ df.cols)) df.rows p.1 p.2 p'.2) df.rows df'.rows := by
  obtain ⟨g, hg, hgr, hgc⟩ := certifiedCol_rows df.plain
  have hS := withRows_map (df := df) (vindtaInit_rows df.plain)
  have hC := withRows_map (df := df) hg
  have hhad : ∀ c, df.plain.has c = decide (c ∈ df.cols) := fun c => by
    show df.cols.contains c = _
    simp [List.contains_eq_mem]
  unfold get_VINDTA_filenames_at at h
  simp only [] at h
  rcases hl : vindtaLoopAt lib fmt (df.withRows (vindtaInit df.plain)).cols
    (df.withRows (vindtaInit df.plain)).rows (df.withRows (certifiedCol (vindtaInit df.plain))).rows with ⟨x, rows⟩
  rw [hl] at h
  obtain ⟨rfl, rfl⟩ := Prod.mk.inj h
  have key := vindtaLoopAt_ok hl
  rw [hS, hC, List.forall₂_map_left_iff] at key
  have hrun : ∀ r : Row, initRow df.plain.has r "run_type" = r "run_type" :=
    fun r => initRow_rest _ _ (by decide) (by decide)
  refine key.imp ?_
  rintro ⟨l, r⟩ ⟨l', r'⟩ ⟨h1, h2⟩
  refine ⟨h1, ?_⟩
  dsimp only at h2 ⊢
  have hq : ∀ {P : Run → Prop} {B : List (L × Row)}, (∀ q ∈ B, q.1 = l → P (runOf (q.2 "run_type"))) →
      ∀ q ∈ B.map (fun p => (p.1, initRow df.plain.has p.2)), q.1 = l → P (runOf (q.2 "run_type")) := by
    intro P B hB q hq hql
    obtain ⟨p, hp, rfl⟩ := List.mem_map.mp hq
    dsimp only
    rw [hrun]
    exact hB p hp hql
  have hi : ∀ (s : Row) {c : String}, c ≠ "file_name" → c ≠ "file_good" → initRow df.plain.has s c = s c :=
    fun s _ h1 h2 => initRow_rest _ _ h1 h2
  constructor
  · intro A s B e hk hB
    obtain ⟨id, hid, hn⟩ := h2.bottle _ _ _ (map_initRow_split e) (by rw [hrun]; exact hk)
      (hq (P := (· = .other)) hB)
    refine ⟨id, ⟨?_, ?_, ?_, ?_, ?_⟩, hn⟩
    · rw [← hi s (c := "station") (by decide) (by decide)]; exact hid.station
    · rw [← hi s (c := "cast") (by decide) (by decide)]; exact hid.cast
    · rw [← hi s (c := "niskin") (by decide) (by decide)]; exact hid.niskin
    · rw [← hi s (c := "depth") (by decide) (by decide)]; exact hid.depth
    · rw [← hi s (c := "bottle") (by decide) (by decide)]; exact hid.bottle
  · intro A s B e hk hB
    have := h2.crm _ _ _ (map_initRow_split e) (by rw [hrun]; exact hk) (hq (P := (· = .other)) hB)
    rw [hi s (by decide) (by decide), hi s (by decide) (by decide)] at this
    exact this
  · intro hB
    rw [h2.unnamed (hq (P := (· = .other)) hB), hgr _ _ (by decide), initRow_name]
  · rintro ⟨q, hm, hql, hqo⟩
    refine h2.bad ⟨_, List.mem_map_of_mem hm, hql, ?_⟩
    dsimp only
    rw [hrun]; exact hqo
  · intro hB
    rw [h2.good (hq (P := (· ≠ .other)) hB), hgr _ _ (by decide), initRow_good, hhad]
  · intro A s B e hk hB
    rw [h2.certified _ _ _ (map_initRow_split e) (by rw [hrun]; exact hk) (hq (P := (· ≠ .crm)) hB),
      hi s (by decide) (by decide)]
  · intro hB hc
    rw [h2.uncertified (hq (P := (· ≠ .crm)) hB), hgc (by rw [hhad]; exact hc)]
  · intro c hc
    rw [h2.rest c hc]
    simp only [List.mem_cons, List.not_mem_nil, or_false, not_or] at hc
    rw [hgr _ _ hc.2.2, hi _ hc.1 hc.2.1]

/-- the last element with some property -/
theorem exists_last {α : Type} {P : α → Prop} : ∀ {l : List α}, (∃ x ∈ l, P x) →
    ∃ A x B, l = A ++ x :: B ∧ P x ∧ ∀ y ∈ B, ¬ P y := by
  intro l
  induction l with
  | nil => rintro ⟨x, hx, -⟩; simp at hx
  | cons a l ih =>
    rintro ⟨x, hx, hP⟩
    by_cases h : ∃ y ∈ l, P y
    · obtain ⟨A, y, B, rfl, hy, hB⟩ := ih h
      exact ⟨a :: A, y, B, rfl, hy, hB⟩
    · rcases List.mem_cons.mp hx with rfl | hx
      · exact ⟨[], x, l, rfl, hP, fun y hy hPy => h ⟨y, hy, hPy⟩⟩
      · exact absurd ⟨x, hx, hP⟩ h

/-- **C143**: rows with the same label end up with the same file name, whatever they are: with repeated labels
(tables put together without new labels, say) all but one of the titrations under a label lose their file. -/
theorem C143_shared {lib : DbsLib} {fmt : List Piece} {df df' : LDF L} {u : Unit}
    (h : get_VINDTA_filenames_at lib fmt df = (.ok u, df')) {p q : L × Row} (hp : p ∈ df'.rows)
    (hq : q ∈ df'.rows) (hpq : p.1 = q.1) : p.2 "file_name" = q.2 "file_name" := by
  have key := C143_rows h
  have hmem : ∀ {p' : L × Row}, p' ∈ df'.rows → ∃ r, Spec.LabelledRow lib fmt
      (fun c => decide (c ∈ df.cols)) df.rows p'.1 r p'.2 := by
    intro p' hp'
    obtain ⟨i, hi, rfl⟩ := List.getElem_of_mem hp'
    have hi' : i < df.rows.length := key.length_eq ▸ hi
    obtain ⟨h1, h2⟩ := key.get hi' hi
    have h1 : df'.rows[i].1 = df.rows[i].1 := h1
    rw [h1]
    exact ⟨_, h2⟩
  obtain ⟨r1, h1⟩ := hmem hp
  obtain ⟨r2, h2⟩ := hmem hq
  rw [← hpq] at h2
  by_cases hex : ∃ s ∈ df.rows, s.1 = p.1 ∧ runOf (s.2 "run_type") ≠ .other
  · obtain ⟨A, ⟨l, s⟩, B, e, ⟨hl, hk⟩, hB⟩ := exists_last hex
    dsimp only at hl hk
    subst hl
    have hB' : ∀ q ∈ B, q.1 = p.1 → runOf (q.2 "run_type") = .other := by
      intro q hq hql
      by_contra ho
      exact hB q hq ⟨hql, ho⟩
    cases hs : runOf (s "run_type") with
    | other => exact absurd hs hk
    | bottle =>
      obtain ⟨id, hid, hn⟩ := h1.bottle A s B e hs hB'
      obtain ⟨id2, hid2, hn2⟩ := h2.bottle A s B e hs hB'
      have : id = id2 := by
        have e1 := Except.ok.inj (hid.station.symm.trans hid2.station)
        have e2 := Except.ok.inj (hid.cast.symm.trans hid2.cast)
        have e3 := Except.ok.inj (hid.niskin.symm.trans hid2.niskin)
        have e4 := Except.ok.inj (hid.depth.symm.trans hid2.depth)
        have e5 := hid.bottle.symm.trans hid2.bottle
        cases id; cases id2; simp_all
      subst this
      exact hn.trans hn2.symm
    | crm => exact (h1.crm A s B e hs hB').trans (h2.crm A s B e hs hB').symm
  · have hall : ∀ q ∈ df.rows, q.1 = p.1 → runOf (q.2 "run_type") = .other := by
      intro q hq hql
      by_contra ho
      exact hex ⟨q, hq, hql, ho⟩
    exact (h1.unnamed hall).trans (h2.unnamed hall).symm

/-! ## Columns that are joined -/

theorem filter_label {rows : List (L × Row)} {f : L × Row → L × Row} (hf : ∀ p, (f p).1 = p.1)
    (h : (rows.map Prod.fst).Nodup) {p : L × Row} (hp : p ∈ rows) :
    (rows.map f).filter (fun q => decide (q.1 = p.1)) = [f p] := by
  induction rows with
  | nil => simp at hp
  | cons x rows ih =>
    obtain ⟨hx, hnd⟩ := List.nodup_cons.mp h
    rw [List.map_cons]
    rcases List.mem_cons.mp hp with rfl | hp
    · rw [List.filter_cons_of_pos (by simp [hf])]
      congr 1
      rw [List.filter_eq_nil_iff]
      intro q hq
      obtain ⟨y, hy, rfl⟩ := List.mem_map.mp hq
      simp only [hf, decide_eq_true_eq]
      intro e
      exact hx (e ▸ List.mem_map_of_mem hy)
    · rw [List.filter_cons_of_neg, ih hnd hp]
      simp only [hf, decide_eq_true_eq]
      intro e
      exact hx (e ▸ List.mem_map_of_mem hp)

theorem mapPy_labels {f : Row → Py Row} (rows : List (L × Row)) :
    mapPy (fun p : L × Row => do let s ← f p.2; return (p.1, s)) rows =
      (mapPy f (rows.map Prod.snd)).map fun ys => (rows.map Prod.fst).zip ys := by
  induction rows with
  | nil => rfl
  | cons p rows ih =>
    simp only [List.map_cons, mapPy, ih]
    cases f p.2 with
    | error e => rfl
    | ok y =>
      cases mapPy f (rows.map Prod.snd) with
      | error e => rfl
      | ok ys => rfl

theorem flatMap_join {names : List String} : ∀ {rows : List (L × Row)} {results : List Row},
    results.length = rows.length → (rows.map Prod.fst).Nodup →
    (rows.flatMap fun p => ((((rows.map Prod.fst).zip results).filter fun q => q.1 = p.1).map fun q =>
      (p.1, names.foldl (fun r' c => r'.put c (q.2 c)) p.2))) =
      (rows.map Prod.fst).zip (List.zipWith (fun r s => names.foldl (fun r' c => r'.put c (s c)) r)
        (rows.map Prod.snd) results) := by
  intro rows results hlen hnd
  have h1 : ∀ p ∈ rows.zip results,
      ((rows.map Prod.fst).zip results).filter (fun q => decide (q.1 = p.1.1)) = [(p.1.1, p.2)] := by
    induction rows generalizing results with
    | nil => intro p hp; simp at hp
    | cons x rows ih =>
      cases results with
      | nil => intro p hp; simp at hp
      | cons y results =>
        obtain ⟨hx, hnd⟩ := List.nodup_cons.mp hnd
        intro p hp
        rw [List.zip_cons_cons] at hp
        rw [List.map_cons, List.zip_cons_cons]
        rcases List.mem_cons.mp hp with rfl | hp
        · rw [List.filter_cons_of_pos (by simp)]
          congr 1
          rw [List.filter_eq_nil_iff]
          intro q hq
          simp only [decide_eq_true_eq]
          intro e
          exact hx (e ▸ (List.of_mem_zip hq).1)
        · rw [List.filter_cons_of_neg, ih (by simpa using hlen) hnd p hp]
          simp only [decide_eq_true_eq]
          intro e
          exact hx (e ▸ List.mem_map_of_mem (List.of_mem_zip hp).1)
  have h2 : ∀ (R : List (L × Row)) (Q : List Row) (T : List (L × Row)), Q.length = R.length →
      (∀ p ∈ R.zip Q, T.filter (fun q => decide (q.1 = p.1.1)) = [(p.1.1, p.2)]) →
      (R.flatMap fun p => ((T.filter fun q => q.1 = p.1).map fun q =>
        (p.1, names.foldl (fun r' c => r'.put c (q.2 c)) p.2))) =
      (R.map Prod.fst).zip (List.zipWith (fun r s => names.foldl (fun r' c => r'.put c (s c)) r)
        (R.map Prod.snd) Q) := by
    intro R
    induction R with
    | nil => intro Q T _ _; rfl
    | cons x R ih =>
      intro Q T hQ hT
      cases Q with
      | nil => simp at hQ
      | cons y Q =>
        rw [List.flatMap_cons, ih Q T (by simpa using hQ) fun p hp => hT p (List.mem_cons_of_mem _ hp)]
        rw [hT (x, y) List.mem_cons_self]
        rfl
  exact h2 rows results _ hlen h1

theorem mapPy_put {names : List String} {f : Row → Py Row} (rows : List Row) :
    mapPy (fun r => do
      let s ← f r
      return names.foldl (fun r' c => r'.put c (s c)) r) rows =
    (mapPy f rows).map fun ys =>
      List.zipWith (fun r s => names.foldl (fun r' c => r'.put c (s c)) r) rows ys := by
  induction rows with
  | nil => rfl
  | cons r rows ih =>
    simp only [mapPy, ih]
    cases f r with
    | error e => rfl
    | ok y =>
      cases mapPy f rows with
      | error e => rfl
      | ok ys => rfl

theorem mapPy_length {f : Row → Py Row} {rows ys : List Row} (h : mapPy f rows = .ok ys) :
    ys.length = rows.length := (mapPy_ok h).length_eq.symm

/-- **C143**: if no two rows have the same label, `add_func_cols` works row by row (C80). -/
theorem C143_func_cols (names : List String) (func : List String → Row → Py Row) (df : LDF L)
    (h : (df.rows.map Prod.fst).Nodup) :
    add_func_cols_at names func df = (add_func_cols names func df.plain).map df.withRows := by
  unfold add_func_cols_at add_func_cols
  rw [mapPy_labels, mapPy_put]
  show _ = Except.map _ ((mapPy (func df.cols) (df.rows.map Prod.snd)).map _ >>= _)
  cases hm : mapPy (func df.cols) (df.rows.map Prod.snd) with
  | error e => rfl
  | ok ys =>
    have hlen : ys.length = df.rows.length := by rw [mapPy_length hm, List.length_map]
    have hh : (names.any fun x => df.plain.has x) = names.any (df.cols.contains ·) := rfl
    simp only [Except.map, bind_ok, hh]
    split
    · rfl
    · simp only [LDF.withRows, flatMap_join hlen h]
      rfl

theorem filter_const {α : Type} {l : List α} {P : α → Bool} (b : Bool) (h : ∀ x ∈ l, P x = b) :
    (l.filter P).length = if b then l.length else 0 := by
  cases b with
  | true => rw [List.filter_eq_self.mpr h]; rfl
  | false =>
    rw [List.filter_eq_nil_iff.mpr fun x hx => by rw [h x hx]; simp]; rfl

/-- **C143**: a label that several rows share comes back with every pair of them: `n` rows become `n` times `n`. -/
theorem C143_squares {names : List String} {func : List String → Row → Py Row} {df df' : LDF L}
    (h : add_func_cols_at names func df = .ok df') (l : L) :
    (df'.rows.map Prod.fst).count l = (df.rows.map Prod.fst).count l ^ 2 := by
  unfold add_func_cols_at at h
  rw [mapPy_labels] at h
  cases hm : mapPy (func df.cols) (df.rows.map Prod.snd) with
  | error e => rw [hm] at h; cases h
  | ok ys =>
    rw [hm] at h
    have hlen : ys.length = df.rows.length := by rw [mapPy_length hm, List.length_map]
    simp only [Except.map, bind_ok] at h
    split at h
    · cases h
    · obtain rfl := Except.ok.inj h
      have hT : ∀ l, (((df.rows.map Prod.fst).zip ys).filter fun q => decide (q.1 = l)).length =
          (df.rows.map Prod.fst).count l := by
        intro l
        have : (df.rows.map Prod.fst) = ((df.rows.map Prod.fst).zip ys).map Prod.fst := by
          rw [List.map_fst_zip (by rw [List.length_map, hlen])]
        conv_rhs => rw [this]
        rw [List.count_eq_countP, List.countP_map, List.countP_eq_length_filter]
        congr 1
      show (List.map Prod.fst (List.flatMap _ _)).count l = _
      generalize (df.rows.map Prod.fst).zip ys = T at hT
      generalize hk : (df.rows.map Prod.fst).count l = k
      have key : ∀ R : List (L × Row), ((R.flatMap fun p => ((T.filter fun q => q.1 = p.1).map fun q =>
          (p.1, names.foldl (fun r' c => r'.put c (q.2 c)) p.2))).map Prod.fst).count l =
          (R.map Prod.fst).count l * k := by
        intro R
        induction R with
        | nil => simp
        | cons p R ih =>
          rw [List.flatMap_cons, List.map_append, List.count_append, ih, List.map_cons, List.count_cons]
          have : (((T.filter fun q => q.1 = p.1).map fun q =>
              (p.1, names.foldl (fun r' c => r'.put c (q.2 c)) p.2)).map Prod.fst).count l =
              if p.1 = l then k else 0 := by
            rw [List.map_map]
            have e : (Prod.fst ∘ fun q : L × Row => (p.1, names.foldl (fun r' c => r'.put c (q.2 c)) p.2)) =
                fun _ => p.1 := rfl
            rw [e, List.map_const', List.count_replicate, hT p.1]
            by_cases hp : p.1 = l
            · simp [hp, hk]
            · simp [hp]
          rw [this]
          by_cases hp : p.1 = l
          · simp [hp, add_mul, add_comm]
          · simp [hp]
      rw [key, hk, pow_two]

/-! ## Looking rows up -/

theorem loc_distinct {df : LDF L} (h : (df.rows.map Prod.fst).Nodup) {l : L} {r : Row}
    (hm : (l, r) ∈ df.rows) : df.loc l = [r] := by
  have := filter_label (f := id) (fun _ => rfl) h hm
  rw [List.map_id] at this
  unfold LDF.loc
  rw [this]
  rfl

/-- **C143**: with distinct labels `to_Titration` takes the row under the label, wherever it is; a label
that is not there is a `KeyError`. -/
theorem C143_titration (w : World) (sys : SysIn → Py SysOut) (name : L → String) (df : LDF L) (l : L)
    (kw : Dict Val) :
    ((df.rows.map Prod.fst).Nodup → ∀ i r, df.rows[i]? = some (l, r) →
      to_Titration_at w sys name df l kw = to_Titration w sys df.plain i kw) ∧
    ((∀ p ∈ df.rows, p.1 ≠ l) → to_Titration_at w sys name df l kw = .error (.KeyError (name l))) := by
  constructor
  · intro h i r hi
    have hm : (l, r) ∈ df.rows := List.mem_of_getElem? hi
    unfold to_Titration_at to_Titration
    rw [loc_distinct h hm]
    have : df.plain.rows[i]? = some r := by
      show (df.rows.map Prod.snd)[i]? = _
      rw [List.getElem?_map, hi]; rfl
    rw [this]
    rfl
  · intro h
    have : df.loc l = [] := by
      unfold LDF.loc
      rw [List.filter_eq_nil_iff.mpr fun p hp => by simpa using h p hp]
      rfl
    unfold to_Titration_at
    rw [this]

theorem fresh_labels (d : DF) : (fresh d).rows.map Prod.fst = List.range d.rows.length := by
  show ((List.range _).zip _).map Prod.fst = _
  rw [List.map_fst_zip (by simp)]

theorem fresh_plain (d : DF) : (fresh d).plain = d := by
  unfold LDF.plain fresh
  rw [List.map_snd_zip (by simp)]

theorem fresh_nodup (d : DF) : ((fresh d).rows.map Prod.fst).Nodup := by
  rw [fresh_labels]; exact List.nodup_range

/-- a table that has just been read: rows are counted from 0 -/
theorem C143_fresh (w : World) (sys : SysIn → Py SysOut) (d : DF) (i : ℕ) (kw : Dict Val) :
    to_Titration_at w sys toString (fresh d) i kw = to_Titration w sys d i kw := by
  obtain ⟨h1, h2⟩ := C143_titration w sys toString (fresh d) i kw
  by_cases hi : i < d.rows.length
  · have := h1 (fresh_nodup d) i d.rows[i] (by
      show ((List.range _).zip _)[i]? = _
      rw [List.getElem?_zip_eq_some]
      simp [hi])
    rw [this, fresh_plain]
  · rw [h2 (by
      intro p hp e
      have := (List.of_mem_zip hp).1
      rw [e] at this
      exact hi (List.mem_range.mp this))]
    unfold to_Titration
    rw [List.getElem?_eq_none (by omega)]

theorem setCol_fresh (d : DF) (c : String) (f : Row → Val) : (fresh d).setCol c f = fresh (d.setCol c f) := by
  unfold LDF.setCol fresh DF.setCol
  simp only [List.length_map]
  congr 1
  rw [List.zip_map_right]
  rfl

theorem withRows_fresh {d d' : DF} (h : d'.rows.length = d.rows.length) :
    (fresh d).withRows d' = fresh d' := by
  unfold LDF.withRows
  rw [fresh_labels]
  unfold fresh
  rw [h]

theorem vindtaLoop_length (lib : DbsLib) (fmt : List Piece) (cols : List String) (rs : List Row) :
    (vindtaLoop lib fmt cols rs).2.length = rs.length := by
  induction rs with
  | nil => rfl
  | cons r rs ih =>
    rw [vindtaLoop]
    rcases vindtaRow lib fmt cols r with ⟨x, r'⟩
    cases x with
    | error e => rfl
    | ok u => simp [ih]

theorem get_VINDTA_length (lib : DbsLib) (fmt : List Piece) (d : DF) :
    (get_VINDTA_filenames lib fmt d).2.rows.length = d.rows.length := by
  obtain ⟨g, hg, -⟩ := certifiedCol_rows d
  show (vindtaLoop lib fmt _ _).2.length = _
  rw [vindtaLoop_length, hg, List.length_map]

theorem get_VINDTA_fresh (lib : DbsLib) (fmt : List Piece) (d : DF) :
    get_VINDTA_filenames_at lib fmt (fresh d) =
      ((get_VINDTA_filenames lib fmt d).1, fresh (get_VINDTA_filenames lib fmt d).2) := by
  obtain ⟨h1, h2, h3⟩ := C143_distinct lib fmt (fresh d) (fresh_nodup d)
  rw [fresh_plain] at h1 h2 h3
  rw [fresh_labels] at h3
  rcases hx : get_VINDTA_filenames_at lib fmt (fresh d) with ⟨x, ⟨cols, rows⟩⟩
  rw [hx] at h1 h2 h3
  dsimp only at h1 h2 h3
  subst h1 h2 h3
  unfold fresh
  rw [get_VINDTA_length]

/-- **C143**: `read_dbs` works on a table it has just read, so labels do not matter there: it is the reading row
by row of C80. -/
theorem C143_read_dbs (lib : DbsLib) (table : DF) (fname : String) (analyte_volume : Flt)
    (analyte_mass : Option Flt) (file_path : Val) (fmt : List Piece) :
    read_dbs_at lib table fname analyte_volume analyte_mass file_path fmt =
      (read_dbs lib table fname analyte_volume analyte_mass file_path fmt).map fresh := by
  unfold read_dbs_at read_dbs
  simp only [setCol_fresh, C143_func_cols _ _ _ (fresh_nodup _), fresh_plain]
  cases hf : add_func_cols ["analysis_datetime"] (fun cols r => do
    let t ← dbs_datetime lib cols r
    return fun _ => .num t) ((renameRunType table).setCol "dbs_fname" fun _ => .str fname) with
  | error e => rfl
  | ok d =>
    have hlen : d.rows.length = ((renameRunType table).setCol "dbs_fname" fun _ => .str fname).rows.length :=
      (C80_func_cols hf).2.length_eq.symm
    simp only [Except.map, bind_ok, withRows_fresh hlen, setCol_fresh, get_VINDTA_fresh]
    rcases get_VINDTA_filenames lib fmt (d.setCol "analysis_datenum" fun r => r "analysis_datetime") with ⟨x, d'⟩
    cases x with
    | error e => rfl
    | ok u =>
      have hA : setAnalyteAt analyte_volume analyte_mass (fresh d') =
          fresh (setAnalyte analyte_volume analyte_mass d') := by
        unfold setAnalyteAt setAnalyte
        cases analyte_mass <;> exact setCol_fresh _ _ _
      dsimp only
      rw [hA]
      cases file_path with
      | str p => exact congrArg Except.ok (setCol_fresh _ _ _)
      | _ => rfl

/-! ## Cases -/

/-- two tables with a CRM each, put together: both rows have the label 0 -/
def twoTables : LDF ℕ := ⟨crmTable.cols, [(0, crmRow "188" "1"), (0, crmRow "189" "2")]⟩

/-- the same rows under labels of their own, out of order -/
def relabelled : LDF ℕ := ⟨crmTable.cols, [(7, crmRow "188" "1"), (3, crmRow "189" "2")]⟩

/-- the hypotheses of `C143_rows` and `C143_shared`, with a file that is lost; under labels of their own the
rows keep their files -/
example : (∃ df', get_VINDTA_filenames_at plainLib defaultFormat twoTables = (.ok (), df') ∧
      df'.rows.map (fun p => p.2 "file_name") = [.str "CRM1892.dat", .str "CRM1892.dat"] ∧
      df'.rows.map (fun p => p.2 "batch") = [.str "188", .str "189"]) ∧
    (relabelled.rows.map Prod.fst).Nodup ∧
    ∃ df', get_VINDTA_filenames_at plainLib defaultFormat relabelled = (.ok (), df') ∧
      df'.rows.map (fun p => (p.1, p.2 "file_name")) = [(7, .str "CRM1881.dat"), (3, .str "CRM1892.dat")] := by
  refine ⟨⟨(get_VINDTA_filenames_at plainLib defaultFormat twoTables).2, ?_, ?_, ?_⟩, by decide,
    (get_VINDTA_filenames_at plainLib defaultFormat relabelled).2, ?_, ?_⟩ <;>
    with_unfolding_all rfl

/-- the hypotheses of `C143_squares`: two rows of one label become four -/
example : ∃ df', add_func_cols_at ["n"] (fun _ r => .ok fun _ => r "batch") twoTables = .ok df' ∧
    df'.rows.map (fun p => p.2 "n") = [.str "188", .str "189", .str "188", .str "189"] := by
  refine ⟨_, rfl, ?_⟩
  with_unfolding_all rfl

/-- the hypotheses of `C143_titration`: the second row is found under its label 3 -/
example (w : World) (sys : SysIn → Py SysOut) (kw : Dict Val) :
    to_Titration_at w sys toString relabelled 3 kw = to_Titration w sys relabelled.plain 1 kw ∧
    to_Titration_at w sys toString relabelled 1 kw = .error (.KeyError "1") :=
  ⟨(C143_titration w sys toString relabelled 3 kw).1 (by decide) 1 _ rfl,
    (C143_titration w sys toString relabelled 1 kw).2 (by simp [relabelled])⟩

end Calk
