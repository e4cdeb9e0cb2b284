import Verif.Props.Read
import Verif.Lemmas.Kwargs

/-! # File types (C56–C58, C73, C74) -/

namespace Calk
open Flt

/-! ## C73: tables -/

/-- the fields of a data line -/
def fields (d : Char) (l : List Char) : List (List Char) :=
  splitC d (stripEnds (l.takeWhile (· ≠ '#')))

theorem splitLine_data {d : Char} {l : List Char} (h : DataLine l) : splitLine d l = fields d l := by
  have hne : splitLine d l ≠ [] := fun e => (splitLine_nil_iff d l).mp e h
  unfold splitLine at hne ⊢
  simp only at hne ⊢
  split at hne
  · exact absurd rfl hne
  · rename_i hh
    rw [if_neg hh]
    rfl

theorem dataLine_of_mem {skip : ℕ} {text l : List Char} (h : l ∈ dataLines skip text) : DataLine l := by
  classical
  unfold dataLines at h
  simpa using (List.mem_filter.mp h).2

/-- the number in column `c` of a line: NaN if it is not a number -/
def FieldNumber (d : Char) (c : ℕ) (l : List Char) (x : Flt) : Prop :=
  ∃ s, (fields d l)[c]? = some s ∧ (parseFloat s = some x ∨ parseFloat s = none ∧ x = nan)

theorem colAt_nat {rows : List (List Flt)} {n c : ℕ} (hne : rows ≠ [])
    (hr : ∀ r ∈ rows, r.length = n) (hc : c < n) :
    colAt rows c = .ok (rows.map fun r => r.getD c nan) := by
  have hd : (rows.headD []).length = n := by
    cases rows with
    | nil => exact absurd rfl hne
    | cons r rs => exact hr r (by simp)
  unfold colAt
  simp only [hd]
  rw [if_pos ⟨by omega, by omega⟩]
  simp

theorem fieldNumber_get {d : Char} {c : ℕ} {l : List Char} (h : c < (fields d l).length) :
    FieldNumber d c l (((fields d l).map looseFloat).getD c nan) := by
  refine ⟨(fields d l)[c], List.getElem?_eq_getElem h, ?_⟩
  rw [List.getD_eq_getElem?_getD, List.getElem?_map, List.getElem?_eq_getElem h]
  simp only [Option.map_some, Option.getD_some]
  unfold looseFloat
  cases parseFloat (fields d l)[c] with
  | none => exact .inr ⟨rfl, rfl⟩
  | some x => exact .inl rfl

/-- **C73**: one point per data line, with the numbers in the chosen columns; what is not a number
is NaN. -/
theorem C73_table (fs : FS) (file : String) (text : List Char) (c0 c1 c2 n skip : ℕ) (d : Char)
    (h : fs file = some text) (h2 : 2 ≤ (dataLines skip text).length)
    (hn : ∀ l ∈ dataLines skip text, (fields d l).length = n) (hn2 : 2 ≤ n)
    (hc0 : c0 < n) (hc1 : c1 < n) (hc2 : c2 < n) :
    ∃ data, read_dat_genfromtxt fs file c0 c1 c2 d skip = .ok data ∧
      List.Forall₂ (FieldNumber d c0) (dataLines skip text) data.titrant_amount ∧
      List.Forall₂ (FieldNumber d c1) (dataLines skip text) data.measurement ∧
      List.Forall₂ (FieldNumber d c2) (dataLines skip text) data.temperature := by
  have hrows : (dataLines skip text).map (splitLine d) = (dataLines skip text).map (fields d) :=
    List.map_congr_left fun l hl => splitLine_data (dataLine_of_mem hl)
  have hg : genRows d skip (universal text)
      = .ok ((dataLines skip text).map fun l => (fields d l).map looseFloat) := by
    unfold genRows
    simp only
    rw [rows_eq, hrows]
    revert h2 hn
    generalize dataLines skip text = ls
    intro h2 hn
    cases ls with
    | nil => simp at h2
    | cons l ls =>
      simp only [List.map_cons]
      rw [if_pos]
      · simp
      · simp only [List.all_cons, beq_self_eq_true, Bool.true_and, List.all_map, List.all_eq_true,
          Function.comp_apply, beq_iff_eq]
        intro l' hl'
        rw [hn l' (by simp [hl']), hn l (by simp)]
  have hne : (dataLines skip text).map (fun l => (fields d l).map looseFloat) ≠ [] := by
    intro e
    rw [List.map_eq_nil_iff] at e
    rw [e] at h2
    simp at h2
  have hlen : ∀ r ∈ (dataLines skip text).map (fun l => (fields d l).map looseFloat), r.length = n := by
    intro r hr
    obtain ⟨l, hl, rfl⟩ := List.mem_map.mp hr
    rw [List.length_map, hn l hl]
  have hcol : ∀ c : ℕ, c < n →
      colAtSqueezed ((dataLines skip text).map fun l => (fields d l).map looseFloat) (c : ℤ)
        = .ok ((dataLines skip text).map fun l => ((fields d l).map looseFloat).getD c nan) := by
    intro c hc
    unfold colAtSqueezed
    have hd : (((dataLines skip text).map fun l => (fields d l).map looseFloat).headD []).length = n := by
      obtain ⟨r, rs, e⟩ := List.exists_cons_of_ne_nil hne
      rw [e]
      exact hlen r (by rw [e]; simp)
    rw [if_neg (by rw [hd, List.length_map]; omega), colAt_nat hne hlen hc, List.map_map]
    rfl
  have hf : ∀ c : ℕ, c < n → List.Forall₂ (FieldNumber d c) (dataLines skip text)
      ((dataLines skip text).map fun l => ((fields d l).map looseFloat).getD c nan) := by
    intro c hc
    rw [List.forall₂_map_right_iff, List.forall₂_same]
    intro l hl
    exact fieldNumber_get (by rw [hn l hl]; exact hc)
  refine ⟨⟨_, _, _, false⟩, ?_, hf c0 hc0, hf c1 hc1, hf c2 hc2⟩
  unfold read_dat_genfromtxt readText
  rw [h]
  simp only [bind_ok, hg, hcol c0 hc0, hcol c1 hc1, hcol c2 hc2, pure_ok]

/-- rows read from data lines that all have `n` fields -/
theorem genRows_data {text : List Char} {n skip : ℕ} {d : Char}
    (h2 : 2 ≤ (dataLines skip text).length)
    (hn : ∀ l ∈ dataLines skip text, (fields d l).length = n) :
    ∃ rows : List (List Flt), genRows d skip (universal text) = .ok rows ∧ 2 ≤ rows.length ∧
      (rows.headD []).length = n := by
  have hrows : (dataLines skip text).map (splitLine d) = (dataLines skip text).map (fields d) :=
    List.map_congr_left fun l hl => splitLine_data (dataLine_of_mem hl)
  refine ⟨(dataLines skip text).map fun l => (fields d l).map looseFloat, ?_, by simpa using h2, ?_⟩
  · unfold genRows
    simp only
    rw [rows_eq, hrows]
    revert h2 hn
    generalize dataLines skip text = ls
    intro h2 hn
    cases ls with
    | nil => simp at h2
    | cons l ls =>
      simp only [List.map_cons]
      rw [if_pos]
      · simp
      · simp only [List.all_cons, beq_self_eq_true, Bool.true_and, List.all_map, List.all_eq_true,
          Function.comp_apply, beq_iff_eq]
        intro l' hl'
        rw [hn l' (by simp [hl']), hn l (by simp)]
  · revert h2 hn
    generalize dataLines skip text = ls
    intro h2 hn
    cases ls with
    | nil => simp at h2
    | cons l ls => simpa using hn l (by simp)

theorem colAt_from_end {rows : List (List Flt)} {n c : ℕ} (hn : (rows.headD []).length = n)
    (hc : c < n) : colAt rows ((c : ℤ) - n) = colAt rows c := by
  unfold colAt
  simp only [hn]
  rw [if_neg (by omega), if_pos (by omega), if_pos (by omega), sub_add_cancel]

/-- **C73**: columns can also be given by negative numbers, which count from the end. -/
theorem C73_from_end (fs : FS) (file : String) (text : List Char) (c0 c1 c2 n skip : ℕ) (d : Char)
    (a0 a1 a2 : ℤ) (h : fs file = some text) (h2 : 2 ≤ (dataLines skip text).length)
    (hn : ∀ l ∈ dataLines skip text, (fields d l).length = n) (hn2 : 2 ≤ n)
    (hc0 : c0 < n) (hc1 : c1 < n) (hc2 : c2 < n) (h0 : a0 = c0 ∨ a0 = c0 - n)
    (h1 : a1 = c1 ∨ a1 = c1 - n) (h2' : a2 = c2 ∨ a2 = c2 - n) :
    read_dat_genfromtxt fs file a0 a1 a2 d skip = read_dat_genfromtxt fs file c0 c1 c2 d skip := by
  obtain ⟨rows, hg, hl, hd⟩ := genRows_data (d := d) h2 hn
  have hcol : ∀ (c : ℕ) (a : ℤ), c < n → (a = c ∨ a = c - n) →
      colAtSqueezed rows a = colAtSqueezed rows c := by
    rintro c a hc (rfl | rfl)
    · rfl
    · unfold colAtSqueezed
      rw [colAt_from_end hd hc]
  unfold read_dat_genfromtxt readText
  rw [h]
  simp only [bind_ok, hg, hcol c0 a0 hc0 h0, hcol c1 a1 hc1 h1, hcol c2 a2 hc2 h2']

/-- **C73**: a column that no data line has is an `IndexError`. -/
theorem C73_no_column (fs : FS) (file : String) (text : List Char) (n skip : ℕ) (d : Char)
    (a0 a1 a2 : ℤ) (h : fs file = some text) (h2 : 2 ≤ (dataLines skip text).length)
    (hn : ∀ l ∈ dataLines skip text, (fields d l).length = n)
    (ha : ∃ a ∈ [a0, a1, a2], a < -n ∨ n ≤ a) :
    read_dat_genfromtxt fs file a0 a1 a2 d skip = .error .IndexError := by
  obtain ⟨rows, hg, hl, hd⟩ := genRows_data (d := d) h2 hn
  have hbad : ∀ a : ℤ, (a < -n ∨ n ≤ a) → colAtSqueezed rows a = .error .IndexError := by
    intro a h
    unfold colAtSqueezed colAt
    split
    · rfl
    · simp only [hd]
      rw [if_neg (by omega), if_neg (by omega)]
  have hany : ∀ a : ℤ, (∃ xs, colAtSqueezed rows a = .ok xs) ∨ colAtSqueezed rows a = .error .IndexError := by
    intro a
    unfold colAtSqueezed colAt
    simp only
    split
    · exact .inr rfl
    · split
      · exact .inl ⟨_, rfl⟩
      · split
        · exact .inl ⟨_, rfl⟩
        · exact .inr rfl
  unfold read_dat_genfromtxt readText
  rw [h]
  simp only [bind_ok, hg]
  rcases hany a0 with ⟨x, e0⟩ | e0
  swap
  · rw [e0]; rfl
  rcases hany a1 with ⟨y, e1⟩ | e1
  swap
  · rw [e0, bind_ok, e1]; rfl
  rcases hany a2 with ⟨z, e2⟩ | e2
  swap
  · rw [e0, bind_ok, e1, bind_ok, e2]; rfl
  exfalso
  obtain ⟨a, ha, hr⟩ := ha
  simp only [List.mem_cons, List.not_mem_nil, or_false] at ha
  have := hbad a hr
  rcases ha with rfl | rfl | rfl
  · rw [e0] at this; cases this
  · rw [e1] at this; cases this
  · rw [e2] at this; cases this

/-- two lines of three fields: the last column can be called 2 or -1, but not 3 -/
example : let t := "0\t1\t2\n3\t4\t5".toList
    read_dat_genfromtxt (fun _ => some t) "f" 0 1 (-1) '\t' 0
      = read_dat_genfromtxt (fun _ => some t) "f" (0:ℕ) (1:ℕ) (2:ℕ) '\t' 0 ∧
    read_dat_genfromtxt (fun _ => some t) "f" 0 1 3 '\t' 0 = .error .IndexError := by
  have hd : dataLines 0 "0\t1\t2\n3\t4\t5".toList = ["0\t1\t2".toList, "3\t4\t5".toList] := by
    classical
    have hf : fileLines (universal "0\t1\t2\n3\t4\t5".toList) = ["0\t1\t2".toList, "3\t4\t5".toList] := by
      decide
    have h1 : DataLine "0\t1\t2".toList := ⟨'0', by decide, by decide⟩
    have h2 : DataLine "3\t4\t5".toList := ⟨'3', by decide, by decide⟩
    unfold dataLines
    rw [hf]
    simp only [List.drop_zero, List.filter_cons, h1, h2, decide_true, List.filter_nil, if_true]
  have hf : ∀ l ∈ dataLines 0 "0\t1\t2\n3\t4\t5".toList, (fields '\t' l).length = 3 := by
    rw [hd]
    decide +kernel
  exact ⟨C73_from_end _ "f" _ 0 1 2 3 0 '\t' 0 1 (-1) rfl (by rw [hd]; decide) hf (by decide) (by decide)
      (by decide) (by decide) (.inl rfl) (.inl rfl) (.inr rfl),
    C73_no_column _ "f" _ 3 0 '\t' 0 1 3 rfl (by rw [hd]; decide) hf ⟨3, by simp, .inr le_rfl⟩⟩

/-- **C73**: data lines with different numbers of fields are a `ValueError`. -/
theorem C73_ragged (fs : FS) (file : String) (text : List Char) (c0 c1 c2 : ℤ) (skip : ℕ) (d : Char)
    (h : fs file = some text) (l l' : List Char) (hl : l ∈ dataLines skip text)
    (hl' : l' ∈ dataLines skip text) (hne : (fields d l).length ≠ (fields d l').length) :
    read_dat_genfromtxt fs file c0 c1 c2 d skip = .error .ValueError := by
  have hrows : (dataLines skip text).map (splitLine d) = (dataLines skip text).map (fields d) :=
    List.map_congr_left fun l hl => splitLine_data (dataLine_of_mem hl)
  have hg : genRows d skip (universal text) = .error .ValueError := by
    unfold genRows
    simp only
    rw [rows_eq, hrows]
    revert hl hl'
    generalize dataLines skip text = ls
    intro hl hl'
    cases ls with
    | nil => cases hl
    | cons l0 ls =>
      simp only [List.map_cons]
      rw [if_neg]
      intro hall
      rw [← List.map_cons (f := fields d)] at hall
      simp only [List.all_map, List.all_eq_true, Function.comp_apply, beq_iff_eq] at hall
      exact hne ((hall l hl).trans (hall l' hl').symm)
  unfold read_dat_genfromtxt readText
  rw [h]
  simp only [bind_ok, hg, bind_error]

/-! ## C56: PC LIMS -/

/-- the titration data come in lines of at least `n` fields, all but the last of these made of
digits and dots -/
def LimsLine (n : ℕ) (l : List Char) : Prop :=
  n ≤ (splitC '\t' l).length ∧ ∀ f ∈ (splitC '\t' l).take (n - 1), ∀ c ∈ f, c ∈ "0123456789.".toList

/-- `block` is the first run of lines with the property `P`, as long as possible -/
def IsFirstBlock (P : List Char → Prop) (lines block : List (List Char)) : Prop :=
  ∃ pre post, lines = pre ++ block ++ post ∧ (∀ l ∈ pre, ¬P l) ∧ (∀ l ∈ block, P l) ∧
    (∀ l, post.head? = some l → ¬P l) ∧ (block = [] → post = [])

theorem isDigitDot_iff (c : Char) : isDigitDot c = true ↔ c ∈ "0123456789.".toList := by
  unfold isDigitDot
  rw [Bool.or_eq_true, beq_iff_eq]
  constructor
  · rintro (h | rfl)
    · have := digit_range h
      obtain ⟨n, hn⟩ : ∃ n, c.toNat = n := ⟨_, rfl⟩
      have hc : c = Char.ofNat n := by rw [← hn, Char.ofNat_toNat]
      rw [hn] at this
      obtain ⟨h1, h2⟩ := this
      subst hc
      clear hn h
      interval_cases n <;> decide
    · decide
  · intro h
    exact (by decide : ∀ c ∈ "0123456789.".toList, isDigit c = true ∨ c = '.') c h

theorem span_tab (s : List Char) :
    (∃ a b, s = a ++ '\t' :: b ∧ '\t' ∉ a) ∨ '\t' ∉ s := by
  induction s with
  | nil => exact .inr (by simp)
  | cons c s ih =>
    by_cases hc : c = '\t'
    · exact .inl ⟨[], s, by rw [hc]; rfl, by simp⟩
    · rcases ih with ⟨a, b, h, ha⟩ | h
      · exact .inl ⟨c :: a, b, by rw [h]; rfl, by simp [ha, Ne.symm hc]⟩
      · exact .inr (by simp [h, Ne.symm hc])

theorem dropWhile_append_of {p : Char → Bool} {a b : List Char} (ha : ∀ c ∈ a, p c = true) :
    (a ++ b).dropWhile p = b.dropWhile p := by
  induction a with
  | nil => rfl
  | cons c a ih =>
    rw [List.cons_append, List.dropWhile_cons, ha c (by simp), if_pos rfl,
      ih fun c hc => ha c (by simp [hc])]

theorem dropWhile_stop {p : Char → Bool} {a b : List Char} (ha : ¬∀ c ∈ a, p c = true) :
    ∃ c t, c ∈ a ∧ (a ++ b).dropWhile p = c :: t := by
  induction a with
  | nil => exact absurd (by simp) ha
  | cons c a ih =>
    by_cases hc : p c = true
    · obtain ⟨c', t, hc', e⟩ := ih (by
        intro h
        exact ha fun x hx => by
          rcases List.mem_cons.mp hx with rfl | hx
          · exact hc
          · exact h x hx)
      exact ⟨c', t, by simp [hc'], by rw [List.cons_append, List.dropWhile_cons, if_pos hc, e]⟩
    · exact ⟨c, a ++ b, by simp, by rw [List.cons_append, List.dropWhile_cons, if_neg hc]⟩

theorem matchFields_iff (k : ℕ) (s : List Char) : matchFields k s = true ↔ LimsLine (k + 1) s := by
  induction k generalizing s with
  | zero =>
    simp only [matchFields, LimsLine, true_iff]
    refine ⟨?_, by simp⟩
    have := splitC_ne_nil '\t' s
    exact List.length_pos_iff.mpr this
  | succ k ih =>
    unfold matchFields
    rcases span_tab s with ⟨a, b, rfl, ha⟩ | hs
    · by_cases hd : ∀ c ∈ a, isDigitDot c = true
      · rw [dropWhile_append_of hd, show ('\t' :: b).dropWhile isDigitDot = '\t' :: b from by
          rw [List.dropWhile_cons, if_neg (by decide)]]
        simp only
        rw [ih]
        unfold LimsLine
        rw [splitC_append ha]
        simp only [List.length_cons, Nat.add_sub_cancel, List.take_succ_cons, List.mem_cons,
          forall_eq_or_imp]
        constructor
        · rintro ⟨h1, h2⟩
          exact ⟨by omega, fun c hc => (isDigitDot_iff c).mp (hd c hc), h2⟩
        · rintro ⟨h1, _, h2⟩
          exact ⟨by omega, h2⟩
      · obtain ⟨c, t, hc, e⟩ := dropWhile_stop (b := '\t' :: b) hd
        rw [e]
        have hct : c ≠ '\t' := fun h => ha (h ▸ hc)
        constructor
        · intro h
          split at h
          · rename_i h'; exact absurd (List.cons.inj h').1 hct
          · cases h
        · rintro ⟨_, h2⟩
          rw [splitC_append ha] at h2
          simp only [Nat.add_sub_cancel, List.take_succ_cons, List.mem_cons, forall_eq_or_imp] at h2
          exact absurd (fun c hc => (isDigitDot_iff c).mpr (h2.1 c hc)) hd
    · constructor
      · intro h
        split at h
        · rename_i t h'
          exfalso
          apply hs
          have : '\t' ∈ s.dropWhile isDigitDot := by rw [h']; simp
          exact (List.dropWhile_suffix isDigitDot).subset this
        · cases h
      · rintro ⟨h1, _⟩
        rw [splitC_none hs] at h1
        simp at h1

theorem pclimsLoop_true (k : ℕ) (lines : List (List Char)) :
    ∃ post, lines = pclimsLoop k true lines ++ post ∧
      (∀ l ∈ pclimsLoop k true lines, LimsLine (k + 1) l) ∧
      (∀ l, post.head? = some l → ¬LimsLine (k + 1) l) := by
  induction lines with
  | nil => exact ⟨[], rfl, by simp [pclimsLoop], by simp⟩
  | cons l ls ih =>
    obtain ⟨post, h1, h2, h3⟩ := ih
    unfold pclimsLoop
    by_cases hm : matchFields k l = true
    · rw [if_pos hm]
      refine ⟨post, by rw [List.cons_append, ← h1], ?_, h3⟩
      intro x hx
      rcases List.mem_cons.mp hx with rfl | hx
      · exact (matchFields_iff k x).mp hm
      · exact h2 x hx
    · rw [if_neg hm, if_pos rfl]
      refine ⟨l :: ls, rfl, by simp, ?_⟩
      intro x hx
      simp only [List.head?_cons, Option.some.injEq] at hx
      subst hx
      exact fun h => hm ((matchFields_iff k l).mpr h)

theorem pclimsLoop_block (k : ℕ) (lines : List (List Char)) :
    IsFirstBlock (LimsLine (k + 1)) lines (pclimsLoop k false lines) := by
  induction lines with
  | nil => exact ⟨[], [], rfl, by simp, by simp [pclimsLoop], by simp, by simp⟩
  | cons l ls ih =>
    unfold pclimsLoop
    by_cases hm : matchFields k l = true
    · rw [if_pos hm]
      obtain ⟨post, h1, h2, h3⟩ := pclimsLoop_true k ls
      refine ⟨[], post, by rw [List.nil_append, List.cons_append, ← h1], by simp, ?_, h3, by simp⟩
      intro x hx
      rcases List.mem_cons.mp hx with rfl | hx
      · exact (matchFields_iff k x).mp hm
      · exact h2 x hx
    · rw [if_neg hm, if_neg (by simp)]
      obtain ⟨pre, post, h1, h2, h3, h4, h5⟩ := ih
      refine ⟨l :: pre, post, by rw [List.cons_append, List.cons_append, ← h1], ?_, h3, h4, h5⟩
      intro x hx
      rcases List.mem_cons.mp hx with rfl | hx
      · exact fun h => hm ((matchFields_iff k x).mpr h)
      · exact h2 x hx

/-- the number in field `c` of a line -/
def LimsNumber (c : ℕ) (l : List Char) (x : Flt) : Prop :=
  ∃ s, (splitC '\t' l)[c]? = some s ∧ parseFloat s = some x

theorem strictRow_ok {r : List (List Char)} {xs : List Flt} :
    strictRow r = .ok xs ↔ List.Forall₂ (fun s x => parseFloat s = some x) r xs := by
  unfold strictRow
  induction r generalizing xs with
  | nil =>
    simp only [List.mapM_nil]
    constructor
    · intro h; cases h; exact .nil
    · intro h; cases h; rfl
  | cons s r ih =>
    rw [List.mapM_cons]
    cases hs : parseFloat s with
    | none =>
      constructor
      · intro h; cases h
      · intro h; cases h with | cons h _ => rw [hs] at h; cases h
    | some x =>
      cases hr : r.mapM parseFloat with
      | none =>
        constructor
        · intro h; cases h
        · intro h
          cases h with
          | cons _ h =>
            have := ih.mpr h
            rw [hr] at this; cases this
      | some ys =>
        have ih' := @ih
        simp only [hr] at ih'
        constructor
        · intro h
          cases h
          exact .cons hs (ih'.mp rfl)
        · intro h
          cases h with
          | cons h1 h2 =>
            rw [hs] at h1
            cases h1
            have := ih'.mpr h2
            cases this
            rfl

/-- **C56**: the PC LIMS reader returns the numbers in the chosen columns of the first run of data
lines, and nothing else. -/
theorem C56_block (fs : FS) (file : String) (text : List Char) (c0 c1 c2 : ℕ) (n : ℕ) (hn : 1 ≤ n)
    (h : fs file = some text) (d : DatData)
    (hr : read_dat_pclims fs file c0 c1 c2 n = .ok d) :
    ∃ block, block ≠ [] ∧ IsFirstBlock (LimsLine n) (splitlines (universal text)) block ∧
      List.Forall₂ (LimsNumber c0) block d.titrant_amount ∧
      List.Forall₂ (LimsNumber c1) block d.measurement ∧
      List.Forall₂ (LimsNumber c2) block d.temperature := by
  have hk : (((n : ℤ) - 1).toNat) + 1 = n := by omega
  have hb := pclimsLoop_block ((n : ℤ) - 1).toNat (splitlines (universal text))
  rw [hk] at hb
  unfold read_dat_pclims readText at hr
  rw [h] at hr
  simp only [bind_ok] at hr
  generalize pclimsLoop ((n : ℤ) - 1).toNat false (splitlines (universal text)) = block at hb hr
  rw [bind_ok_iff] at hr
  obtain ⟨data, hdata, hr⟩ := hr
  rw [bind_ok_iff] at hr
  obtain ⟨a, ha, hr⟩ := hr
  rw [bind_ok_iff] at hr
  obtain ⟨m, hm, hr⟩ := hr
  rw [bind_ok_iff] at hr
  obtain ⟨t, ht, hr⟩ := hr
  cases Except.ok.inj hr
  have hstrict : List.Forall₂ (fun l xs => strictRow (splitC '\t' l) = .ok xs) block data := by
    unfold strictRows at hdata
    split at hdata
    · have := mapPy_ok hdata
      rwa [List.forall₂_map_left_iff] at this
    · cases hdata
  have hne : block ≠ [] := by
    rintro rfl
    cases hstrict
    unfold pclimsColumn at ha
    simp at ha
  have hcol : ∀ (c : ℕ) (xs : List Flt), pclimsColumn data c = .ok xs →
      List.Forall₂ (LimsNumber c) block xs := by
    intro c xs hxs
    have hne' : data ≠ [] := by
      rintro rfl
      cases hstrict
      exact hne rfl
    have hall : ∀ r ∈ data, r.length = (data.headD []).length := by
      unfold strictRows at hdata
      split at hdata
      · rename_i hlen
        simp only [List.all_map, List.all_eq_true, Function.comp_apply, beq_iff_eq] at hlen
        have hl : ∀ l ∈ block, ∀ r, strictRow (splitC '\t' l) = .ok r →
            r.length = ((block.map (splitC '\t')).headD []).length := by
          intro l hl r hr
          rw [← hlen l hl, (strictRow_ok.mp hr).length_eq]
        have hall : ∀ r ∈ data, r.length = ((block.map (splitC '\t')).headD []).length := by
          intro r hr
          obtain ⟨l, hl', e⟩ : ∃ l ∈ block, strictRow (splitC '\t' l) = .ok r := by
            obtain ⟨i, rfl⟩ := List.mem_iff_get.mp hr
            have h1 : i.1 < block.length := by rw [hstrict.length_eq]; exact i.2
            exact ⟨_, List.get_mem block ⟨i.1, h1⟩, (List.forall₂_iff_get.mp hstrict).2 i.1 h1 i.2⟩
          exact hl l hl' r e
        intro r hr
        rw [hall r hr]
        obtain ⟨r0, rs, e⟩ := List.exists_cons_of_ne_nil hne'
        rw [e]
        exact (hall r0 (by rw [e]; simp)).symm
      · cases hdata
    unfold pclimsColumn at hxs
    rw [if_neg (by simpa [List.isEmpty_iff] using hne')] at hxs
    by_cases hc : c < (data.headD []).length
    · rw [colAt_nat hne' hall hc] at hxs
      cases Except.ok.inj hxs
      rw [List.forall₂_map_right_iff, List.forall₂_iff_get]
      refine ⟨hstrict.length_eq, fun i h1 h2 => ?_⟩
      have hrow := (List.forall₂_iff_get.mp hstrict).2 i h1 h2
      have hf := strictRow_ok.mp hrow
      have hlen := hall _ (List.get_mem data ⟨i, h2⟩)
      have hcr : c < (data.get ⟨i, h2⟩).length := by omega
      have hcl : c < (splitC '\t' (block.get ⟨i, h1⟩)).length := by rw [hf.length_eq]; exact hcr
      refine ⟨_, List.getElem?_eq_getElem hcl, ?_⟩
      rw [List.getD_eq_getElem?_getD, List.getElem?_eq_getElem hcr]
      exact (List.forall₂_iff_get.mp hf).2 c hcl hcr
    · unfold colAt at hxs
      simp only at hxs
      rw [if_neg (by omega), if_neg (by omega)] at hxs
      cases hxs
  exact ⟨block, hne, hb, hcol c0 a ha, hcol c1 m hm, hcol c2 t ht⟩

/-- The first block is determined by the lines. -/
theorem C56_unique (P : List Char → Prop) (lines b b' : List (List Char))
    (h : IsFirstBlock P lines b) (h' : IsFirstBlock P lines b') : b = b' := by
  classical
  have key : ∀ b, IsFirstBlock P lines b →
      b = (lines.dropWhile fun l => !decide (P l)).takeWhile fun l => decide (P l) := by
    rintro b ⟨pre, post, rfl, h1, h2, h3, h4⟩
    have hd : ∀ (pre rest : List (List Char)), (∀ l ∈ pre, ¬P l) →
        (pre ++ rest).dropWhile (fun l => !decide (P l)) = rest.dropWhile fun l => !decide (P l) := by
      intro pre rest hp
      induction pre with
      | nil => rfl
      | cons x pre ih =>
        rw [List.cons_append, List.dropWhile_cons, if_pos (by simp [hp x (by simp)]),
          ih fun l hl => hp l (by simp [hl])]
    rw [List.append_assoc, hd _ _ h1]
    cases b with
    | nil => rw [h4 rfl]; rfl
    | cons x b =>
      rw [List.cons_append, List.dropWhile_cons, if_neg (by simp [h2 x (by simp)])]
      have ht : ∀ (b post : List (List Char)), (∀ l ∈ b, P l) → (∀ l, post.head? = some l → ¬P l) →
          (b ++ post).takeWhile (fun l => decide (P l)) = b := by
        intro b post hb hp
        induction b with
        | nil =>
          cases post with
          | nil => rfl
          | cons y post => simp [List.takeWhile, hp y rfl]
        | cons y b ih =>
          rw [List.cons_append, List.takeWhile_cons, if_pos (by simp [hb y (by simp)]),
            ih fun l hl => hb l (by simp [hl])]
      exact (ht (x :: b) post h2 h3).symm
  rw [key b h, key b' h']

theorem exists_strictRow {r : List (List Char)} (h : ∀ s ∈ r, ∃ x, parseFloat s = some x) :
    ∃ xs, strictRow r = .ok xs ∧ xs.length = r.length := by
  have : ∃ xs, List.Forall₂ (fun s x => parseFloat s = some x) r xs := by
    induction r with
    | nil => exact ⟨[], .nil⟩
    | cons s r ih =>
      obtain ⟨x, hx⟩ := h s (by simp)
      obtain ⟨xs, hxs⟩ := ih fun s hs => h s (by simp [hs])
      exact ⟨x :: xs, .cons hx hxs⟩
  obtain ⟨xs, hxs⟩ := this
  exact ⟨xs, strictRow_ok.mpr hxs, hxs.length_eq.symm⟩

/-- **C56**: and it does return them whenever these lines are a table of numbers. -/
theorem C56_reads (fs : FS) (file : String) (text : List Char) (c0 c1 c2 n m : ℕ) (hn : 1 ≤ n)
    (h : fs file = some text) (block : List (List Char)) (hne : block ≠ [])
    (hb : IsFirstBlock (LimsLine n) (splitlines (universal text)) block)
    (hm : ∀ l ∈ block, (splitC '\t' l).length = m)
    (hf : ∀ l ∈ block, ∀ s ∈ splitC '\t' l, ∃ x, parseFloat s = some x)
    (hc0 : c0 < m) (hc1 : c1 < m) (hc2 : c2 < m) :
    ∃ d, read_dat_pclims fs file c0 c1 c2 n = .ok d := by
  have hk : (((n : ℤ) - 1).toNat) + 1 = n := by omega
  have hb' := pclimsLoop_block ((n : ℤ) - 1).toNat (splitlines (universal text))
  rw [hk] at hb'
  have hbl := C56_unique _ _ _ _ hb' hb
  have hrows : ∃ rows, strictRows (block.map (splitC '\t')) = .ok rows ∧ rows ≠ [] ∧
      ∀ r ∈ rows, r.length = m := by
    unfold strictRows
    rw [if_pos]
    · clear hb hbl hb'
      rw [mapPy_map]
      induction block with
      | nil => exact absurd rfl hne
      | cons l ls ih =>
        obtain ⟨xs, hxs, hl⟩ := exists_strictRow (hf l (by simp))
        rw [hm l (by simp)] at hl
        by_cases hls : ls = []
        · subst hls
          refine ⟨[xs], ?_, by simp, by simp [hl]⟩
          simp only [mapPy, hxs, bind_ok, pure_ok]
        · obtain ⟨rows, hr, _, hlen⟩ := ih hls (fun l hl => hm l (by simp [hl]))
            (fun l hl => hf l (by simp [hl]))
          refine ⟨xs :: rows, ?_, by simp, ?_⟩
          · simp only [mapPy, hxs, hr, bind_ok, pure_ok]
          · intro r hr'
            rcases List.mem_cons.mp hr' with rfl | hr'
            · exact hl
            · exact hlen r hr'
    · obtain ⟨l, ls, rfl⟩ := List.exists_cons_of_ne_nil hne
      rw [List.all_eq_true]
      intro r hr
      obtain ⟨l', hl', rfl⟩ := List.mem_map.mp hr
      rw [beq_iff_eq, hm l' hl']
      exact (hm l (by simp)).symm
  obtain ⟨rows, hr, hrne, hlen⟩ := hrows
  have hcol : ∀ c : ℕ, c < m → ∃ xs, pclimsColumn rows c = .ok xs := by
    intro c hc
    unfold pclimsColumn
    rw [if_neg (by simpa [List.isEmpty_iff] using hrne), colAt_nat hrne hlen hc]
    exact ⟨_, rfl⟩
  obtain ⟨x0, h0⟩ := hcol c0 hc0
  obtain ⟨x1, h1⟩ := hcol c1 hc1
  obtain ⟨x2, h2⟩ := hcol c2 hc2
  refine ⟨⟨x0, x1, x2, false⟩, ?_⟩
  unfold read_dat_pclims readText
  rw [h]
  simp only [bind_ok, hbl, hr, h0, h1, h2, pure_ok]

/-- **C56**: without any data line the file cannot be read. -/
theorem C56_none (fs : FS) (file : String) (text : List Char) (c0 c1 c2 n : ℤ) (hn : 1 ≤ n)
    (h : fs file = some text) (hl : ∀ l ∈ splitlines (universal text), ¬LimsLine n.toNat l) :
    read_dat_pclims fs file c0 c1 c2 n = .error .IndexError := by
  have hk : ((n - 1).toNat) + 1 = n.toNat := by omega
  obtain ⟨pre, post, e, _, h2, _, _⟩ := pclimsLoop_block (n - 1).toNat (splitlines (universal text))
  have hb : pclimsLoop (n - 1).toNat false (splitlines (universal text)) = [] := by
    rw [List.eq_nil_iff_forall_not_mem]
    intro l hl'
    have := h2 l hl'
    rw [hk] at this
    exact hl l (by rw [e]; exact List.mem_append_left _ (List.mem_append_right _ hl')) this
  unfold read_dat_pclims readText
  rw [h]
  simp only [bind_ok, hb, List.map_nil]
  rfl

/-- a negative number in one of the first fields ends the block, one in the last field does not -/
example : LimsLine 3 "1\t2\t-3".toList ∧ ¬LimsLine 3 "1\t-2\t3".toList := by
  unfold LimsLine
  decide

/-! ## C57: unknown file types -/

theorem filter_set_same (kw : Dict Val) (k : String) (v : Val) :
    (kw.set k v).filter (fun kv => kv.1 ≠ k) = kw.filter fun kv => kv.1 ≠ k :=
  EqOn.set_left (fun k' => decide (k' ≠ k)) kw v (by simp)

/-- **C57**: a `file_type` that is not one of the five known ones is read as `genfromtxt`. -/
theorem C57_fallback (fs : FS) (pd : Pandas) (file : String) (kw : Dict Val) (s : String)
    (hs : s ∉ ["genfromtxt", "vindta", "orgalk_excel", "pclims", "tiamo_de"]) :
    read_dat fs pd file (kw.set "file_type" (.str s))
      = read_dat fs pd file (kw.set "file_type" (.str "genfromtxt")) := by
  have hg : file_types.get? s = none := by
    rw [Dict.get?_eq_none_iff]
    exact hs
  unfold read_dat argVal
  rw [Dict.get?_set_self, Dict.get?_set_self, filter_set_same, filter_set_same]
  simp only [Option.getD_some, chooseReader, hg]
  rfl

/-- **C57**: a warning is issued exactly for unknown types, and it never names them. -/
theorem C57_warning (s : String) :
    ∃ r, chooseReader (.str s) = .ok (r,
      if s ∈ ["genfromtxt", "vindta", "orgalk_excel", "pclims", "tiamo_de"] then none
      else some "method 'genfromtxt' not recognised, trying 'genfromtxt'.") := by
  unfold chooseReader
  simp only
  split
  · rename_i r hr
    refine ⟨r, ?_⟩
    rw [if_pos]
    by_contra hcon
    have : file_types.get? s = none := (Dict.get?_eq_none_iff _ _).mpr hcon
    rw [this] at hr
    cases hr
  · rename_i hr
    refine ⟨.genfromtxt, ?_⟩
    rw [if_neg]
    exact (Dict.get?_eq_none_iff file_types s).mp hr

/-- **C57**: `vindta` is `genfromtxt` too. -/
theorem C57_vindta (fs : FS) (pd : Pandas) (file : String) (kw : Dict Val) :
    read_dat fs pd file (kw.set "file_type" (.str "vindta"))
      = read_dat fs pd file (kw.set "file_type" (.str "genfromtxt")) := by
  unfold read_dat argVal
  rw [Dict.get?_set_self, Dict.get?_set_self, filter_set_same, filter_set_same]
  rfl

/-! ## C58: Tiamo -/

/-- **C58**: without a line `Gran.1` the file is a `ValueError`. -/
theorem C58_no_gran (fs : FS) (pd : Pandas) (file : String) (text : List Char)
    (h : fs file = some text) (hg : "Gran.1".toList ∉ splitlines (universal text)) :
    read_tiamo_de fs pd file = .error .ValueError := by
  unfold read_tiamo_de read_tiamo_de_df readText pyIndexOf
  rw [h]
  simp only [bind_ok, if_neg hg, bind_error]

theorem tiamo_temperature (c : String) :
    "temperature" = tiamoRename c ↔ c = "Temperatur [°C]" ∨ c = "temperature" := by
  by_cases h : c ∈ tiamoNames.map (·.1)
  · revert h c
    decide
  · have hn : tiamoNames.get? c = none := (Dict.get?_eq_none_iff tiamoNames c).mpr h
    have h' : c ≠ "Temperatur [°C]" := fun e => h (e ▸ by decide)
    unfold tiamoRename
    rw [hn]
    exact ⟨fun e => .inr e.symm, fun e => e.elim (fun e => absurd e h') Eq.symm⟩

theorem tiamo_temperatures (cs : List String) : (cs.map tiamoRename).contains "temperature"
    = cs.any fun c => c == "Temperatur [°C]" || c == "temperature" := by
  induction cs with
  | nil => rfl
  | cons c cs ih =>
    rw [List.map_cons, List.contains_cons, List.any_cons, ih]
    congr 1
    rw [Bool.eq_iff_iff]
    simp only [beq_iff_eq, Bool.or_eq_true, tiamo_temperature]

/-- **C58**: every volume of the table that follows the first `Gran.1` is shifted by the number in
the third field three lines above it; pH and temperature are as in the table. -/
theorem C58_shift (fs : FS) (pd : Pandas) (file : String) (text : List Char)
    (h : fs file = some text) (pre : List (List Char)) (l a b : List Char) (rest : List (List Char))
    (hlines : splitlines (universal text) = pre ++ [l, a, b] ++ "Gran.1".toList :: rest)
    (hfirst : "Gran.1".toList ∉ pre ++ [l, a, b]) (s : List Char) (v0 : Flt)
    (hs : (splitC ';' l)[2]? = some s) (hv : parseFloat s = some v0)
    (vol pH temp : List Flt)
    (hcsv : pd.readCsv file (pre.length + 4)
      = .ok [("Volumen [mL]", vol), ("Messwert", pH), ("Temperatur [°C]", temp)]) :
    read_tiamo_de fs pd file = .ok
      { titrant_amount := vol.map (· + v0), measurement := pH, temperature := temp,
        temperature_int := (pd.csvInts file (pre.length + 4)).any fun c =>
          c == "Temperatur [°C]" || c == "temperature" } := by
  have hidx : pyIndexOf "Gran.1".toList (splitlines (universal text)) = .ok (pre.length + 3) := by
    unfold pyIndexOf
    rw [hlines, if_pos (by simp)]
    congr 1
    rw [List.idxOf_append_of_notMem hfirst, List.idxOf_cons_self]
    simp
  have hline : pyIndex (splitlines (universal text)) (((pre.length + 3 : ℕ) : ℤ) - 3) = .ok l := by
    unfold pyIndex
    rw [if_pos (by omega)]
    have : (((pre.length + 3 : ℕ) : ℤ) - 3).toNat = pre.length := by omega
    rw [this, hlines]
    have hg : (pre ++ [l, a, b] ++ "Gran.1".toList :: rest)[pre.length]? = some l := by
      simp
    rw [hg]
    simp only
    rw [if_pos (by omega)]
  have hfield : pyIndex (splitC ';' l) 2 = .ok s := by
    unfold pyIndex
    rw [if_pos (by norm_num)]
    have : ((2 : ℤ)).toNat = 2 := rfl
    rw [this, hs]
    simp only
    rw [if_pos (by omega)]
  have hfl : pyFloat s = .ok v0 := by unfold pyFloat; rw [hv]
  have hdf : read_tiamo_de_df fs pd file = .ok
      ([("volume", vol.map (· + v0)), ("pH", pH), ("temperature", temp)],
        ((pd.csvInts file (pre.length + 4)).map tiamoRename).contains "temperature") := by
    unfold read_tiamo_de_df readText
    rw [h]
    simp only [bind_ok, hidx, hline, hfield, hfl]
    rw [show pre.length + 3 + 1 = pre.length + 4 from rfl, hcsv]
    with_unfolding_all rfl
  unfold read_tiamo_de
  rw [hdf, tiamo_temperatures]
  with_unfolding_all rfl

/-- **C58**: if the first `Gran.1` is among the first three lines, there is no line three above it; the
number is then taken from a line at the end of the file, without an error. -/
theorem C58_wraps (fs : FS) (pd : Pandas) (file : String) (text : List Char)
    (h : fs file = some text) (pre rest : List (List Char)) (l : List Char)
    (hlines : splitlines (universal text) = pre ++ "Gran.1".toList :: rest)
    (hfirst : "Gran.1".toList ∉ pre) (hshort : pre.length < 3) (hlong : 3 ≤ pre.length + (pre.length + 1 + rest.length))
    (hl : (splitlines (universal text))[pre.length + (pre.length + 1 + rest.length) - 3]? = some l)
    (s : List Char) (v0 : Flt) (hs : (splitC ';' l)[2]? = some s) (hv : parseFloat s = some v0)
    (vol pH temp : List Flt)
    (hcsv : pd.readCsv file (pre.length + 1)
      = .ok [("Volumen [mL]", vol), ("Messwert", pH), ("Temperatur [°C]", temp)]) :
    read_tiamo_de fs pd file = .ok
      { titrant_amount := vol.map (· + v0), measurement := pH, temperature := temp,
        temperature_int := (pd.csvInts file (pre.length + 1)).any fun c =>
          c == "Temperatur [°C]" || c == "temperature" } := by
  have hlen : (splitlines (universal text)).length = pre.length + 1 + rest.length := by
    rw [hlines]; simp; omega
  have hidx : pyIndexOf "Gran.1".toList (splitlines (universal text)) = .ok pre.length := by
    unfold pyIndexOf
    rw [hlines, if_pos (by simp)]
    congr 1
    rw [List.idxOf_append_of_notMem hfirst, List.idxOf_cons_self]
    simp
  have hline : pyIndex (splitlines (universal text)) ((pre.length : ℤ) - 3) = .ok l := by
    unfold pyIndex
    rw [if_neg (by omega), hlen]
    have : ((pre.length : ℤ) - 3 + ((pre.length + 1 + rest.length : ℕ) : ℤ)).toNat
        = pre.length + (pre.length + 1 + rest.length) - 3 := by omega
    rw [this, hl]
    simp only
    rw [if_pos (by omega)]
  have hfield : pyIndex (splitC ';' l) 2 = .ok s := by
    unfold pyIndex
    rw [if_pos (by norm_num)]
    have : ((2 : ℤ)).toNat = 2 := rfl
    rw [this, hs]
    simp only
    rw [if_pos (by omega)]
  have hfl : pyFloat s = .ok v0 := by unfold pyFloat; rw [hv]
  have hdf : read_tiamo_de_df fs pd file = .ok
      ([("volume", vol.map (· + v0)), ("pH", pH), ("temperature", temp)],
        ((pd.csvInts file (pre.length + 1)).map tiamoRename).contains "temperature") := by
    unfold read_tiamo_de_df readText
    rw [h]
    simp only [bind_ok, hidx, hline, hfield, hfl]
    rw [hcsv]
    with_unfolding_all rfl
  unfold read_tiamo_de
  rw [hdf, tiamo_temperatures]
  with_unfolding_all rfl

/-! ## C74: Excel files -/

/-- **C74**: a file of type `orgalk_excel` can be read, but never solved or calibrated: the reader
returns a plain tuple, which has no `titrant_amount`. -/
theorem C74_orgalk (fs : FS) (pd : Pandas) (w : World) (hw : w.readDat = readDatFrom fs pd)
    (file : String) (c S : Flt) (kw : Dict Val)
    (hk : kw.get? "file_type" = some (.str "orgalk_excel")) :
    (∃ e, files_solve w file c S kw = .error e) ∧ (∃ e, files_calibrate w file c S kw = .error e) := by
  have hread : ∀ f, ∃ e, w.readDat f (get_kwargs_for keys_read_dat kw none) = .error e := by
    intro f
    rw [hw, get_kwargs_none]
    unfold readDatFrom read_dat argVal
    rw [Dict.get?_filter (fun k => keys_read_dat.contains k), if_pos (by decide), hk]
    have hc : chooseReader ((some (Val.str "orgalk_excel")).getD (.str "genfromtxt"))
        = .ok (.orgalk_excel, none) := by with_unfolding_all rfl
    rw [hc]
    simp only [bind_ok]
    unfold callReader
    generalize acceptOnly [] _ = x
    cases x with
    | error e => exact ⟨e, rfl⟩
    | ok u =>
      cases h : read_dat_orgalk_excel pd f with
      | error e => exact ⟨e, rfl⟩
      | ok t => exact ⟨.AttributeError "titrant_amount", rfl⟩
  have hload : ∃ e, load w file S kw = .error e := by
    unfold load
    cases hf : full_name file kw with
    | error e => exact ⟨e, rfl⟩
    | ok f =>
      obtain ⟨e, he⟩ := hread f
      refine ⟨e, ?_⟩
      simp only [bind_ok, he, bind_error]
  obtain ⟨e, he⟩ := hload
  constructor
  · unfold files_solve
    simp only [he, bind_error]
    exact ⟨_, rfl⟩
  · unfold files_calibrate
    simp only [he, bind_error]
    exact ⟨_, rfl⟩

theorem colAttr_ok {d : Dict (List Flt)} {c : String} {xs : List Flt} :
    colAttr d c = .ok xs ↔ d.get? c = some xs := by
  unfold colAttr
  cases d.get? c <;> simp

/-- What it reads: acid, base, EMF and temperature, in this order, each from the column of that name. -/
theorem C74_reads (fs : FS) (pd : Pandas) (file : String) (t : List (List Flt)) :
    read_dat fs pd file [("file_type", .str "orgalk_excel")] = .ok (.tuple t) ↔
      ∃ d acid base emf temp, pd.readExcel file = .ok d ∧ d.get? "acid" = some acid ∧
        d.get? "base" = some base ∧ d.get? "emf" = some emf ∧ d.get? "temperature" = some temp ∧
        t = [acid, base, emf, temp] := by
  have h : read_dat fs pd file [("file_type", .str "orgalk_excel")]
      = (read_dat_orgalk_excel pd file).bind fun t => .ok (.tuple t) := by with_unfolding_all rfl
  rw [h]
  unfold read_dat_orgalk_excel
  constructor
  · intro hr
    cases hd : pd.readExcel file with
    | error e => simp only [hd, bind_error] at hr; cases hr
    | ok d =>
      cases h1 : colAttr d "acid" with
      | error e => simp only [hd, h1, bind_ok, bind_error] at hr; cases hr
      | ok a =>
      cases h2 : colAttr d "base" with
      | error e => simp only [hd, h1, h2, bind_ok, bind_error] at hr; cases hr
      | ok b =>
      cases h3 : colAttr d "emf" with
      | error e => simp only [hd, h1, h2, h3, bind_ok, bind_error] at hr; cases hr
      | ok m =>
      cases h4 : colAttr d "temperature" with
      | error e => simp only [hd, h1, h2, h3, h4, bind_ok, bind_error] at hr; cases hr
      | ok x =>
        simp only [hd, h1, h2, h3, h4, bind_ok] at hr
        cases hr
        exact ⟨d, a, b, m, x, rfl, colAttr_ok.mp h1, colAttr_ok.mp h2, colAttr_ok.mp h3, colAttr_ok.mp h4, rfl⟩
  · rintro ⟨d, a, b, m, x, hd, h1, h2, h3, h4, rfl⟩
    simp only [hd, colAttr_ok.mpr h1, colAttr_ok.mpr h2, colAttr_ok.mpr h3, colAttr_ok.mpr h4, bind_ok]
    rfl

/-- the Excel reader itself does work -/
example : ∃ t, read_dat (fun _ => none) ⟨fun _ _ => .error .ValueError, fun _ _ => [], fun _ => .ok
      [("acid", [fin 0]), ("base", [fin 0]), ("emf", [fin 400]), ("temperature", [fin 25])]⟩ "a.xlsx"
    [("file_type", .str "orgalk_excel")] = .ok (.tuple t) :=
  ⟨[[fin 0], [fin 0], [fin 400], [fin 25]], by with_unfolding_all rfl⟩

/-- a Tiamo file -/
noncomputable def tiamoFS : FS := fun _ => some "Titrator\nx;y;1.5\na\nb\nGran.1\nhead\n".toList

/-- its table; the temperatures are written without decimals -/
noncomputable def tiamoTable : Pandas where
  readCsv _ n := if n = 5 then .ok [("Volumen [mL]", [fin 0, fin 0.25]), ("Messwert", [fin 7, fin 6.5]),
      ("Temperatur [°C]", [fin 25, fin 25])] else .error .ValueError
  csvInts _ n := if n = 5 then ["Temperatur [°C]"] else []
  readExcel _ := .error .ValueError

theorem parse_1_5 : parseFloat "1.5".toList = some (fin 1.5) := by
  have := parse_fmtF 1 (fin 1.5)
  have hr : roundHalfEven (|1.5| * 10 ^ 1) = 15 := by
    rw [show |(1.5 : ℝ)| * 10 ^ 1 = ((15 : ℕ) : ℝ) by rw [abs_of_pos (by norm_num)]; norm_num]
    exact roundHalfEven_nat 15
  simp only [fmtF, roundedTo, hr] at this
  rw [if_neg (by norm_num), if_neg (by norm_num)] at this
  have hc : ([] ++ fixedChars 1 15 : List Char) = "1.5".toList := by
    unfold fixedChars
    rw [natChars]
    decide
  rw [hc] at this
  rw [this]
  norm_num

/-- a Tiamo file as in C58 -/
theorem tiamo_read : read_tiamo_de tiamoFS tiamoTable "f"
    = .ok ⟨[fin 0, fin 0.25].map (· + fin 1.5), [fin 7, fin 6.5], [fin 25, fin 25], true⟩ := by
  have hp := parse_1_5
  refine C58_shift _ _ _ _ rfl ["Titrator".toList] "x;y;1.5".toList "a".toList "b".toList
    ["head".toList] (by decide) (by decide) "1.5".toList (fin 1.5) (by decide) hp _ _ _ rfl

/-- a file whose first line is `Gran.1`: the volume to start from comes from its second line -/
example : read_tiamo_de (fun f => if f = "g" then some "Gran.1\nx;y;1.5\na\nb".toList else none)
      { readCsv := fun _ n => if n = 1 then .ok [("Volumen [mL]", [fin 0]), ("Messwert", [fin 7]),
          ("Temperatur [°C]", [fin 25])] else .error .ValueError,
        csvInts := fun _ _ => [], readExcel := fun _ => .error .ValueError } "g"
    = .ok ⟨[fin 0].map (· + fin 1.5), [fin 7], [fin 25], false⟩ :=
  C58_wraps _ _ _ _ rfl [] ["x;y;1.5".toList, "a".toList, "b".toList] "x;y;1.5".toList (by decide)
    (by decide) (by decide) (by decide) (by decide) "1.5".toList (fin 1.5) (by decide) parse_1_5 _ _ _ rfl

end Calk
