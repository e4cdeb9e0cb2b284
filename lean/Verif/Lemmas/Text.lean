import Verif.Text
import Mathlib.Algebra.Order.Floor.Semiring
import Mathlib.Tactic.Linarith
import Mathlib.Tactic.NormNum
import Mathlib.Tactic.Ring
import Mathlib.Tactic.IntervalCases

/-! # Facts about text -/

namespace Calk

/-! ## Splitting -/

theorem splitC_ne_nil (c : Char) (s : List Char) : splitC c s ≠ [] := by
  cases s with
  | nil => simp [splitC]
  | cons x s =>
    unfold splitC
    split
    · simp
    · split <;> simp

theorem splitC_none {c : Char} {s : List Char} (h : c ∉ s) : splitC c s = [s] := by
  induction s with
  | nil => rfl
  | cons x s ih =>
    rw [List.mem_cons, not_or] at h
    unfold splitC
    rw [if_neg (fun e => h.1 e.symm), ih h.2]

theorem splitC_append {c : Char} {a b : List Char} (h : c ∉ a) :
    splitC c (a ++ c :: b) = a :: splitC c b := by
  induction a with
  | nil => simp [splitC]
  | cons x a ih =>
    rw [List.mem_cons, not_or] at h
    rw [List.cons_append]
    conv_lhs => unfold splitC
    rw [if_neg (fun e => h.1 e.symm), ih h.2]

theorem mem_splitC {c : Char} {s : List Char} : ∀ p ∈ splitC c s, c ∉ p := by
  induction s with
  | nil => simp [splitC]
  | cons x s ih =>
    unfold splitC
    split
    · intro p hp
      rcases List.mem_cons.mp hp with rfl | hp
      · simp
      · exact ih p hp
    · rename_i hx
      split
      · intro p hp
        rw [List.mem_singleton.mp hp, List.mem_singleton]
        exact fun h => hx h.symm
      · rename_i q qs hq
        intro p hp
        rcases List.mem_cons.mp hp with rfl | hp
        · rw [List.mem_cons, not_or]
          exact ⟨fun h => hx h.symm, ih q (by rw [hq]; simp)⟩
        · exact ih p (by rw [hq]; simp [hp])

theorem splitC_lines (ls : List (List Char)) (h : ∀ l ∈ ls, '\n' ∉ l) :
    splitC '\n' (ls.map (· ++ ['\n'])).flatten = ls ++ [[]] := by
  induction ls with
  | nil => rfl
  | cons l ls ih =>
    rw [List.map_cons, List.flatten_cons, List.append_assoc, List.singleton_append,
      splitC_append (h l (by simp)), ih (fun l' hl' => h l' (by simp [hl']))]
    rfl

theorem fileLines_lines (ls : List (List Char)) (h : ∀ l ∈ ls, '\n' ∉ l) :
    fileLines (ls.map (· ++ ['\n'])).flatten = ls := by
  unfold fileLines dropLastEmpty
  rw [splitC_lines ls h]
  simp

theorem universal_id {s : List Char} (h : '\r' ∉ s) : universal s = s := by
  induction s with
  | nil => rfl
  | cons c s ih =>
    rw [List.mem_cons, not_or] at h
    have hc : c ≠ '\r' := fun e => h.1 e.symm
    rw [universal]
    · rw [ih h.2]
    · intro s' e; exact absurd e hc
    · intro e; exact absurd e hc

theorem dropWhile_of_head {p : Char → Bool} {s : List Char} (h : ∀ c ∈ s, p c = false) :
    s.dropWhile p = s := by
  cases s with
  | nil => rfl
  | cons c s => simp [List.dropWhile, h c (by simp)]

theorem stripBy_id {p : Char → Bool} {s : List Char} (h : ∀ c ∈ s, p c = false) :
    stripBy p s = s := by
  unfold stripBy
  rw [dropWhile_of_head h, dropWhile_of_head (fun c hc => h c (List.mem_reverse.mp hc)),
    List.reverse_reverse]

/-! ## Digits -/

theorem isDigit_digitChar : ∀ d < 10, isDigit (digitChar d) = true := by decide
theorem digitVal_digitChar : ∀ d < 10, digitVal (digitChar d) = d := by decide

theorem digitsVal_append (s : List Char) (c : Char) :
    digitsVal (s ++ [c]) = 10 * digitsVal s + digitVal c := by
  simp [digitsVal]

theorem natChars_val (n : ℕ) : digitsVal (natChars n) = n := by
  induction n using Nat.strong_induction_on with
  | _ n ih =>
    rw [natChars]
    split
    · rename_i h
      simp [digitsVal, digitVal_digitChar n h]
    · rename_i h
      rw [digitsVal_append, ih (n / 10) (by omega), digitVal_digitChar _ (Nat.mod_lt _ (by norm_num))]
      omega

theorem natChars_digits (n : ℕ) : ∀ c ∈ natChars n, isDigit c = true := by
  induction n using Nat.strong_induction_on with
  | _ n ih =>
    rw [natChars]
    split
    · rename_i h
      intro c hc
      rw [List.mem_singleton.mp hc]
      exact isDigit_digitChar n h
    · rename_i h
      intro c hc
      rcases List.mem_append.mp hc with hc | hc
      · exact ih (n / 10) (by omega) c hc
      · rw [List.mem_singleton.mp hc]
        exact isDigit_digitChar _ (Nat.mod_lt _ (by norm_num))

theorem natChars_ne_nil (n : ℕ) : natChars n ≠ [] := by
  rw [natChars]; split <;> simp

theorem padChars_val (k n : ℕ) : digitsVal (padChars k n) = n % 10 ^ k := by
  induction k generalizing n with
  | zero => simp [padChars, digitsVal, Nat.mod_one]
  | succ k ih =>
    rw [padChars, digitsVal_append, ih, digitVal_digitChar _ (Nat.mod_lt _ (by norm_num)), pow_succ,
      mul_comm (10 ^ k) 10, Nat.mod_mul]
    omega

theorem padChars_length (k n : ℕ) : (padChars k n).length = k := by
  induction k generalizing n with
  | zero => rfl
  | succ k ih => simp [padChars, ih]

theorem padChars_digits (k n : ℕ) : ∀ c ∈ padChars k n, isDigit c = true := by
  induction k generalizing n with
  | zero => simp [padChars]
  | succ k ih =>
    intro c hc
    rcases List.mem_append.mp hc with hc | hc
    · exact ih _ c hc
    · rw [List.mem_singleton.mp hc]
      exact isDigit_digitChar _ (Nat.mod_lt _ (by norm_num))

theorem takeDigits_append {a b : List Char} (ha : ∀ c ∈ a, isDigit c = true)
    (hb : ∀ c, b.head? = some c → isDigit c = false) : takeDigits (a ++ b) = (a, b) := by
  unfold takeDigits
  induction a with
  | nil =>
    cases b with
    | nil => rfl
    | cons c b => simp [List.takeWhile, List.dropWhile, hb c rfl]
  | cons c a ih =>
    have := ih fun c hc => ha c (by simp [hc])
    simp only [Prod.mk.injEq] at this
    simp [List.takeWhile, List.dropWhile, ha c (by simp), this.1, this.2]

/-! ## Numbers -/

theorem parse_fixed (k q : ℕ) : parseUnsigned (fixedChars k q) = some (q / (10 : ℝ) ^ k) := by
  unfold fixedChars parseUnsigned
  have hq : (q : ℝ) = ((q / 10 ^ k : ℕ) : ℝ) * 10 ^ k + ((q % 10 ^ k : ℕ) : ℝ) := by
    have := Nat.div_add_mod q (10 ^ k)
    rw [mul_comm] at this
    exact_mod_cast this.symm
  have hk : (10 : ℝ) ^ k ≠ 0 := by positivity
  by_cases h0 : k = 0
  · subst h0
    rw [if_pos rfl, takeDigits_append (natChars_digits _) (by simp)]
    simp only [takeFraction, List.isEmpty_eq_false_iff.mpr (natChars_ne_nil _), Bool.false_and,
      Bool.false_eq_true, if_false, exponent, Option.map_some]
    rw [natChars_val]
    simp [digitsVal]
  · rw [if_neg h0, takeDigits_append (natChars_digits _) (by
      intro c hc; simp only [List.head?_cons, Option.some.injEq] at hc; subst hc; decide)]
    have : takeDigits (padChars k q) = (padChars k q, []) := by
      have := takeDigits_append (b := []) (padChars_digits k q) (by simp)
      rwa [List.append_nil] at this
    simp only [takeFraction, this, List.isEmpty_eq_false_iff.mpr (natChars_ne_nil _),
      Bool.false_and, Bool.false_eq_true, if_false, exponent, Option.map_some]
    rw [natChars_val, padChars_val, padChars_length]
    congr 1
    field_simp
    linarith

theorem fixed_chars (k q : ℕ) : ∀ c ∈ fixedChars k q, isDigit c = true ∨ c = '.' := by
  intro c hc
  unfold fixedChars at hc
  rcases List.mem_append.mp hc with hc | hc
  · exact .inl (natChars_digits _ c hc)
  · split at hc
    · cases hc
    · rcases List.mem_cons.mp hc with rfl | hc
      · exact .inr rfl
      · exact .inl (padChars_digits _ _ c hc)

theorem fixed_head (k q : ℕ) : ∃ c t, fixedChars k q = c :: t ∧ isDigit c = true := by
  unfold fixedChars
  obtain ⟨c, t, h⟩ := List.exists_cons_of_ne_nil (natChars_ne_nil (q / 10 ^ k))
  refine ⟨c, t ++ _, by rw [h]; rfl, natChars_digits (q / 10 ^ k) c (by rw [h]; simp)⟩

/-- characters of formatted numbers -/
def numChar (c : Char) : Bool := isDigit c || ['.', '-', 'n', 'a', 'i', 'f'].contains c

theorem numChar_of {c : Char} (h : isDigit c = true ∨ c = '.') : numChar c = true := by
  unfold numChar
  rcases h with h | rfl
  · simp [h]
  · decide

theorem fmtF_chars (k : ℕ) (x : Flt) : ∀ c ∈ fmtF k x, numChar c = true := by
  cases x with
  | nan => show ∀ c ∈ "nan".toList, numChar c = true; decide
  | pinf => show ∀ c ∈ "inf".toList, numChar c = true; decide
  | ninf => show ∀ c ∈ "-inf".toList, numChar c = true; decide
  | fin x =>
    intro c hc
    simp only [fmtF] at hc
    rcases List.mem_append.mp hc with hc | hc
    · split at hc
      · rw [List.mem_singleton.mp hc]; decide
      · cases hc
    · exact numChar_of (fixed_chars _ _ c hc)

theorem fmtF_ne_nil (k : ℕ) (x : Flt) : fmtF k x ≠ [] := by
  cases x with
  | nan => simp [fmtF]
  | pinf => simp [fmtF]
  | ninf => simp [fmtF]
  | fin x =>
    obtain ⟨c, t, h, _⟩ := fixed_head k (roundHalfEven (|x| * 10 ^ k))
    simp [fmtF, h]

theorem digit_range {c : Char} (h : isDigit c = true) : 48 ≤ c.toNat ∧ c.toNat ≤ 57 := by
  unfold isDigit at h
  simp only [Bool.and_eq_true, decide_eq_true_eq] at h
  exact ⟨h.1, h.2⟩

theorem numChar_ne {c d : Char} (h : numChar c = true)
    (hd : d.toNat < 45 ∧ d.toNat ≠ 0 := by decide) : c ≠ d := by
  rintro rfl
  unfold numChar at h
  rw [Bool.or_eq_true] at h
  rcases h with h | h
  · have := digit_range h; omega
  · simp only [List.contains_cons, List.contains_nil, Bool.or_false, Bool.or_eq_true, beq_iff_eq] at h
    rcases h with rfl | rfl | rfl | rfl | rfl | rfl <;> revert hd <;> decide

/-- the decimal number that is written for a value -/
noncomputable def roundedTo (k : ℕ) : Flt → Flt
  | .fin x => .fin ((if x < 0 then -1 else 1) * (roundHalfEven (|x| * 10 ^ k) / 10 ^ k))
  | x => x

theorem not_word {c : Char} {t : List Char} (h : isDigit c = true ∨ c = '.') :
    (c :: t).map Char.toLower ≠ "nan".toList ∧ (c :: t).map Char.toLower ≠ "inf".toList ∧
      (c :: t).map Char.toLower ≠ "infinity".toList := by
  have hl : c.toLower = c := by
    rcases h with h | rfl
    · have := digit_range h
      unfold Char.toLower
      rw [dif_neg]
      rintro ⟨h1, h2⟩
      have h1' : 65 ≤ c.toNat := h1
      omega
    · decide
  have hn : c ≠ 'n' ∧ c ≠ 'i' := by
    rcases h with h | rfl
    · have := digit_range h
      constructor <;> rintro rfl <;> revert this <;> decide
    · decide
  rw [List.map_cons, hl]
  refine ⟨fun e => ?_, fun e => ?_, fun e => ?_⟩
  · exact hn.1 (List.cons.inj e).1
  · exact hn.2 (List.cons.inj e).1
  · exact hn.2 (List.cons.inj e).1

theorem parse_fmtF (k : ℕ) (x : Flt) : parseFloat (fmtF k x) = some (roundedTo k x) := by
  have hws : stripBy isWs (fmtF k x) = fmtF k x := stripBy_id fun c hc => by
    have h := fmtF_chars k x c hc
    unfold isWs
    simp only [Bool.or_eq_false_iff, beq_eq_false_iff_ne]
    refine ⟨⟨⟨⟨⟨?_, ?_⟩, ?_⟩, ?_⟩, ?_⟩, ?_⟩ <;> exact numChar_ne h
  unfold parseFloat
  rw [hws]
  cases x with
  | nan => rfl
  | pinf =>
    simp only [fmtF, takeSign]
    rfl
  | ninf =>
    simp only [fmtF, takeSign]
    rfl
  | fin x =>
    obtain ⟨c, t, h, hc⟩ := fixed_head k (roundHalfEven (|x| * 10 ^ k))
    have hp := parse_fixed k (roundHalfEven (|x| * 10 ^ k))
    have hs : takeSign (fmtF k (.fin x))
        = (decide (x < 0), fixedChars k (roundHalfEven (|x| * 10 ^ k))) := by
      simp only [fmtF]
      by_cases hx : x < 0
      · rw [if_pos hx]
        simp [takeSign, hx]
      · rw [if_neg hx, h, List.nil_append]
        have h1 := digit_range hc
        have : c ≠ '-' ∧ c ≠ '+' := by
          constructor <;> rintro rfl <;> revert h1 <;> decide
        unfold takeSign
        split
        · rename_i e; exact absurd (List.cons.inj e).1 this.1
        · rename_i e; exact absurd (List.cons.inj e).1 this.2
        · simp [hx]
    rw [hs]
    simp only
    obtain ⟨h1, h2, h3⟩ := not_word (t := t) (.inl hc)
    rw [h] at hp ⊢
    rw [if_neg h1, if_neg (not_or.mpr ⟨h2, h3⟩), hp]
    simp only [Option.map_some, roundedTo, negIf]
    by_cases hx : x < 0
    · simp [hx]
    · simp [hx]

/-! ## Rounding -/

theorem roundHalfEven_close {x : ℝ} (h : 0 ≤ x) : |x - roundHalfEven x| ≤ 1 / 2 := by
  have h1 := Nat.floor_le h
  have h2 := Nat.lt_floor_add_one x
  unfold roundHalfEven
  simp only
  split_ifs with ha hb hc
  · rw [abs_le]; constructor <;> linarith
  · push_cast; rw [abs_le]; constructor <;> linarith
  · rw [abs_le]; constructor <;> linarith
  · push_cast; rw [abs_le]; constructor <;> linarith

/-- what is exactly between two numbers goes to the even one -/
theorem roundHalfEven_even {x : ℝ} (h : 0 ≤ x) (hx : |x - roundHalfEven x| = 1 / 2) : Even (roundHalfEven x) := by
  have h1 := Nat.floor_le h
  have h2 := Nat.lt_floor_add_one x
  unfold roundHalfEven at hx ⊢
  simp only at hx ⊢
  split_ifs at hx ⊢ with ha hb hc
  · rw [abs_of_nonneg (by linarith)] at hx; linarith
  · push_cast at hx; rw [abs_of_nonpos (by linarith)] at hx; linarith
  · exact Nat.even_iff.mpr hc
  · exact Nat.even_iff.mpr (by omega)

/-- a tie goes to the even neighbour -/
theorem roundHalfEven_tie (n : ℕ) : roundHalfEven (n + 1 / 2) = if n % 2 = 0 then n else n + 1 := by
  have hf : ⌊(n : ℝ) + 1 / 2⌋₊ = n := by
    rw [Nat.floor_eq_iff (by positivity)]
    constructor <;> linarith
  unfold roundHalfEven
  simp only [hf]
  rw [if_neg (by linarith), if_neg (by linarith)]

theorem roundHalfEven_nat (n : ℕ) : roundHalfEven n = n := by
  unfold roundHalfEven
  simp

end Calk
