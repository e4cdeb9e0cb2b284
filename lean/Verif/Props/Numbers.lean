import Verif.Props.ReadTypes
import Mathlib.Data.Nat.Digits.Defs

/-! # C137: which texts are numbers -/

namespace Calk

open Flt

/-! ## Specification -/

/-- a text made of the decimal digits `ds` -/
def Spec.Digits (s : List Char) (ds : List ℕ) : Prop :=
  (∀ d ∈ ds, d < 10) ∧ s = ds.map fun d => Char.ofNat (48 + d)

/-- an exponent part and the power of ten it stands for -/
inductive Spec.Exponent : List Char → ℤ → Prop where
  | none : Spec.Exponent [] 0
  | plain (e : Char) (s : List Char) (ds : List ℕ) : e ∈ ['e', 'E'] → Spec.Digits s ds → ds ≠ [] →
      Spec.Exponent (e :: s) (Nat.ofDigits 10 ds.reverse : ℕ)
  | plus (e : Char) (s : List Char) (ds : List ℕ) : e ∈ ['e', 'E'] → Spec.Digits s ds → ds ≠ [] →
      Spec.Exponent (e :: '+' :: s) (Nat.ofDigits 10 ds.reverse : ℕ)
  | minus (e : Char) (s : List Char) (ds : List ℕ) : e ∈ ['e', 'E'] → Spec.Digits s ds → ds ≠ [] →
      Spec.Exponent (e :: '-' :: s) (-(Nat.ofDigits 10 ds.reverse : ℕ))

/-- a number without sign and its value -/
inductive Spec.Unsigned : List Char → Flt → Prop where
  /-- `12`, `12e3` -/
  | whole (s t : List Char) (ds : List ℕ) (k : ℤ) : Spec.Digits s ds → ds ≠ [] → Spec.Exponent t k →
      Spec.Unsigned (s ++ t) (fin ((Nat.ofDigits 10 ds.reverse : ℕ) * (10 : ℝ) ^ k))
  /-- `12.5`, `12.`, `.5`, `12.5e-3`: the digits after the point count as powers of one tenth -/
  | point (s f t : List Char) (ds fs : List ℕ) (k : ℤ) : Spec.Digits s ds → Spec.Digits f fs →
      ds ++ fs ≠ [] → Spec.Exponent t k →
      Spec.Unsigned (s ++ '.' :: (f ++ t))
        (fin ((Nat.ofDigits 10 (ds ++ fs).reverse : ℕ) * (10 : ℝ) ^ (k - fs.length)))
  /-- `nan`, in any case -/
  | nan (s : List Char) : s.map Char.toLower = ['n', 'a', 'n'] → Spec.Unsigned s nan
  /-- `inf`, in any case -/
  | inf (s : List Char) : s.map Char.toLower = ['i', 'n', 'f'] → Spec.Unsigned s pinf
  /-- `infinity`, in any case -/
  | infinity (s : List Char) : s.map Char.toLower = ['i', 'n', 'f', 'i', 'n', 'i', 't', 'y'] →
      Spec.Unsigned s pinf

/-- a number with an optional sign -/
inductive Spec.Signed : List Char → Flt → Prop where
  | plain (s : List Char) (x : Flt) : Spec.Unsigned s x → Spec.Signed s x
  | plus (s : List Char) (x : Flt) : Spec.Unsigned s x → Spec.Signed ('+' :: s) x
  | minus (s : List Char) (x : Flt) : Spec.Unsigned s x → Spec.Signed ('-' :: s) (-x)

/-- a text that stands for a number: white space around it does not matter -/
def Spec.IsNumber (s : List Char) (x : Flt) : Prop :=
  ∃ a t b, s = a ++ t ++ b ∧
    (∀ c ∈ a ++ b, c ∈ [' ', '\t', '\n', '\r', '\x0b', '\x0c']) ∧ Spec.Signed t x

/-! ## Digits -/

theorem isDigit_iff (c : Char) : isDigit c = true ↔ ∃ d < 10, c = Char.ofNat (48 + d) := by
  constructor
  · intro h
    have := digit_range h
    refine ⟨c.toNat - 48, by omega, ?_⟩
    rw [show 48 + (c.toNat - 48) = c.toNat by omega, Char.ofNat_toNat]
  · rintro ⟨d, hd, rfl⟩
    exact isDigit_digitChar d hd

theorem digits_iff (s : List Char) : (∀ c ∈ s, isDigit c = true) ↔ ∃ ds, Spec.Digits s ds := by
  constructor
  · intro h
    induction s with
    | nil => exact ⟨[], by simp, rfl⟩
    | cons c s ih =>
      obtain ⟨ds, h1, h2⟩ := ih fun c hc => h c (List.mem_cons_of_mem _ hc)
      obtain ⟨d, hd, he⟩ := (isDigit_iff c).mp (h c List.mem_cons_self)
      refine ⟨d :: ds, ?_, by rw [List.map_cons, ← he, ← h2]⟩
      intro x hx
      rcases List.mem_cons.mp hx with rfl | hx
      · exact hd
      · exact h1 x hx
  · rintro ⟨ds, h1, rfl⟩ c hc
    obtain ⟨d, hd, rfl⟩ := List.mem_map.mp hc
    exact isDigit_digitChar d (h1 d hd)

theorem Spec.Digits.isDigit {s : List Char} {ds : List ℕ} (h : Spec.Digits s ds) :
    ∀ c ∈ s, isDigit c = true := (digits_iff s).mpr ⟨ds, h⟩

theorem Spec.Digits.nil_iff {s : List Char} {ds : List ℕ} (h : Spec.Digits s ds) : s = [] ↔ ds = [] := by
  rw [h.2, List.map_eq_nil_iff]

theorem Spec.Digits.append {s t : List Char} {ds fs : List ℕ} (h : Spec.Digits s ds) (h' : Spec.Digits t fs) :
    Spec.Digits (s ++ t) (ds ++ fs) :=
  ⟨fun d hd => (List.mem_append.mp hd).elim (h.1 d) (h'.1 d), by rw [h.2, h'.2, List.map_append]⟩

theorem foldl_digits (ds : List ℕ) (h : ∀ d ∈ ds, d < 10) (n : ℕ) :
    (ds.map fun d => Char.ofNat (48 + d)).foldl (fun n c => 10 * n + digitVal c) n
      = n * 10 ^ ds.length + Nat.ofDigits 10 ds.reverse := by
  induction ds generalizing n with
  | nil => simp
  | cons d ds ih =>
    rw [List.map_cons, List.foldl_cons, ih fun x hx => h x (List.mem_cons_of_mem _ hx)]
    have : digitVal (Char.ofNat (48 + d)) = d := digitVal_digitChar d (h d List.mem_cons_self)
    rw [this, List.reverse_cons, Nat.ofDigits_append, Nat.ofDigits_singleton, List.length_reverse,
      List.length_cons]
    ring

theorem Spec.Digits.val {s : List Char} {ds : List ℕ} (h : Spec.Digits s ds) :
    digitsVal s = Nat.ofDigits 10 ds.reverse := by
  unfold digitsVal
  rw [h.2, foldl_digits ds h.1]
  simp

/-! ## Parts -/

theorem exponent_iff (s : List Char) (e : ℝ) :
    exponent s = some e ↔ ∃ k, Spec.Exponent s k ∧ e = (10 : ℝ) ^ k := by
  constructor
  · intro h
    cases s with
    | nil =>
      unfold exponent at h
      exact ⟨0, .none, by rw [zpow_zero]; exact (Option.some.inj h).symm⟩
    | cons c s =>
      unfold exponent at h
      dsimp only at h
      split at h
      · rename_i hc
        have hc' : c ∈ ['e', 'E'] := by simpa using hc
        obtain ⟨neg, r, hr⟩ : ∃ neg r, takeSign s = (neg, r) := ⟨_, _, rfl⟩
        rw [hr] at h
        simp only at h
        split at h
        · cases h
        rename_i hb
        rw [Bool.not_eq_true, Bool.or_eq_false_iff, Bool.not_eq_false', List.all_eq_true] at hb
        obtain ⟨ds, hds⟩ := (digits_iff r).mp hb.2
        have hne : ds ≠ [] := fun h0 => by
          rw [hds.nil_iff.mpr h0] at hb
          cases hb.1
        rw [hds.val] at h
        unfold takeSign at hr
        split at hr
        · obtain ⟨rfl, rfl⟩ := Prod.mk.inj hr
          exact ⟨_, .minus c _ ds hc' hds hne, by
            rw [if_pos rfl] at h
            rw [zpow_neg, zpow_natCast]; exact (Option.some.inj h).symm⟩
        · obtain ⟨rfl, rfl⟩ := Prod.mk.inj hr
          exact ⟨_, .plus c _ ds hc' hds hne, by
            rw [if_neg (by simp)] at h
            rw [zpow_natCast]; exact (Option.some.inj h).symm⟩
        · obtain ⟨rfl, rfl⟩ := Prod.mk.inj hr
          exact ⟨_, .plain c _ ds hc' hds hne, by
            rw [if_neg (by simp)] at h
            rw [zpow_natCast]; exact (Option.some.inj h).symm⟩
      · cases h
  · rintro ⟨k, h, rfl⟩
    have key : ∀ (s : List Char) (ds : List ℕ), Spec.Digits s ds → ds ≠ [] →
        (s.isEmpty || !s.all isDigit) = false := by
      intro s ds h hne
      rw [Bool.or_eq_false_iff, Bool.not_eq_false', List.all_eq_true]
      exact ⟨List.isEmpty_eq_false_iff.mpr fun h0 => hne (h.nil_iff.mp h0), h.isDigit⟩
    cases h with
    | none => rw [zpow_zero]; rfl
    | plain e s ds he hd hne =>
      unfold exponent
      dsimp only
      rw [if_pos (by simpa using he)]
      have hs : takeSign s = (false, s) := by
        unfold takeSign
        split
        · exact absurd (hd.isDigit '-' (by simp)) (by decide)
        · exact absurd (hd.isDigit '+' (by simp)) (by decide)
        · rfl
      rw [hs]
      simp only [key s ds hd hne, Bool.false_eq_true, if_false, hd.val, zpow_natCast]
    | plus e s ds he hd hne =>
      unfold exponent
      dsimp only
      rw [if_pos (by simpa using he)]
      simp only [takeSign, key s ds hd hne, Bool.false_eq_true, if_false, hd.val, zpow_natCast]
    | minus e s ds he hd hne =>
      unfold exponent
      dsimp only
      rw [if_pos (by simpa using he)]
      simp only [takeSign, key s ds hd hne, Bool.false_eq_true, if_false, hd.val, zpow_neg, zpow_natCast,
        if_true]

theorem exponent_head {t : List Char} {k : ℤ} (h : Spec.Exponent t k) :
    ∀ c, t.head? = some c → isDigit c = false ∧ c ≠ '.' := by
  have key : ∀ e ∈ ['e', 'E'], isDigit e = false ∧ e ≠ '.' := by decide
  intro c hc
  cases h with
  | none => cases hc
  | plain e s ds he => exact key c (by simp at hc; exact hc ▸ he)
  | plus e s ds he => exact key c (by simp at hc; exact hc ▸ he)
  | minus e s ds he => exact key c (by simp at hc; exact hc ▸ he)

theorem takeDigits_spec (s : List Char) : ∃ a b, takeDigits s = (a, b) ∧ s = a ++ b ∧
    (∀ c ∈ a, isDigit c = true) :=
  ⟨_, _, rfl, (List.takeWhile_append_dropWhile).symm, fun c hc => by
    induction s with
    | nil => cases hc
    | cons x s ih =>
      rw [List.takeWhile_cons] at hc
      split at hc
      · rename_i hx
        rcases List.mem_cons.mp hc with rfl | hc
        · exact hx
        · exact ih hc
      · cases hc⟩

/-- the value of the digits before and after the point -/
theorem point_val (ds fs : List ℕ) (k : ℤ) :
    ((Nat.ofDigits 10 ds.reverse : ℕ) + (Nat.ofDigits 10 fs.reverse : ℕ) / (10 : ℝ) ^ fs.length) * (10 : ℝ) ^ k
      = (Nat.ofDigits 10 (ds ++ fs).reverse : ℕ) * (10 : ℝ) ^ (k - fs.length) := by
  rw [List.reverse_append, Nat.ofDigits_append, List.length_reverse, zpow_sub₀ (by norm_num), zpow_natCast]
  push_cast
  field_simp
  ring

/-- the numbers proper -/
theorem parseUnsigned_iff (s : List Char) (x : ℝ) :
    parseUnsigned s = some x ↔ Spec.Unsigned s (fin x) := by
  constructor
  · intro h
    unfold parseUnsigned at h
    obtain ⟨ip, r, h1, rfl, hip⟩ := takeDigits_spec s
    rw [h1] at h
    simp only at h
    obtain ⟨ds, hds⟩ := (digits_iff ip).mp hip
    obtain ⟨fp, r', h2⟩ : ∃ fp r', takeFraction r = (fp, r') := ⟨_, _, rfl⟩
    rw [h2] at h
    simp only at h
    split at h
    · cases h
    rename_i hne
    obtain ⟨e, he, hx⟩ := Option.map_eq_some_iff.mp h
    obtain ⟨k, hk, rfl⟩ := (exponent_iff _ _).mp he
    unfold takeFraction at h2
    split at h2
    · rename_i r0
      obtain ⟨f, b, h3, rfl, hf⟩ := takeDigits_spec r0
      rw [h3] at h2
      obtain ⟨rfl, rfl⟩ := Prod.mk.inj h2
      obtain ⟨fs, hfs⟩ := (digits_iff f).mp hf
      have hl : f.length = fs.length := by rw [hfs.2, List.length_map]
      rw [hds.val, hfs.val, hl, point_val] at hx
      rw [← hx]
      refine .point ip f b ds fs k hds hfs (fun h0 => hne ?_) hk
      obtain ⟨rfl, rfl⟩ := List.append_eq_nil_iff.mp h0
      rw [hds.nil_iff.mpr rfl, hfs.nil_iff.mpr rfl]
      rfl
    · obtain ⟨rfl, rfl⟩ := Prod.mk.inj h2
      rw [hds.val] at hx
      have : x = (Nat.ofDigits 10 ds.reverse : ℕ) * (10 : ℝ) ^ k := by
        rw [← hx]; simp [digitsVal]
      rw [this]
      refine .whole ip r ds k hds (fun h0 => hne ?_) hk
      rw [hds.nil_iff.mpr h0]
      rfl
  · intro h
    generalize hx : fin x = X at h
    cases h with
    | whole s t ds k hd hne hk =>
      unfold parseUnsigned
      rw [takeDigits_append hd.isDigit fun c hc => (exponent_head hk c hc).1]
      have ht : takeFraction t = ([], t) := by
        unfold takeFraction
        split
        · exact absurd rfl (exponent_head hk '.' rfl).2
        · rfl
      simp only [ht]
      rw [if_neg (by
        rw [Bool.and_eq_true, List.isEmpty_iff]; exact fun h0 => hne (hd.nil_iff.mp h0.1)),
        (exponent_iff _ _).mpr ⟨k, hk, rfl⟩, Option.map_some, hd.val, Flt.fin.inj hx]
      simp [digitsVal]
    | point s f t ds fs k hd hf hne hk =>
      unfold parseUnsigned
      rw [takeDigits_append hd.isDigit fun c hc => by
        simp only [List.head?_cons, Option.some.injEq] at hc; subst hc; decide]
      have ht : takeFraction ('.' :: (f ++ t)) = (f, t) := by
        show takeDigits _ = _
        exact takeDigits_append hf.isDigit fun c hc => (exponent_head hk c hc).1
      have hl : f.length = fs.length := by rw [hf.2, List.length_map]
      simp only [ht]
      rw [if_neg (by
        rw [Bool.and_eq_true, List.isEmpty_iff, List.isEmpty_iff]
        exact fun h0 => hne (by rw [hd.nil_iff.mp h0.1, hf.nil_iff.mp h0.2]; rfl)),
        (exponent_iff _ _).mpr ⟨k, hk, rfl⟩, Option.map_some, hd.val, hf.val, hl, point_val, Flt.fin.inj hx]
    | nan => cases hx
    | inf => cases hx
    | infinity => cases hx

/-! ## Words, signs and white space -/

/-- a number without sign, as read -/
noncomputable def readUnsigned (s : List Char) : Option Flt :=
  if s.map Char.toLower = "nan".toList then some .nan
  else if s.map Char.toLower = "inf".toList ∨ s.map Char.toLower = "infinity".toList then some .pinf
  else (parseUnsigned s).map .fin

theorem parseFloat_eq (s : List Char) :
    parseFloat s = (readUnsigned (takeSign (stripBy isWs s)).2).map (negIf (takeSign (stripBy isWs s)).1) := by
  unfold parseFloat readUnsigned
  obtain ⟨neg, r⟩ := takeSign (stripBy isWs s)
  dsimp only
  split
  · cases neg <;> rfl
  split
  · rfl
  · rw [Option.map_map]; rfl

theorem number_not_word {s : List Char} (h : ∃ c t, s = c :: t ∧ (isDigit c = true ∨ c = '.')) (x : ℝ)
    (hx : parseUnsigned s = some x) : readUnsigned s = some (fin x) := by
  obtain ⟨c, t, rfl, hc⟩ := h
  obtain ⟨h1, h2, h3⟩ := not_word (t := t) hc
  unfold readUnsigned
  rw [if_neg h1, if_neg (by simp only [h2, h3, or_self, not_false_iff]), hx]
  rfl

theorem unsigned_head {s : List Char} {x : ℝ} (h : Spec.Unsigned s (fin x)) :
    ∃ c t, s = c :: t ∧ (isDigit c = true ∨ c = '.') := by
  generalize hx : fin x = X at h
  have key : ∀ (s r : List Char) (ds : List ℕ), Spec.Digits s ds → ds ≠ [] →
      ∃ c t, s ++ r = c :: t ∧ (isDigit c = true ∨ c = '.') := by
    intro s r ds hd hne
    obtain ⟨c, t, rfl⟩ := List.exists_cons_of_ne_nil fun h0 => hne (hd.nil_iff.mp h0)
    exact ⟨c, t ++ r, rfl, .inl (hd.isDigit c List.mem_cons_self)⟩
  cases h with
  | whole s t ds k hd hne hk => exact key s t ds hd hne
  | point s f t ds fs k hd hf hne hk =>
    by_cases h0 : ds = []
    · rw [hd.nil_iff.mpr h0]
      exact ⟨'.', f ++ t, rfl, .inr rfl⟩
    · exact key s _ ds hd h0
  | nan => cases hx
  | inf => cases hx
  | infinity => cases hx

theorem readUnsigned_iff (s : List Char) (x : Flt) : readUnsigned s = some x ↔ Spec.Unsigned s x := by
  constructor
  · intro h
    unfold readUnsigned at h
    split at h
    · rename_i h0
      rw [← Option.some.inj h]
      exact .nan s h0
    split at h
    · rename_i h0
      rw [← Option.some.inj h]
      rcases h0 with h0 | h0
      · exact .inf s h0
      · exact .infinity s h0
    · obtain ⟨y, hy, rfl⟩ := Option.map_eq_some_iff.mp h
      exact (parseUnsigned_iff s y).mp hy
  · intro h
    cases x with
    | fin y => exact number_not_word (unsigned_head h) y ((parseUnsigned_iff s y).mpr h)
    | nan =>
      cases h with
      | nan _ h => unfold readUnsigned; rw [h, if_pos (by decide)]
    | ninf => cases h
    | pinf =>
      unfold readUnsigned
      cases h with
      | inf _ h => rw [h, if_neg (by decide), if_pos (.inl (by decide))]
      | infinity _ h => rw [h, if_neg (by decide), if_pos (.inr (by decide))]

/-- no part of a number is white space -/
theorem unsigned_chars {s : List Char} {x : Flt} (h : Spec.Unsigned s x) : ∀ c ∈ s, isWs c = false := by
  have hdig : ∀ c, isDigit c = true → isWs c = false := by
    intro c hc
    obtain ⟨d, hd, rfl⟩ := (isDigit_iff c).mp hc
    revert d
    decide
  have hexp : ∀ t k, Spec.Exponent t k → ∀ c ∈ t, isWs c = false := by
    have he : ∀ e ∈ ['e', 'E'], isWs e = false := by decide
    intro t k h c hc
    cases h with
    | none => cases hc
    | plain e s ds h1 h2 =>
      rcases List.mem_cons.mp hc with rfl | hc
      · exact he _ h1
      · exact hdig c (h2.isDigit c hc)
    | plus e s ds h1 h2 =>
      rcases List.mem_cons.mp hc with rfl | hc
      · exact he _ h1
      rcases List.mem_cons.mp hc with rfl | hc
      · decide
      · exact hdig c (h2.isDigit c hc)
    | minus e s ds h1 h2 =>
      rcases List.mem_cons.mp hc with rfl | hc
      · exact he _ h1
      rcases List.mem_cons.mp hc with rfl | hc
      · decide
      · exact hdig c (h2.isDigit c hc)
  have hword : ∀ w : List Char, (∀ c ∈ [' ', '\t', '\n', '\r', '\x0b', '\x0c'], c.toLower ∉ w) →
      ∀ s : List Char, s.map Char.toLower = w → ∀ c ∈ s, isWs c = false := by
    intro w hw s hs c hc
    rw [Bool.eq_false_iff]
    intro hws
    refine hw c ?_ (hs ▸ List.mem_map.mpr ⟨c, hc, rfl⟩)
    unfold isWs at hws
    simpa [or_assoc] using hws
  intro c hc
  cases h with
  | whole s t ds k hd hne hk =>
    rcases List.mem_append.mp hc with hc | hc
    · exact hdig c (hd.isDigit c hc)
    · exact hexp t k hk c hc
  | point s f t ds fs k hd hf hne hk =>
    rcases List.mem_append.mp hc with hc | hc
    · exact hdig c (hd.isDigit c hc)
    rcases List.mem_cons.mp hc with rfl | hc
    · decide
    rcases List.mem_append.mp hc with hc | hc
    · exact hdig c (hf.isDigit c hc)
    · exact hexp t k hk c hc
  | nan s h => exact hword _ (by decide) s h c hc
  | inf s h => exact hword _ (by decide) s h c hc
  | infinity s h => exact hword _ (by decide) s h c hc

theorem unsigned_sign {s : List Char} {x : Flt} (h : Spec.Unsigned s x) : takeSign s = (false, s) := by
  have hw : ∀ (w s : List Char), s.map Char.toLower = w → '-' ∉ w → '+' ∉ w → takeSign s = (false, s) := by
    intro w s hs h1 h2
    unfold takeSign
    split
    · exact absurd (hs ▸ List.mem_map.mpr ⟨'-', List.mem_cons_self, by decide⟩) h1
    · exact absurd (hs ▸ List.mem_map.mpr ⟨'+', List.mem_cons_self, by decide⟩) h2
    · rfl
  cases x with
  | fin y =>
    obtain ⟨c, t, rfl, hc⟩ := unsigned_head h
    unfold takeSign
    split
    · rename_i e
      rw [(List.cons.inj e).1] at hc
      exact absurd hc (by decide)
    · rename_i e
      rw [(List.cons.inj e).1] at hc
      exact absurd hc (by decide)
    · rfl
  | nan => cases h with | nan _ h => exact hw _ s h (by decide) (by decide)
  | ninf => cases h
  | pinf =>
    cases h with
    | inf _ h => exact hw _ s h (by decide) (by decide)
    | infinity _ h => exact hw _ s h (by decide) (by decide)

theorem signed_iff (t : List Char) (x : Flt) :
    (readUnsigned (takeSign t).2).map (negIf (takeSign t).1) = some x ↔ Spec.Signed t x := by
  constructor
  · intro h
    obtain ⟨y, hy, hx⟩ := Option.map_eq_some_iff.mp h
    obtain ⟨neg, r, hr⟩ : ∃ neg r, takeSign t = (neg, r) := ⟨_, _, rfl⟩
    rw [hr] at hy hx
    have hu := (readUnsigned_iff _ _).mp hy
    unfold takeSign at hr
    split at hr
    · obtain ⟨rfl, rfl⟩ := Prod.mk.inj hr
      rw [← hx]
      exact .minus _ _ hu
    · obtain ⟨rfl, rfl⟩ := Prod.mk.inj hr
      rw [← hx]
      exact .plus _ _ hu
    · obtain ⟨rfl, rfl⟩ := Prod.mk.inj hr
      rw [← hx]
      exact .plain _ _ hu
  · intro h
    cases h with
    | plain _ _ h => rw [unsigned_sign h, (readUnsigned_iff _ _).mpr h]; rfl
    | plus s _ h => show (readUnsigned s).map _ = _; rw [(readUnsigned_iff _ _).mpr h]; rfl
    | minus s _ h => show (readUnsigned s).map _ = _; rw [(readUnsigned_iff _ _).mpr h]; rfl

theorem signed_chars {t : List Char} {x : Flt} (h : Spec.Signed t x) : ∀ c ∈ t, isWs c = false := by
  intro c hc
  cases h with
  | plain _ _ h => exact unsigned_chars h c hc
  | plus _ _ h =>
    rcases List.mem_cons.mp hc with rfl | hc
    · decide
    · exact unsigned_chars h c hc
  | minus _ _ h =>
    rcases List.mem_cons.mp hc with rfl | hc
    · decide
    · exact unsigned_chars h c hc

theorem dropWhile_all {p : Char → Bool} (a b : List Char) (h : ∀ c ∈ a, p c = true) :
    (a ++ b).dropWhile p = b.dropWhile p := by
  induction a with
  | nil => rfl
  | cons c a ih =>
    rw [List.cons_append, List.dropWhile_cons_of_pos (h c List.mem_cons_self)]
    exact ih fun x hx => h x (List.mem_cons_of_mem _ hx)

/-- white space around a text without any is what is removed -/
theorem stripBy_around {p : Char → Bool} (a t b : List Char) (ha : ∀ c ∈ a ++ b, p c = true)
    (ht : ∀ c ∈ t, p c = false) : stripBy p (a ++ t ++ b) = t := by
  have ha' : ∀ c ∈ a, p c = true := fun c hc => ha c (by simp [hc])
  have hb : ∀ c ∈ b, p c = true := fun c hc => ha c (by simp [hc])
  unfold stripBy
  rw [List.append_assoc, dropWhile_all a _ ha']
  cases t with
  | nil =>
    have := dropWhile_all b [] hb
    rw [List.append_nil] at this
    rw [List.nil_append, this]
    rfl
  | cons c t =>
    rw [List.cons_append, List.dropWhile_cons_of_neg (by rw [ht c List.mem_cons_self]; decide),
      ← List.cons_append, List.reverse_append, dropWhile_all _ _ fun x hx => hb x (List.mem_reverse.mp hx),
      dropWhile_of_head fun x hx => ht x (List.mem_reverse.mp hx), List.reverse_reverse]

theorem dropWhile_split (p : Char → Bool) (s : List Char) : ∃ a, s = a ++ s.dropWhile p ∧ ∀ c ∈ a, p c = true := by
  induction s with
  | nil => exact ⟨[], rfl, by simp⟩
  | cons c s ih =>
    rw [List.dropWhile_cons]
    split
    · rename_i hc
      obtain ⟨a, h1, h2⟩ := ih
      refine ⟨c :: a, by rw [List.cons_append, ← h1], ?_⟩
      intro x hx
      rcases List.mem_cons.mp hx with rfl | hx
      · exact hc
      · exact h2 x hx
    · exact ⟨[], rfl, by simp⟩

theorem stripBy_split (p : Char → Bool) (s : List Char) :
    ∃ a b, s = a ++ stripBy p s ++ b ∧ ∀ c ∈ a ++ b, p c = true := by
  obtain ⟨a, h1, h2⟩ := dropWhile_split p s
  obtain ⟨b, h3, h4⟩ := dropWhile_split p (s.dropWhile p).reverse
  refine ⟨a, b.reverse, ?_, ?_⟩
  · have := congrArg List.reverse h3
    rw [List.reverse_reverse, List.reverse_append] at this
    unfold stripBy
    rw [List.append_assoc, ← this, ← h1]
  · intro c hc
    rcases List.mem_append.mp hc with hc | hc
    · exact h2 c hc
    · exact h4 c (List.mem_reverse.mp hc)

/-! ## Theorems -/

/-- **C137**: a field of a file is a number just if it is an optional sign and decimal digits, with or
without a point and an exponent, or one of the words for not-a-number and infinity, with white
space around it or not; and its value is what these digits say. -/
theorem C137_number (s : List Char) (x : Flt) : parseFloat s = some x ↔ Spec.IsNumber s x := by
  have hws : ∀ c, isWs c = true ↔ c ∈ [' ', '\t', '\n', '\r', '\x0b', '\x0c'] := by
    intro c
    unfold isWs
    simp [or_assoc]
  rw [parseFloat_eq]
  constructor
  · intro h
    obtain ⟨a, b, h1, h2⟩ := stripBy_split isWs s
    exact ⟨a, _, b, h1, fun c hc => (hws c).mp (h2 c hc), (signed_iff _ _).mp h⟩
  · rintro ⟨a, t, b, rfl, h2, h3⟩
    rw [stripBy_around a t b (fun c hc => (hws c).mpr (h2 c hc)) (signed_chars h3)]
    exact (signed_iff _ _).mpr h3

/-- **C137**: a text has at most one value -/
theorem C137_value (s : List Char) (x y : Flt) (hx : Spec.IsNumber s x) (hy : Spec.IsNumber s y) : x = y :=
  Option.some.inj ((C137_number s x).mpr hx ▸ (C137_number s y).mpr hy)

/-! ## In files -/

theorem parseFloat_none (s : List Char) : parseFloat s = none ↔ ∀ x, ¬Spec.IsNumber s x := by
  rw [Option.eq_none_iff_forall_ne_some]
  exact forall_congr' fun x => not_congr (C137_number s x)

/-- **C137**: in a text file (`genfromtxt`), a field that is a number has its value and any other
field is NaN, at every data line, whatever the columns are. -/
theorem C137_table (fs : FS) (file : String) (text : List Char) (c0 c1 c2 n skip : ℕ) (d : Char)
    (h : fs file = some text) (h2 : 2 ≤ (dataLines skip text).length)
    (hn : ∀ l ∈ dataLines skip text, (fields d l).length = n) (hn2 : 2 ≤ n)
    (hc0 : c0 < n) (hc1 : c1 < n) (hc2 : c2 < n) :
    ∃ data, read_dat_genfromtxt fs file c0 c1 c2 d skip = .ok data ∧
      ∀ cx ∈ [(c0, data.titrant_amount), (c1, data.measurement), (c2, data.temperature)],
        List.Forall₂ (fun l x => ∃ s, (fields d l)[cx.1]? = some s ∧
          (Spec.IsNumber s x ∨ (∀ y, ¬Spec.IsNumber s y) ∧ x = nan)) (dataLines skip text) cx.2 := by
  have key : ∀ (c : ℕ) (l : List Char) (x : Flt), FieldNumber d c l x →
      ∃ s, (fields d l)[c]? = some s ∧ (Spec.IsNumber s x ∨ (∀ y, ¬Spec.IsNumber s y) ∧ x = nan) := by
    rintro c l x ⟨s, hs, hx⟩
    rw [C137_number, parseFloat_none] at hx
    exact ⟨s, hs, hx⟩
  obtain ⟨data, hd, a, b, c⟩ := C73_table fs file text c0 c1 c2 n skip d h h2 hn hn2 hc0 hc1 hc2
  refine ⟨data, hd, ?_⟩
  simp only [List.mem_cons, List.not_mem_nil, or_false, forall_eq_or_imp, forall_eq]
  exact ⟨a.imp (key c0), b.imp (key c1), c.imp (key c2)⟩

theorem mapPy_refuses {α β : Type} (f : α → Py β) (e : PyErr) (xs : List α)
    (h : ∀ x ∈ xs, (∃ y, f x = .ok y) ∨ f x = .error e) (hx : ∃ x ∈ xs, f x = .error e) :
    mapPy f xs = .error e := by
  induction xs with
  | nil => obtain ⟨x, hx, _⟩ := hx; cases hx
  | cons x xs ih =>
    rcases h x List.mem_cons_self with ⟨y, hy⟩ | hy
    · obtain ⟨z, hz, hz'⟩ := hx
      rcases List.mem_cons.mp hz with rfl | hz
      · rw [hy] at hz'; cases hz'
      · have := ih (fun x hx => h x (List.mem_cons_of_mem _ hx)) ⟨z, hz, hz'⟩
        simp only [mapPy, hy, bind_ok, this]
        rfl
    · simp only [mapPy, hy]
      rfl

/-- **C137**: a PC LIMS file is a `ValueError` as soon as any field of its data lines is not a number,
even in a column that is not asked for (the lines are found by a pattern that lets through fields such as
`1.2.3` or nothing at all, and anything after the first fields). -/
theorem C137_pclims (fs : FS) (file : String) (text : List Char) (c0 c1 c2 : ℤ) (n : ℕ) (hn : 1 ≤ n)
    (h : fs file = some text) (block : List (List Char))
    (hb : IsFirstBlock (LimsLine n) (splitlines (universal text)) block) (l s : List Char) (hl : l ∈ block)
    (hs : s ∈ splitC '\t' l) (hx : ∀ x, ¬Spec.IsNumber s x) :
    read_dat_pclims fs file c0 c1 c2 n = .error .ValueError := by
  have hk : (((n : ℤ) - 1).toNat) + 1 = n := by omega
  have hb' := pclimsLoop_block ((n : ℤ) - 1).toNat (splitlines (universal text))
  rw [hk] at hb'
  have hbl := C56_unique _ _ _ _ hb' hb
  have hrows : strictRows (block.map (splitC '\t')) = .error .ValueError := by
    unfold strictRows
    split
    · refine mapPy_refuses _ _ _ (fun r _ => ?_) ⟨splitC '\t' l, List.mem_map.mpr ⟨l, hl, rfl⟩, ?_⟩
      · unfold strictRow
        cases r.mapM parseFloat with
        | none => exact .inr rfl
        | some xs => exact .inl ⟨xs, rfl⟩
      · cases hr : strictRow (splitC '\t' l) with
        | error e =>
          unfold strictRow at hr
          split at hr
          · cases hr
          · exact hr.symm ▸ rfl
        | ok xs =>
          obtain ⟨i, hi, rfl⟩ := List.mem_iff_getElem.mp hs
          have hf := strictRow_ok.mp hr
          have hi' : i < xs.length := by rw [← hf.length_eq]; exact hi
          exact absurd ((C137_number _ _).mp ((List.forall₂_iff_get.mp hf).2 i hi hi')) (hx _)
    · rfl
  unfold read_dat_pclims readText
  rw [h]
  simp only [bind_ok, hbl, hrows]
  rfl

/-- **C137**: a Tiamo file is a `ValueError` if its start volume is not a number, for instance with a decimal
comma. -/
theorem C137_tiamo (fs : FS) (pd : Pandas) (file : String) (text : List Char)
    (h : fs file = some text) (pre : List (List Char)) (l a b : List Char) (rest : List (List Char))
    (hlines : splitlines (universal text) = pre ++ [l, a, b] ++ "Gran.1".toList :: rest)
    (hfirst : "Gran.1".toList ∉ pre ++ [l, a, b]) (s : List Char)
    (hs : (splitC ';' l)[2]? = some s) (hx : ∀ x, ¬Spec.IsNumber s x) :
    read_tiamo_de fs pd file = .error .ValueError := by
  have hidx : pyIndexOf "Gran.1".toList (splitlines (universal text)) = .ok (pre.length + 3) := by
    unfold pyIndexOf
    rw [hlines, if_pos (by simp)]
    congr 1
    rw [List.idxOf_append_of_notMem hfirst, List.idxOf_cons_self]
    simp
  have hline : pyIndex (splitlines (universal text)) (((pre.length + 3 : ℕ) : ℤ) - 3) = .ok l := by
    unfold pyIndex
    rw [if_pos (by omega)]
    have : (((pre.length + 3 : ℕ) : ℤ) - 3).toNat = pre.length := by omega
    rw [this, hlines]
    have hg : (pre ++ [l, a, b] ++ "Gran.1".toList :: rest)[pre.length]? = some l := by
      simp
    rw [hg]
    simp only
    rw [if_pos (by omega)]
  have hfield : pyIndex (splitC ';' l) 2 = .ok s := by
    unfold pyIndex
    rw [if_pos (by norm_num)]
    have : ((2 : ℤ)).toNat = 2 := rfl
    rw [this, hs]
    simp only
    rw [if_pos (by omega)]
  have hfl : pyFloat s = .error .ValueError := by
    unfold pyFloat; rw [(parseFloat_none s).mpr hx]
  unfold read_tiamo_de read_tiamo_de_df readText
  rw [h]
  simp only [bind_ok, hidx, hline, hfield, hfl]
  rfl

/-! ## Cases -/

/-- ` -12.5e-3 ` is a number -/
example : Spec.IsNumber " -12.5e-3\r".toList (fin (-0.0125)) := by
  refine ⟨[' '], "-12.5e-3".toList, ['\r'], by decide, by decide, ?_⟩
  have h : Spec.Unsigned "12.5e-3".toList _ := .point ['1', '2'] ['5'] ['e', '-', '3'] [1, 2] [5] (-3)
    ⟨by decide, by decide⟩ ⟨by decide, by decide⟩ (by decide)
    (.minus 'e' ['3'] [3] (by decide) ⟨by decide, by decide⟩ (by decide))
  have := Spec.Signed.minus _ _ h
  rw [neg_fin] at this
  norm_num [Nat.ofDigits] at this ⊢
  exact this

/-- a number with a decimal comma is none -/
theorem comma_not_number : ∀ x, ¬Spec.IsNumber "1,5".toList x := by
  rw [← parseFloat_none]
  with_unfolding_all rfl

example : read_tiamo_de (fun _ => some "Titrator\nx;y;1,5\na\nb\nGran.1\nhead\n".toList) tiamoTable "f"
    = .error .ValueError :=
  C137_tiamo _ _ _ _ rfl ["Titrator".toList] "x;y;1,5".toList "a".toList "b".toList ["head".toList]
    (by decide) (by decide) "1,5".toList (by decide) comma_not_number

theorem dots_not_number : ∀ x, ¬Spec.IsNumber "1.2.3".toList x := by
  rw [← parseFloat_none]
  with_unfolding_all rfl

/-- a field such as `1.2.3` passes the pattern for data lines -/
example : read_dat_pclims (fun _ => some "1\t2\t1.2.3\n".toList) "f" 0 1 1 3 = .error .ValueError :=
  C137_pclims _ _ _ 0 1 1 3 (by decide) rfl ["1\t2\t1.2.3".toList]
    ⟨[], [], by decide, by simp, by unfold LimsLine; decide, by simp, by simp⟩
    "1\t2\t1.2.3".toList "1.2.3".toList (by simp) (by decide) dots_not_number

end Calk
