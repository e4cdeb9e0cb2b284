import Verif.Props.Defaults
import Verif.Model.Read

/-!
# Property C89, second part: the defaults of the file readers
-/

namespace Calk
open Flt

/-- The settings of each reader with their defaults. -/
noncomputable def readerDefaults : Reader → Dict Val
  | .genfromtxt =>
    [("col_titrant_amount", .num (fin 0)), ("col_measurement", .num (fin 1)),
      ("col_temperature", .num (fin 2)), ("delimiter", .str "\t"), ("skip_header", .num (fin 2))]
  | .pclims =>
    [("col_titrant_amount", .num (fin 1)), ("col_measurement", .num (fin 2)),
      ("col_temperature", .num (fin 5)), ("n_cols", .num (fin 6))]
  | .orgalk_excel => []
  | .tiamo_de => []

theorem argInt_set (kw : Dict Val) (k k' : String) (v : Val) (d : ℤ)
    (h : k' ≠ k ∨ kw.get? k = none ∧ k' = k ∧ v = .num (fin d)) :
    argInt (kw.set k' v) k d = argInt kw k d := by
  unfold argInt
  rw [Dict.get?_set]
  rcases h with h | ⟨h1, h2, h3⟩
  · rw [if_neg (Ne.symm h)]
  · rw [if_pos h2.symm, h1, h3]
    simp

theorem argDelimiter_set (kw : Dict Val) (k : String) (v : Val)
    (h : k ≠ "delimiter" ∨ kw.get? "delimiter" = none ∧ k = "delimiter" ∧ v = .str "\t") :
    argDelimiter (kw.set k v) = argDelimiter kw := by
  unfold argDelimiter
  rw [Dict.get?_set]
  rcases h with h | ⟨h1, h2, h3⟩
  · rw [if_neg (Ne.symm h)]
  · rw [if_pos h2.symm, h1, h3]
    rfl

theorem mem_set_keys_iff (d : Dict Val) (k : String) (v : Val) (k' : String) :
    k' ∈ (d.set k v).keys ↔ k' = k ∨ k' ∈ d.keys := by
  by_cases h : k' = k
  · subst h
    simp only [true_or, iff_true]
    by_contra hc
    have := (Dict.get?_eq_none_iff _ _).mpr hc
    rw [Dict.get?_set, if_pos rfl] at this
    cases this
  · simp only [h, false_or]
    rw [← not_iff_not, ← Dict.get?_eq_none_iff, ← Dict.get?_eq_none_iff, Dict.get?_set, if_neg h]

theorem acceptOnly_set (keys : List String) (kw : Dict Val) (k : String) (v : Val)
    (h : keys.contains k = true) : acceptOnly keys (kw.set k v) = acceptOnly keys kw := by
  have e : ((kw.set k v).all fun kv => keys.contains kv.1) = (kw.all fun kv => keys.contains kv.1) := by
    have e1 : ∀ d : Dict Val, (d.all fun kv => keys.contains kv.1) = true ↔
        ∀ x ∈ d.keys, keys.contains x = true := by
      intro d
      simp [Dict.keys, List.all_eq_true]
    rw [Bool.eq_iff_iff, e1, e1]
    constructor
    · intro hh x hx
      exact hh x ((mem_set_keys_iff kw k v x).mpr (.inr hx))
    · intro hh x hx
      rcases (mem_set_keys_iff kw k v x).mp hx with rfl | hx
      · exact h
      · exact hh x hx
  unfold acceptOnly
  rw [e]

theorem callReader_default (fs : FS) (pd : Pandas) (f : String) (kw : Dict Val) (r : Reader)
    (k : String) (v : Val) (hd : (readerDefaults r).get? k = some v) (hk : kw.get? k = none) :
    callReader fs pd f (kw.set k v) r = callReader fs pd f kw r := by
  have hm := Dict.mem_of_get? hd
  cases r with
  | genfromtxt =>
    simp only [readerDefaults, List.mem_cons, Prod.mk.injEq, List.not_mem_nil, or_false] at hm
    simp only [callReader]
    rcases hm with ⟨rfl, rfl⟩ | ⟨rfl, rfl⟩ | ⟨rfl, rfl⟩ | ⟨rfl, rfl⟩ | ⟨rfl, rfl⟩ <;>
      rw [acceptOnly_set _ kw _ _ (by decide), argInt_set kw "col_titrant_amount" _ _ _ (by simp [hk]),
        argInt_set kw "col_measurement" _ _ _ (by simp [hk]),
        argInt_set kw "col_temperature" _ _ _ (by simp [hk]),
        argInt_set kw "skip_header" _ _ _ (by simp [hk]), argDelimiter_set kw _ _ (by simp [hk])]
  | pclims =>
    simp only [readerDefaults, List.mem_cons, Prod.mk.injEq, List.not_mem_nil, or_false] at hm
    simp only [callReader]
    rcases hm with ⟨rfl, rfl⟩ | ⟨rfl, rfl⟩ | ⟨rfl, rfl⟩ | ⟨rfl, rfl⟩ <;>
      rw [acceptOnly_set _ kw _ _ (by decide), argInt_set kw "col_titrant_amount" _ _ _ (by simp [hk]),
        argInt_set kw "col_measurement" _ _ _ (by simp [hk]),
        argInt_set kw "col_temperature" _ _ _ (by simp [hk]),
        argInt_set kw "n_cols" _ _ _ (by simp [hk])]
  | orgalk_excel => cases hm
  | tiamo_de => cases hm

/-- **C89**: a file type left out is `"genfromtxt"`. -/
theorem C89_file_type (fs : FS) (pd : Pandas) (f : String) (kw : Dict Val)
    (hk : kw.get? "file_type" = none) :
    read_dat fs pd f (kw.set "file_type" (.str "genfromtxt")) = read_dat fs pd f kw := by
  have e : ((kw.set "file_type" (.str "genfromtxt")).filter fun kv => kv.1 ≠ "file_type")
      = kw.filter fun kv => kv.1 ≠ "file_type" :=
    Dict.filter_set (fun k => decide (k ≠ "file_type")) kw _ (by decide)
  simp only [read_dat]
  rw [e]
  have e2 : argVal (kw.set "file_type" (.str "genfromtxt")) "file_type" (.str "genfromtxt")
      = argVal kw "file_type" (.str "genfromtxt") := by
    unfold argVal
    rw [Dict.get?_set, if_pos rfl, hk]
    rfl
  rw [e2]

/-- **C89**: a setting of the chosen reader that is left out has the reader's default. -/
theorem C89_reader (fs : FS) (pd : Pandas) (f : String) (kw : Dict Val) (r : Reader)
    (warn : Option String)
    (hr : chooseReader (argVal kw "file_type" (.str "genfromtxt")) = .ok (r, warn))
    (k : String) (v : Val) (hd : (readerDefaults r).get? k = some v) (hk : kw.get? k = none) :
    read_dat fs pd f (kw.set k v) = read_dat fs pd f kw := by
  have hne : k ≠ "file_type" := by
    rintro rfl
    cases r <;> simp [readerDefaults, Dict.get?] at hd
  have e2 : argVal (kw.set k v) "file_type" (.str "genfromtxt")
      = argVal kw "file_type" (.str "genfromtxt") := by
    unfold argVal
    rw [Dict.get?_set, if_neg (Ne.symm hne)]
  have e1 : ∀ d : Dict Val, ((d.set k v).filter fun kv => decide (kv.1 ≠ "file_type"))
      = Dict.set (d.filter fun kv => decide (kv.1 ≠ "file_type")) k v := by
    intro d
    induction d with
    | nil => simp [Dict.set, hne]
    | cons e d ih =>
      obtain ⟨k', v'⟩ := e
      by_cases h : k' = k
      · subst h
        simp [Dict.set, hne]
      · by_cases h' : k' = "file_type"
        · subst h'
          simp only [Dict.set, if_neg h]
          rw [List.filter_cons, List.filter_cons]
          simpa using ih
        · simp only [Dict.set, if_neg h]
          rw [List.filter_cons, List.filter_cons]
          simp only [ne_eq, h', not_false_eq_true, decide_true, if_true, Dict.set, if_neg h]
          exact congrArg _ ih
  simp only [read_dat, e2, hr, bind_ok]
  rw [e1]
  refine callReader_default fs pd f _ r k v hd ?_
  have := Dict.get?_filter (fun k => decide (k ≠ "file_type")) kw k
  rw [this, hk]
  split <;> rfl

example : (readerDefaults .genfromtxt).get? "delimiter" = some (.str "\t") ∧
    chooseReader (argVal ([("skip_header", .num (fin 1))] : Dict Val) "file_type"
      (.str "genfromtxt")) = .ok (.genfromtxt, none) :=
  ⟨by with_unfolding_all rfl, by with_unfolding_all rfl⟩

end Calk
