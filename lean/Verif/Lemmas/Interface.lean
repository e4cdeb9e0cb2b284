import Verif.Lemmas.Files

/-! # Lemmas about `get_totals` and `get_k_constants` -/

namespace Calk
open Flt

theorem setIf_get? (d : Dict NpVal) (k k' : String) (v : Option Flt) (s : Flt) :
    (setIf d k v s).get? k' = if k' = k ∧ v ≠ none then v.map (fun x => .scalar (x * s))
      else d.get? k' := by
  cases v with
  | none => simp [setIf]
  | some x => simp only [setIf, Dict.get?_set]; by_cases h : k' = k <;> simp [h]

theorem setIfPos_get? (d : Dict NpVal) (k k' : String) (x : Flt) :
    (setIfPos d k x).get? k' = if k' = k ∧ (fin 0).lt x = true then some (.scalar (x * fin 1e-6))
      else d.get? k' := by
  unfold setIfPos
  by_cases h : (fin 0).lt x = true
  · rw [if_pos h, Dict.get?_set]; by_cases h' : k' = k <;> simp [h, h']
  · rw [if_neg h]; simp [h]

theorem copyIfPos_get? {t tp t' : Dict NpVal} {x : Flt} {k pk : String}
    (h : copyIfPos t tp x k pk = .ok t') (k' : String) :
    t'.get? k' = if k' = k ∧ (fin 0).lt x = true then tp.get? pk else t.get? k' := by
  unfold copyIfPos at h
  by_cases hx : (fin 0).lt x = true
  · rw [if_pos hx] at h
    simp only [bind_ok_iff, Dict.get_ok_iff, pure_ok, Except.ok.injEq] at h
    obtain ⟨v, hv, rfl⟩ := h
    rw [Dict.get?_set]; by_cases h' : k' = k <;> simp [hx, h', hv]
  · rw [if_neg hx] at h
    simp only [pure_ok, Except.ok.injEq] at h
    subst h; simp [hx]

/-- Everything `get_totals` does when it succeeds. -/
theorem get_totals_ok {w : World} {S : Flt} {kw : Dict Val} {t tp : Dict NpVal}
    (h : get_totals w S kw = .ok (t, tp)) :
    ∃ dic alpha beta ammonia phosphate silicate sulfide borate fluoride sulfate tb tf ts,
      argNum kw "dic" (fin 0) = .ok dic ∧ argNum kw "total_alpha" (fin 0) = .ok alpha ∧
      argNum kw "total_beta" (fin 0) = .ok beta ∧ argNum kw "total_ammonia" (fin 0) = .ok ammonia ∧
      argNum kw "total_phosphate" (fin 0) = .ok phosphate ∧
      argNum kw "total_silicate" (fin 0) = .ok silicate ∧
      argNum kw "total_sulfide" (fin 0) = .ok sulfide ∧
      argNotNull kw "total_borate" = .ok borate ∧ argNotNull kw "total_fluoride" = .ok fluoride ∧
      argNotNull kw "total_sulfate" = .ok sulfate ∧
      w.saltsAssemble S silicate phosphate ammonia sulfide
        (argVal kw "opt_k_carbonic" (.num (fin 10))) (argVal kw "opt_total_borate" (.num (fin 1)))
        (totals_for_pyco2 alpha beta borate fluoride sulfate) = .ok tp ∧
      tp.get? "TB" = some tb ∧ tp.get? "TF" = some tf ∧ tp.get? "TSO4" = some ts ∧
      ∀ k, t.get? k =
        if k = "total_sulfate" then some ts else if k = "total_fluoride" then some tf
        else if k = "total_borate" then some tb
        else if k = "total_sulfide" ∧ (fin 0).lt sulfide = true then tp.get? "TH2S"
        else if k = "total_phosphate" ∧ (fin 0).lt phosphate = true then tp.get? "TPO4"
        else if k = "total_silicate" ∧ (fin 0).lt silicate = true then tp.get? "TSi"
        else if k = "total_ammonia" ∧ (fin 0).lt ammonia = true then tp.get? "TNH3"
        else if k = "total_beta" ∧ (fin 0).lt beta = true then some (.scalar (beta * fin 1e-6))
        else if k = "total_alpha" ∧ (fin 0).lt alpha = true then some (.scalar (alpha * fin 1e-6))
        else if k = "dic" then some (.scalar (dic * fin 1e-6)) else none := by
  simp only [get_totals, bind_ok_iff, pure_ok, Except.ok.injEq, Prod.mk.injEq, Dict.get_ok_iff] at h
  obtain ⟨dic, h1, alpha, h2, beta, h3, ammonia, h4, phosphate, h5, silicate, h6, sulfide, h7,
    borate, h8, fluoride, h9, sulfate, h10, tp', h11, t1, c1, t2, c2, t3, c3, t4, c4, tb, hb,
    tf, hf, ts, hs, rfl, rfl⟩ := h
  refine ⟨dic, alpha, beta, ammonia, phosphate, silicate, sulfide, borate, fluoride, sulfate, tb,
    tf, ts, h1, h2, h3, h4, h5, h6, h7, h8, h9, h10, h11, hb, hf, hs, fun k => ?_⟩
  simp only [Dict.get?_set, copyIfPos_get? c4, copyIfPos_get? c3, copyIfPos_get? c2,
    copyIfPos_get? c1, setIfPos_get?, Dict.get?_cons, Dict.get?_nil, eq_comm (a := "dic")]

theorem ks_for_pyco2_get? {kw : Dict Val} {table : List (String × String)} {d d' : Dict NpVal}
    (h : ks_for_pyco2 kw table d = .ok d') :
    (∀ pk, pk ∉ table.map Prod.snd → d'.get? pk = d.get? pk) ∧
    ((table.map Prod.snd).Nodup → ∀ k pk x, (k, pk) ∈ table → argNotNull kw k = .ok (some x) →
      d'.get? pk = some (.scalar (x * fin 1))) := by
  induction table generalizing d with
  | nil => simp only [ks_for_pyco2, Except.ok.injEq] at h; subst h; simp
  | cons kp rest ih =>
    obtain ⟨k0, p0⟩ := kp
    simp only [ks_for_pyco2, bind_ok_iff] at h
    obtain ⟨v, hv, hr⟩ := h
    obtain ⟨i1, i2⟩ := ih hr
    constructor
    · intro pk hpk
      simp only [List.map_cons, List.mem_cons, not_or] at hpk
      rw [i1 pk hpk.2, setIf_get?]
      simp [hpk.1]
    · intro hnd k pk x hm hx
      simp only [List.map_cons, List.nodup_cons] at hnd
      simp only [List.mem_cons, Prod.mk.injEq] at hm
      rcases hm with ⟨rfl, rfl⟩ | hm
      · rw [i1 _ hnd.1, setIf_get?]
        rw [hx] at hv
        simp only [Except.ok.injEq] at hv
        subst hv
        simp
      · exact i2 hnd.2 k pk x hm hx

theorem ks_for_pyco2_none {kw : Dict Val} {table : List (String × String)} {d d' : Dict NpVal}
    (h : ks_for_pyco2 kw table d = .ok d') (pk : String)
    (hn : ∀ k, (k, pk) ∈ table → argNotNull kw k = .ok none) : d'.get? pk = d.get? pk := by
  induction table generalizing d with
  | nil => simp only [ks_for_pyco2, Except.ok.injEq] at h; subst h; rfl
  | cons kp rest ih =>
    obtain ⟨k0, p0⟩ := kp
    simp only [ks_for_pyco2, bind_ok_iff] at h
    obtain ⟨v, hv, hr⟩ := h
    rw [ih hr fun k hk => hn k (List.mem_cons_of_mem _ hk), setIf_get?]
    by_cases hp : pk = p0
    · subst hp
      have := hn k0 List.mem_cons_self
      rw [this] at hv
      simp only [Except.ok.injEq] at hv
      subst hv; simp
    · simp [hp]

theorem rename_get? {table : List (String × String)} {kp : Dict NpVal}
    (hnd : (table.map Prod.fst).Nodup) {k pk : String} (hm : (k, pk) ∈ table) :
    Dict.get? (table.filterMap fun kv => (kp.get? kv.2).map fun v => (kv.1, v)) k = kp.get? pk := by
  induction table with
  | nil => simp at hm
  | cons e rest ih =>
    obtain ⟨k0, p0⟩ := e
    simp only [List.map_cons, List.nodup_cons] at hnd
    simp only [List.mem_cons, Prod.mk.injEq] at hm
    rcases hm with ⟨rfl, rfl⟩ | hm
    · cases h : kp.get? pk with
      | some v => simp [List.filterMap_cons, h, Dict.get?_cons]
      | none =>
        simp only [List.filterMap_cons, h, Option.map_none]
        rw [Dict.get?_eq_none_iff]
        intro hk
        apply hnd.1
        simp only [Dict.keys, List.mem_map, List.mem_filterMap] at hk ⊢
        obtain ⟨⟨a, b⟩, ⟨⟨c, d⟩, hc, hd⟩, rfl⟩ := hk
        simp only [Option.map_eq_some_iff, Prod.mk.injEq] at hd
        obtain ⟨_, _, rfl, _⟩ := hd
        exact ⟨_, hc, rfl⟩
    · have hne : k0 ≠ k := by
        rintro rfl
        exact hnd.1 (List.mem_map.mpr ⟨_, hm, rfl⟩)
      cases h : kp.get? p0 with
      | some v => simp only [List.filterMap_cons, h, Option.map_some, Dict.get?_cons, if_neg hne,
                    ih hnd.2 hm]
      | none => simp only [List.filterMap_cons, h, Option.map_none, ih hnd.2 hm]

end Calk
