import Verif.Lemmas.SolvePH

/-! Specification of what a titrant contributes to the totals, and helper lemmas about
`add_titrant_totals` and the calibrators' residuals. -/

namespace Calk
open Flt

/-! ## Specification -/

/-- sum of the multipliers that titrant-total names give to total `k`
(`titrant_total_sulfate` is for `total_sulfate`) -/
noncomputable def factorSum (tts : List (String × ℝ)) (k : String) : ℝ :=
  ((tts.filter fun p => p.1 = "titrant_" ++ k).map Prod.snd).sum

/-- does any titrant-total name belong to total `k`? -/
def named (tts : List (String × ℝ)) (k : String) : Bool :=
  tts.any fun p => p.1 = "titrant_" ++ k

/-- one total with `m·c·f / (m + M)` added at each point -/
noncomputable def addTo (tm : List ℝ) (M c f : ℝ) (v : NpVal) : NpVal :=
  .arr (tm.zipIdx.map fun mi => v.at_ mi.2 + fin (mi.1 * c * f / (mi.1 + M)))

/-- the totals of the mixture when the titrant has molinity `c` and brings `tts` -/
noncomputable def withTitrant (tm : List ℝ) (M c : ℝ) (tts : List (String × ℝ))
    (totals : Dict NpVal) : Dict NpVal :=
  totals.mapKV fun k v => if named tts k then addTo tm M c (factorSum tts k) v else v

/-- a total as `add_titrant_totals` can update it: one number or one value per point -/
def NpVal.upd (n : ℕ) : NpVal → Prop
  | .scalar _ => True
  | .arr xs => xs.length = n

/-- titrant totals as the code accepts them: prefixed names of totals that are present -/
def GoodTT (n : ℕ) (tts : List (String × ℝ)) (totals : Dict NpVal) : Prop :=
  ∀ p ∈ tts, ∃ k v, p.1 = "titrant_" ++ k ∧ "total_".toList.isPrefixOf k.toList = true ∧
    totals.get? k = some v ∧ v.upd n

/-- keyword view of the titrant totals -/
def ttArgs (tts : List (String × ℝ)) : List (String × Flt) := tts.map fun p => (p.1, fin p.2)

/-! ## Strings -/

theorem dropTitrant_append (k : String) : dropTitrant ("titrant_" ++ k) = k := by
  simp [dropTitrant, String.toList_append, String.ofList_toList]

theorem titrant_prefix (k : String) : titrantPrefix.toList.isPrefixOf ("titrant_" ++ k).toList
    = "total_".toList.isPrefixOf k.toList := by
  simp [titrantPrefix, String.toList_append, List.isPrefixOf]

theorem eq_titrant_iff {k k' : String} : "titrant_" ++ k = "titrant_" ++ k' ↔ k = k' := by
  constructor
  · intro h
    have := congrArg dropTitrant h
    simpa [dropTitrant_append] using this
  · rintro rfl; rfl

/-! ## Dicts -/

theorem Dict.has_of_get? {α : Type} {d : Dict α} {k : String} {v : α} (h : d.get? k = some v) :
    k ∈ d.keys := by
  by_contra hc
  rw [(Dict.get?_eq_none_iff d k).mpr hc] at h
  simp at h

theorem Dict.set_eq_mapKV {α : Type} {d : Dict α} (hd : d.keys.Nodup) {k : String} {v w : α}
    (h : d.get? k = some v) : d.set k w = d.mapKV fun k' v' => if k' = k then w else v' := by
  induction d with
  | nil => simp at h
  | cons kv d ih =>
    obtain ⟨k', v'⟩ := kv
    simp only [Dict.keys, List.map_cons, List.nodup_cons] at hd
    by_cases hk : k' = k
    · subst hk
      simp only [Dict.set, Dict.mapKV, if_true, List.map_cons, List.cons.injEq, true_and]
      symm
      conv_rhs => rw [← List.map_id d]
      apply List.map_congr_left
      intro kv hkv
      have : kv.1 ≠ k' := fun hc => hd.1 (hc ▸ List.mem_map_of_mem hkv)
      simp [this]
    · simp only [Dict.get?_cons, hk, if_false] at h
      simp only [Dict.set, Dict.mapKV, hk, if_false, List.map_cons, List.cons.injEq, true_and]
      exact ih hd.2 h

theorem Dict.mapKV_mapKV {α β γ : Type} (f : String → α → β) (g : String → β → γ) (d : Dict α) :
    (d.mapKV f).mapKV g = d.mapKV fun k v => g k (f k v) := by
  simp [Dict.mapKV, Function.comp_def]

theorem Dict.mem_get? {α : Type} {d : Dict α} (hd : d.keys.Nodup) {kv : String × α} (h : kv ∈ d) :
    d.get? kv.1 = some kv.2 := by
  induction d with
  | nil => simp at h
  | cons kv' d ih =>
    obtain ⟨k', v'⟩ := kv'
    simp only [Dict.keys, List.map_cons, List.nodup_cons] at hd
    rcases List.mem_cons.mp h with rfl | h
    · simp [Dict.get?_cons]
    · have : k' ≠ kv.1 := fun hc => hd.1 (hc ▸ List.mem_map_of_mem h)
      simp only [Dict.get?_cons, this, if_false]
      exact ih hd.2 h

theorem Dict.mapKV_congr {α β : Type} {f g : String → α → β} {d : Dict α} (hd : d.keys.Nodup)
    (h : ∀ k v, d.get? k = some v → f k v = g k v) : d.mapKV f = d.mapKV g := by
  apply List.map_congr_left
  intro kv hkv
  rw [h _ _ (Dict.mem_get? hd hkv)]

theorem Dict.mapKV_id {α : Type} (d : Dict α) : (d.mapKV fun _ v => v) = d := by
  simp [Dict.mapKV]

/-! ## Closed form of one update -/

theorem iadd_upd {n : ℕ} {v : NpVal} {xs : List Flt} (hv : v.upd n) (hx : xs.length = n) :
    v.iadd xs = .ok (.arr (xs.zipIdx.map fun xi => v.at_ xi.2 + xi.1)) := by
  cases v with
  | scalar x =>
    simp only [NpVal.iadd, at_scalar]
    congr 2
    apply List.ext_getElem <;> simp
  | arr ys =>
    simp only [NpVal.upd] at hv
    simp only [NpVal.iadd, hv, hx, if_true]
    congr 2
    apply List.ext_getElem
    · simp [hv, hx]
    · intro i h1 h2
      have h : i < ys.length := by simp at h1; omega
      simp [at_arr h]

theorem addTo_upd (tm : List ℝ) (M c f : ℝ) (v : NpVal) : (addTo tm M c f v).upd tm.length := by
  simp [addTo, NpVal.upd]

theorem addTo_at {tm : List ℝ} {M c f : ℝ} {v : NpVal} {i : ℕ} (h : i < tm.length) :
    (addTo tm M c f v).at_ i = v.at_ i + fin (tm[i] * c * f / (tm[i] + M)) := by
  rw [addTo, at_arr (by simpa using h)]
  simp

theorem addTo_addTo (tm : List ℝ) (M c f c' f' : ℝ) (v : NpVal) :
    addTo tm M c f (addTo tm M c' f' v) = .arr (tm.zipIdx.map fun mi =>
      v.at_ mi.2 + fin (mi.1 * (c * f + c' * f') / (mi.1 + M))) := by
  simp only [addTo]
  congr 1
  apply List.map_congr_left
  rintro ⟨m, i⟩ hm
  have hi := List.mem_zipIdx hm
  simp only [Nat.zero_add, Nat.sub_zero] at hi
  rw [at_arr (by simpa using hi.2.1)]
  simp only [List.getElem_map, List.getElem_zipIdx, Nat.zero_add, Flt.add_assoc, add_fin]
  have hmi : tm[i]'hi.2.1 = m := hi.2.2.symm
  simp only [hmi]
  congr 2
  ring

theorem addTo_zero {n : ℕ} {tm : List ℝ} {M c f : ℝ} {xs : List Flt} (hl : tm.length = n)
    (hx : xs.length = n) (h : c * f = 0) : addTo tm M c f (.arr xs) = .arr xs := by
  simp only [addTo]
  congr 1
  apply List.ext_getElem
  · simp [hl, hx]
  · intro i h1 h2
    have : tm[i]'(by omega) * c * f = 0 := by rw [mul_assoc, h, mul_zero]
    simp only [List.getElem_map, List.getElem_zipIdx, Nat.zero_add, at_arr h2, this, zero_div]
    exact add_zero _

theorem titrant_contribution_fin {tm : List ℝ} {M c p f : ℝ} (hm : ∀ m ∈ tm, m + M ≠ 0) :
    titrant_contribution (tm.map fin) (fin M) (fin c) (fin p) (fin f)
      = tm.map fun m => fin (m * (c - p) * f / (m + M)) := by
  simp only [titrant_contribution, List.map_map]
  apply List.map_congr_left
  intro m h
  simp [div_fin _ _ (hm m h)]

/-- one named total is updated, the rest is left alone -/
theorem add_cons {tm : List ℝ} {M c p : ℝ} (hm : ∀ m ∈ tm, m + M ≠ 0) {d : Dict NpVal} {k : String}
    {f : ℝ} {rest : List (String × Flt)} {v : NpVal}
    (hk : "total_".toList.isPrefixOf k.toList = true)
    (hv : d.get? k = some v) (hu : v.upd tm.length) :
    add_titrant_totals (tm.map fin) (fin M) (fin c) (fin p) (("titrant_" ++ k, fin f) :: rest) d
      = add_titrant_totals (tm.map fin) (fin M) (fin c) (fin p) rest
          (d.set k (addTo tm M (c - p) f v)) := by
  have ha : pyAssert (titrantPrefix.toList.isPrefixOf ("titrant_" ++ k).toList) = .ok () := by
    rw [titrant_prefix, hk]; rfl
  have hg : d.get k = .ok v := Dict.get_ok_iff.mpr hv
  have hi : v.iadd (titrant_contribution (tm.map fin) (fin M) (fin c) (fin p) (fin f))
      = .ok (addTo tm M (c - p) f v) := by
    rw [titrant_contribution_fin hm, iadd_upd hu (by simp)]
    congr 2
    apply List.ext_getElem <;> simp
  conv_lhs => unfold add_titrant_totals
  simp only [PyS.bind_apply, PyS.lift_apply, ha, PyS.get_apply, dropTitrant_append, hg, hi,
    PyS.set_apply]

theorem named_cons (p : String × ℝ) (tts : List (String × ℝ)) (k : String) :
    named (p :: tts) k = (decide (p.1 = "titrant_" ++ k) || named tts k) := by
  simp [named]

theorem factorSum_cons (p : String × ℝ) (tts : List (String × ℝ)) (k : String) :
    factorSum (p :: tts) k = (if p.1 = "titrant_" ++ k then p.2 else 0) + factorSum tts k := by
  by_cases h : p.1 = "titrant_" ++ k <;> simp [factorSum, h]

theorem factorSum_not_named {tts : List (String × ℝ)} {k : String} (h : named tts k = false) :
    factorSum tts k = 0 := by
  have : tts.filter (fun p => p.1 = "titrant_" ++ k) = [] := by
    apply List.filter_eq_nil_iff.mpr
    intro p hp
    simp only [named, List.any_eq_false] at h
    exact h p hp
  simp only [factorSum, this]; rfl

theorem withTitrant_keys (tm : List ℝ) (M c : ℝ) (tts : List (String × ℝ)) (d : Dict NpVal) :
    (withTitrant tm M c tts d).keys = d.keys := Dict.keys_mapKV _ _

theorem withTitrant_get? (tm : List ℝ) (M c : ℝ) (tts : List (String × ℝ)) (d : Dict NpVal)
    (k : String) : (withTitrant tm M c tts d).get? k
      = (d.get? k).map fun v => if named tts k then addTo tm M c (factorSum tts k) v else v :=
  Dict.get?_mapKV _ _ _

theorem withTitrant_has (tm : List ℝ) (M c : ℝ) (tts : List (String × ℝ)) (d : Dict NpVal)
    (k : String) : (withTitrant tm M c tts d).has k = d.has k := by
  simp [Dict.has, withTitrant_get?]

/-- closed form of `add_titrant_totals` -/
theorem add_eq {tm : List ℝ} {M c p : ℝ} (hm : ∀ m ∈ tm, m + M ≠ 0) (tts : List (String × ℝ))
    (d : Dict NpVal) (hd : d.keys.Nodup) (hg : GoodTT tm.length tts d) :
    add_titrant_totals (tm.map fin) (fin M) (fin c) (fin p) (ttArgs tts) d
      = (.ok (), withTitrant tm M (c - p) tts d) := by
  induction tts generalizing d with
  | nil =>
    have : withTitrant tm M (c - p) [] d = d := by simp [withTitrant, named, Dict.mapKV_id]
    rw [this]; rfl
  | cons q tts ih =>
    obtain ⟨t, f⟩ := q
    obtain ⟨k, v, hq, hk, hv, hu⟩ := hg (t, f) (by simp)
    simp only at hq; subst hq
    have hset := Dict.set_eq_mapKV hd (w := addTo tm M (c - p) f v) hv
    rw [show ttArgs (("titrant_" ++ k, f) :: tts) = ("titrant_" ++ k, fin f) :: ttArgs tts from rfl,
      add_cons hm hk hv hu, hset]
    rw [ih]
    · simp only [withTitrant, Dict.mapKV_mapKV]
      congr 1
      apply Dict.mapKV_congr hd
      intro k' v' hv'
      simp only [named_cons, factorSum_cons, eq_titrant_iff]
      by_cases hkk : k' = k
      · subst hkk
        rw [hv] at hv'
        have : v = v' := by simpa using hv'
        subst this
        simp only [if_true, decide_true, Bool.true_or]
        cases hn : named tts k' with
        | false => simp [factorSum_not_named hn]
        | true =>
          simp only [if_true, addTo_addTo]
          simp only [addTo]
          congr 1
          apply List.map_congr_left
          intro mi _
          congr 2; ring
      · have : ¬ k = k' := fun h => hkk h.symm
        simp only [hkk, this, if_false, decide_false, Bool.false_or, zero_add]
    · rw [Dict.keys_mapKV]; exact hd
    · intro q hq
      obtain ⟨k', v', h1, h2, h3, h4⟩ := hg q (by simp [hq])
      refine ⟨k', if k' = k then addTo tm M (c - p) f v else v', h1, h2, ?_, ?_⟩
      · rw [Dict.get?_mapKV, h3]; rfl
      · split
        · exact addTo_upd ..
        · exact h4

theorem GoodTT.withTitrant {n : ℕ} {tm : List ℝ} {M c : ℝ} {tts : List (String × ℝ)}
    {d : Dict NpVal} (hn : tm.length = n) (h : GoodTT n tts d) :
    GoodTT n tts (withTitrant tm M c tts d) := by
  intro p hp
  obtain ⟨k, v, h1, h2, h3, h4⟩ := h p hp
  refine ⟨k, if named tts k then addTo tm M c (factorSum tts k) v else v, h1, h2, ?_, ?_⟩
  · rw [withTitrant_get?, h3]; rfl
  · split
    · subst hn; exact addTo_upd ..
    · exact h4

/-- contributions add up -/
theorem withTitrant_add (tm : List ℝ) (M c c' : ℝ) (tts : List (String × ℝ)) (d : Dict NpVal) :
    withTitrant tm M c' tts (withTitrant tm M c tts d) = withTitrant tm M (c + c') tts d := by
  simp only [withTitrant, Dict.mapKV_mapKV]
  congr 1
  funext k v
  cases named tts k with
  | false => simp
  | true =>
    simp only [if_true, addTo_addTo]
    simp only [addTo]
    congr 1
    apply List.map_congr_left
    intro mi _
    congr 2; ring

/-- every named total has one value per point -/
def ArrTT (n : ℕ) (tts : List (String × ℝ)) (totals : Dict NpVal) : Prop :=
  ∀ k v, named tts k = true → totals.get? k = some v → ∃ xs, v = .arr xs ∧ xs.length = n

theorem withTitrant_zero {tm : List ℝ} {M : ℝ} {tts : List (String × ℝ)} {d : Dict NpVal}
    (hd : d.keys.Nodup) (ha : ArrTT tm.length tts d) : withTitrant tm M 0 tts d = d := by
  conv_rhs => rw [← Dict.mapKV_id d]
  apply Dict.mapKV_congr hd
  intro k v hv
  cases hn : named tts k with
  | false => simp
  | true =>
    obtain ⟨xs, rfl, hx⟩ := ha k v hn hv
    simp only [if_true]
    exact addTo_zero rfl hx (by ring)

/-! ## Calibrators -/

/-- the residual of a calibration as a function of the trial molinity, evaluated on the original
totals with that trial's titrant only -/
noncomputable def trialRes (solver : Flt → Dict NpVal → Py Flt) (cert : Flt) (tm : List ℝ) (M : ℝ)
    (tts : List (String × ℝ)) (totals : Dict NpVal) (c : ℝ) : Py (List Flt) := do
  let a ← solver (fin c) (withTitrant tm M c tts totals)
  return [a - cert]

theorem trialRes_bind {α : Type} (solve : Flt → Dict NpVal → Py α) (get : α → Flt) (cert : Flt)
    (tm : List ℝ) (M : ℝ) (tts : List (String × ℝ)) (totals : Dict NpVal) :
    trialRes (fun c t => do let sr ← solve c t; return get sr) cert tm M tts totals
      = fun c => do
          let sr ← solve (fin c) (withTitrant tm M c tts totals)
          return [get sr - cert] := by
  funext c
  simp only [trialRes, bind_assoc, pure_bind]

theorem lsqfun_calibrate_eq {tm : List ℝ} {M c : ℝ} (hm : ∀ m ∈ tm, m + M ≠ 0)
    {tts : List (String × ℝ)} {d : Dict NpVal} (hd : d.keys.Nodup) (hg : GoodTT tm.length tts d)
    (solver : Flt → Dict NpVal → Py Flt) (cert : Flt) :
    lsqfun_calibrate solver cert (tm.map fin) (fin M) (ttArgs tts) (fin c) d
      = (trialRes solver cert tm M tts d c,
          match solver (fin c) (withTitrant tm M c tts d) with
          | .ok _ => withTitrant tm M 0 tts d
          | .error _ => withTitrant tm M c tts d) := by
  simp only [lsqfun_calibrate, PyS.bind_apply, add_eq hm tts d hd hg, PyS.get_apply, sub_zero,
    PyS.lift_apply, trialRes]
  cases solver (fin c) (withTitrant tm M c tts d) with
  | error e => rfl
  | ok a =>
    simp only [add_eq hm tts (withTitrant tm M c tts d) (by rw [withTitrant_keys]; exact hd)
      (hg.withTitrant rfl), withTitrant_add, PyS.pure_apply]
    simp [bind_ok, pure_ok]

/-- the optimiser asks for finite molinities only -/
def FiniteTrials (opt : Lsq Flt) : Prop :=
  ∀ x0 hist x, opt.next x0 hist = some x → ∃ c : ℝ, x = fin c

/-- residual function without side effects, seen by the optimiser -/
noncomputable def pureRes (g : ℝ → Py (List Flt)) : Flt → PyS Unit (List Flt)
  | .fin c => PyS.lift (g c)
  | _ => PyS.raise (.Other "non-finite trial")

theorem withTitrant_zero_self (tm : List ℝ) (M c : ℝ) (tts : List (String × ℝ)) (d : Dict NpVal) :
    withTitrant tm M c tts (withTitrant tm M 0 tts d) = withTitrant tm M c tts d := by
  rw [withTitrant_add, zero_add]

theorem loop_calibrate {tm : List ℝ} {M : ℝ} (hm : ∀ m ∈ tm, m + M ≠ 0)
    {tts : List (String × ℝ)} {d : Dict NpVal} (hd : d.keys.Nodup) (hg : GoodTT tm.length tts d)
    (solver : Flt → Dict NpVal → Py Flt) (cert : Flt) (opt : Lsq Flt) (hopt : FiniteTrials opt)
    (x0 : Flt) (n : ℕ) (hist : List (Flt × List Flt)) (s : Dict NpVal)
    (hs : s = d ∨ s = withTitrant tm M 0 tts d) :
    (opt.loop (lsqfun_calibrate solver cert (tm.map fin) (fin M) (ttArgs tts)) x0 n hist s).1
      = (opt.loop (pureRes (trialRes solver cert tm M tts d)) x0 n hist ()).1 ∧
    ((opt.loop (lsqfun_calibrate solver cert (tm.map fin) (fin M) (ttArgs tts)) x0 n hist s).2 = d ∨
     (opt.loop (lsqfun_calibrate solver cert (tm.map fin) (fin M) (ttArgs tts)) x0 n hist s).2
        = withTitrant tm M 0 tts d ∨
     ∃ c e, solver (fin c) (withTitrant tm M c tts d) = .error e ∧
      opt.loop (lsqfun_calibrate solver cert (tm.map fin) (fin M) (ttArgs tts)) x0 n hist s
        = (.error e, withTitrant tm M c tts d)) := by
  have hset : ∀ c, withTitrant tm M c tts s = withTitrant tm M c tts d := by
    intro c
    rcases hs with rfl | rfl
    · rfl
    · exact withTitrant_zero_self ..
  have hsd : s.keys.Nodup := by
    rcases hs with rfl | rfl
    · exact hd
    · rw [withTitrant_keys]; exact hd
  have hsg : GoodTT tm.length tts s := by
    rcases hs with rfl | rfl
    · exact hg
    · exact hg.withTitrant rfl
  induction n generalizing hist s with
  | zero =>
    refine ⟨rfl, ?_⟩
    simp only [Lsq.loop]
    rcases hs with h | h
    · exact .inl h
    · exact .inr (.inl h)
  | succ n ih =>
    simp only [Lsq.loop]
    cases hnx : opt.next x0 hist with
    | none =>
      refine ⟨rfl, ?_⟩
      rcases hs with h | h
      · exact .inl h
      · exact .inr (.inl h)
    | some x =>
      obtain ⟨c, rfl⟩ := hopt _ _ _ hnx
      simp only [lsqfun_calibrate_eq hm hsd hsg, pureRes, PyS.lift_apply, trialRes, hset]
      cases hsol : solver (fin c) (withTitrant tm M c tts d) with
      | error e => exact ⟨rfl, .inr (.inr ⟨c, e, hsol, rfl⟩)⟩
      | ok a =>
        simp only [bind_ok, pure_ok]
        have := ih (hist ++ [(fin c, [a - cert])]) (withTitrant tm M 0 tts d) (.inr rfl)
          (fun c => withTitrant_zero_self ..) (by rw [withTitrant_keys]; exact hd)
          (hg.withTitrant rfl)
        exact this

end Calk
