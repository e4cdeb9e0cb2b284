import Verif.Lemmas.Totals
import Verif.Props.SolvePH

/-!
# Properties C07, C17 (calibration), C28-C30: totals brought by the titrant, and calibration

`withTitrant tm M c tts totals` (Lemmas/Totals.lean, specification part) is the dict `totals` in which
every total named by `tts` has `m·c·factor/(m+M)` added at each point.  `ttArgs tts` are the keyword
arguments `titrant_total_…=factor`.  `GoodTT`: the names have the prefix, the totals exist and have
one value or one value per point.  `ArrTT`: the named totals have one value per point (as produced by
`totals_ks`).
-/

namespace Calk
open Flt Spec

/-! ## C07 -/

theorem zipW_error {f g : Flt → Flt → Flt} {v : NpVal} {xs ys : List Flt} {e : PyErr}
    (hl : xs.length = ys.length) (h : v.zipW f xs = .error e) : v.zipW g ys = .error e := by
  unfold NpVal.zipW at h ⊢
  rw [← hl]
  by_cases hf : v.fits xs.length <;> simp_all

/-- C07: sulfuric-acid dilution succeeds or fails exactly as plain dilution, and is plain dilution
followed by adding the titrant's sulfate. -/
theorem C07_dilute_then_add (totals : Dict NpVal) (c M : ℝ) (tm : List ℝ)
    (hm : ∀ m ∈ tm, 0 < m + M) (hd : totals.keys.Nodup) (v : NpVal)
    (hv : totals.get? "total_sulfate" = some v) (hfin : ∀ i, ∃ x : ℝ, v.at_ i = fin x) :
    (∀ e, dilute_totals totals (tm.map fin) (fin M) = .error e →
      dilute_totals_H2SO4 totals (fin c) (tm.map fin) (fin M) = .error e) ∧
    ∀ d, dilute_totals totals (tm.map fin) (fin M) = .ok d →
      ∃ d', dilute_totals_H2SO4 totals (fin c) (tm.map fin) (fin M) = .ok d' ∧
        add_titrant_totals (tm.map fin) (fin M) (fin c) (fin 0) [("titrant_total_sulfate", fin 1)] d
          = (.ok (), d') := by
  have hm' : ∀ m ∈ tm, m + M ≠ 0 := fun m h => (hm m h).ne'
  have hlen : (dilution_factors (tm.map fin) (fin M)).length = (tm.map fin).length := by simp
  constructor
  · intro e he
    clear hv hd
    simp only [dilute_totals, dilute_totals_H2SO4] at he ⊢
    induction totals with
    | nil => simp [Dict.mapValsM] at he
    | cons kv rest ih =>
      obtain ⟨k, w⟩ := kv
      simp only [Dict.mapValsM] at he ⊢
      cases hw : w.zipW (fun x y => x * y) (dilution_factors (tm.map fin) (fin M)) with
      | error e' =>
        rw [hw] at he
        simp only [bind_error, Except.error.injEq] at he
        subst he
        by_cases hk : k = "total_sulfate"
        · rw [if_neg (by simp [hk]), zipW_error hlen hw]; rfl
        · rw [if_pos hk]; rfl
      | ok w' =>
        obtain ⟨hf, -⟩ := zipW_ok hw
        rw [hw] at he
        simp only [bind_ok] at he
        cases hr : Dict.mapValsM (fun _ v => v.zipW (fun x y => x * y)
            (dilution_factors (tm.map fin) (fin M))) rest with
        | ok r => rw [hr] at he; simp [bind_ok, pure_ok] at he
        | error e' =>
          rw [hr] at he
          simp only [bind_error, Except.error.injEq] at he
          subst he
          rw [ih hr]
          by_cases hk : k = "total_sulfate"
          · rw [if_neg (by simp [hk]), zipW_isOk (by rw [← hlen]; exact hf)]; rfl
          · rw [if_pos hk]; rfl
  · intro d hdil
    -- dilution in closed form
    have key : ∀ (t d : Dict NpVal), Dict.mapValsM (fun _ v => v.zipW (fun x y => x * y)
          (dilution_factors (tm.map fin) (fin M))) t = .ok d →
        (∀ v, t.get? "total_sulfate" = some v → t.keys.Nodup → ∀ i, ∃ x : ℝ, v.at_ i = fin x) →
        t.keys.Nodup →
        Dict.mapValsM (fun k v => if k ≠ "total_sulfate" then
            v.zipW (fun x y => x * y) (dilution_factors (tm.map fin) (fin M))
          else v.zipW (fun x m => (x * fin M + fin c * m) / (fin M + m)) (tm.map fin)) t
        = .ok (d.mapKV fun k v => if k = "total_sulfate" then addTo tm M c 1 v else v) := by
      intro t
      induction t with
      | nil => intro d h _ _; simp [Dict.mapValsM] at h; subst h; rfl
      | cons kv rest ih =>
        intro d h hx hnd
        obtain ⟨k, w⟩ := kv
        simp only [Dict.mapValsM, bind_ok_iff, pure_ok, Except.ok.injEq] at h ⊢
        obtain ⟨w', hw, d', hd', rfl⟩ := h
        have hnd0 := hnd
        simp only [Dict.keys, List.map_cons, List.nodup_cons] at hnd
        have hrec := ih d' hd' (by
          intro v hv _
          by_cases hk : k = "total_sulfate"
          · subst hk
            exact absurd (Dict.has_of_get? hv) hnd.1
          · exact hx v (by simp [Dict.get?_cons, hk, hv])
              hnd0) hnd.2
        by_cases hk : k = "total_sulfate"
        · subst hk
          obtain ⟨hf, rfl⟩ := zipW_ok hw
          refine ⟨addTo tm M c 1 (.arr (List.zipWith (fun x y => x * y)
            (w.bcast (dilution_factors (tm.map fin) (fin M)).length)
            (dilution_factors (tm.map fin) (fin M)))), ?_, _, hrec, ?_⟩
          · rw [if_neg (by simp), zipW_isOk (by rw [← hlen]; exact hf)]
            simp only [addTo, Except.ok.injEq, NpVal.arr.injEq]
            apply List.ext_getElem
            · simp [bcast_length]
            · intro i h1 h2
              have hi : i < tm.length := by simpa using h2
              obtain ⟨x, hx'⟩ := hx w (by simp [Dict.get?_cons])
                hnd0 i
              have hpos := hm' _ (List.getElem_mem hi)
              have hpos' : M + tm[i] ≠ 0 := by rw [add_comm]; exact hpos
              simp only [List.getElem_zipWith, List.getElem_map, List.getElem_zipIdx, Nat.zero_add,
                NpVal.bcast, List.getElem_range, hx']
              rw [at_arr (by simpa using hi)]
              simp only [List.getElem_zipWith, List.getElem_map, List.getElem_range, hx',
                dilution_factors, get_dilution_factor_fin hpos, mul_fin, add_fin,
                div_fin _ _ hpos', fin_inj]
              rw [add_comm M]
              field_simp
          · simp [Dict.mapKV]
        · refine ⟨w', ?_, _, hrec, ?_⟩
          · rw [if_pos hk]; exact hw
          · simp [Dict.mapKV, hk]
    have hcl := key totals d hdil (by
      intro v' hv' _ i
      rw [hv] at hv'
      have : v = v' := by simpa using hv'
      subst this; exact hfin i) hd
    refine ⟨_, hcl, ?_⟩
    have hkeys : d.keys = totals.keys := mapValsM_keys _ _ _ hdil
    rcases mapValsM_get? _ _ _ hdil "total_sulfate" with ⟨h, -⟩ | ⟨v0, w, -, hz, hw⟩
    · rw [hv] at h; simp at h
    obtain ⟨-, rfl⟩ := zipW_ok hz
    have := add_eq (c := c) (p := 0) hm' [("titrant_total_sulfate", 1)] d (by rw [hkeys]; exact hd)
      (by
        intro p hp
        simp only [List.mem_singleton] at hp
        subst hp
        refine ⟨"total_sulfate", _, by decide, by decide, hw, ?_⟩
        simp [NpVal.upd, bcast_length])
    rw [show ttArgs [("titrant_total_sulfate", 1)] = [("titrant_total_sulfate", fin 1)] from rfl]
      at this
    rw [this]
    congr 1
    simp only [withTitrant, sub_zero]
    congr 1
    funext k v
    by_cases hk : k = "total_sulfate"
    · subst hk
      have h1 : named [("titrant_total_sulfate", 1)] "total_sulfate" = true := by
        simp [named]
      have h2 : factorSum [("titrant_total_sulfate", 1)] "total_sulfate" = 1 := by
        simp [factorSum]
      simp [h1, h2]
    · have h1 : named [("titrant_total_sulfate", 1)] k = false := by
        simp only [named, List.any_cons, List.any_nil, Bool.or_false, decide_eq_false_iff_not]
        rw [show ("titrant_total_sulfate" : String) = "titrant_" ++ "total_sulfate" from by decide,
          eq_titrant_iff]
        exact fun h => hk h.symm
      simp [h1, hk]

/-- C07: amount of sulfate in the mixture = analyte's + titrant's. -/
theorem C07_amount (totals d' : Dict NpVal) (c M : ℝ) (tm : List ℝ)
    (hm : ∀ m ∈ tm, 0 < m + M) (v : NpVal) (hv : totals.get? "total_sulfate" = some v)
    (h : dilute_totals_H2SO4 totals (fin c) (tm.map fin) (fin M) = .ok d') (i : ℕ)
    (hi : i < tm.length) (x : ℝ) (hx : v.at_ i = fin x) :
    ∃ w y, d'.get? "total_sulfate" = some w ∧ w.at_ i = fin y ∧
      y * (tm[i] + M) = x * M + c * tm[i] := by
  rcases mapValsM_get? _ _ _ h "total_sulfate" with ⟨h', -⟩ | ⟨v0, w, hv0, hz, hw⟩
  · rw [hv] at h'; simp at h'
  rw [hv] at hv0
  have : v = v0 := by simpa using hv0
  subst this
  simp only [ne_eq, not_true_eq_false, if_false] at hz
  have hpos : M + tm[i] ≠ 0 := by
    have := hm _ (List.getElem_mem hi); rw [add_comm]; exact this.ne'
  refine ⟨w, (x * M + c * tm[i]) / (M + tm[i]), hw, ?_, ?_⟩
  · rw [zipW_at hz (by simpa using hi)]
    simp [hx, div_fin _ _ hpos]
  · rw [add_comm (tm[i]) M]; field_simp

/-- C07 has instances: scalar sulfate and borate, two points. -/
example : ∃ d d', dilute_totals [("total_borate", .scalar (fin 4e-4)), ("total_sulfate", .scalar (fin 0.028))]
      ([0, 1].map fin) (fin 1) = .ok d ∧
    dilute_totals_H2SO4 [("total_borate", .scalar (fin 4e-4)), ("total_sulfate", .scalar (fin 0.028))]
      (fin 0.1) ([0, 1].map fin) (fin 1) = .ok d' ∧
    add_titrant_totals ([0, 1].map fin) (fin 1) (fin 0.1) (fin 0)
      [("titrant_total_sulfate", fin 1)] d = (.ok (), d') := by
  obtain ⟨d, hd⟩ := mapValsM_isOk (fun _ v => v.zipW (fun x y => x * y)
      (dilution_factors ([0, 1].map fin) (fin 1)))
    [("total_borate", NpVal.scalar (fin 4e-4)), ("total_sulfate", .scalar (fin 0.028))]
    (fun kv hkv => ⟨_, zipW_isOk (by
      simp only [List.mem_cons, List.not_mem_nil, or_false] at hkv
      rcases hkv with rfl | rfl <;> rfl)⟩)
  obtain ⟨d', h1, h2⟩ := (C07_dilute_then_add
    [("total_borate", .scalar (fin 4e-4)), ("total_sulfate", .scalar (fin 0.028))] 0.1 1 [0, 1]
    (by simp) (by simp [Dict.keys]) _ (by simp [Dict.get?_cons]; rfl)
    (fun i => ⟨0.028, by simp [at_scalar]⟩)).2 d hd
  exact ⟨d, d', hd, h1, h2⟩

/-! ## C30 -/

/-- C30: exactly the named totals change, each by `m (c - prev) factor / (m + M)` at every point. -/
theorem C30_adds (tm : List ℝ) (M c prev : ℝ) (tts : List (String × ℝ)) (totals : Dict NpVal)
    (hm : ∀ m ∈ tm, m + M ≠ 0) (hd : totals.keys.Nodup) (hg : GoodTT tm.length tts totals) :
    ∃ totals', add_titrant_totals (tm.map fin) (fin M) (fin c) (fin prev) (ttArgs tts) totals
        = (.ok (), totals') ∧ totals'.keys = totals.keys ∧
      ∀ k v, totals.get? k = some v → ∃ v', totals'.get? k = some v' ∧
        ((∀ p ∈ tts, p.1 ≠ "titrant_" ++ k) → v' = v) ∧
        ((∃ p ∈ tts, p.1 = "titrant_" ++ k) → ∃ xs, v' = .arr xs ∧ ∃ hl : xs.length = tm.length,
          ∀ i, (h : i < tm.length) → xs[i] = v.at_ i +
            fin (tm[i] * (c - prev) *
              ((tts.filter fun p => p.1 = "titrant_" ++ k).map Prod.snd).sum / (tm[i] + M))) := by
  refine ⟨_, add_eq hm tts totals hd hg, withTitrant_keys .., ?_⟩
  intro k v hv
  refine ⟨_, by rw [withTitrant_get?, hv]; rfl, ?_, ?_⟩
  · intro hno
    have : named tts k = false := by
      simp only [named, List.any_eq_false, decide_eq_true_eq]
      exact hno
    simp [this]
  · rintro ⟨p, hp, hpk⟩
    have : named tts k = true := by
      simp only [named, List.any_eq_true, decide_eq_true_eq]
      exact ⟨p, hp, hpk⟩
    simp only [this, if_true, addTo, NpVal.arr.injEq, factorSum]
    exact ⟨_, rfl, by simp, fun i h => by simp⟩

/-- C30: totals that are not named are never touched, also when the call raises, for any arguments. -/
theorem C30_untouched (tm : List Flt) (M c prev : Flt) (tts : List (String × Flt))
    (totals : Dict NpVal) (k : String) (hk : ∀ p ∈ tts, dropTitrant p.1 ≠ k) :
    (add_titrant_totals tm M c prev tts totals).2.get? k = totals.get? k := by
  induction tts generalizing totals with
  | nil => rfl
  | cons p tts ih =>
    obtain ⟨t, f⟩ := p
    have hne : k ≠ dropTitrant t := fun h => hk (t, f) (by simp) h.symm
    have hrec := fun d => ih d fun p hp => hk p (by simp [hp])
    unfold add_titrant_totals
    simp only [PyS.bind_apply, PyS.lift_apply, PyS.get_apply]
    cases pyAssert (titrantPrefix.toList.isPrefixOf t.toList) with
    | error e => rfl
    | ok _ =>
      simp only
      cases totals.get (dropTitrant t) with
      | error e => rfl
      | ok v =>
        simp only
        cases v.iadd (titrant_contribution tm M c prev f) with
        | error e => rfl
        | ok w =>
          simp only [PyS.set_apply, hrec, Dict.get?_set_ne _ _ _ _ hne]

/-- C30: replacing molinity `c₁` by `c₂` is the same as adding with `c₂` in the first place. -/
theorem C30_replace (tm : List ℝ) (M c₁ c₂ : ℝ) (tts : List (String × ℝ)) (totals : Dict NpVal)
    (hm : ∀ m ∈ tm, m + M ≠ 0) (hd : totals.keys.Nodup) (hg : GoodTT tm.length tts totals) :
    (do add_titrant_totals (tm.map fin) (fin M) (fin c₁) (fin 0) (ttArgs tts)
        add_titrant_totals (tm.map fin) (fin M) (fin c₂) (fin c₁) (ttArgs tts)) totals
      = add_titrant_totals (tm.map fin) (fin M) (fin c₂) (fin 0) (ttArgs tts) totals := by
  rw [PyS.bind_apply, add_eq hm tts totals hd hg, add_eq hm tts totals hd hg]
  simp only
  rw [add_eq hm tts _ (by rw [withTitrant_keys]; exact hd) (hg.withTitrant rfl), withTitrant_add]
  congr 2; ring

/-- C30: adding and then removing restores the totals exactly. -/
theorem C30_revert (tm : List ℝ) (M c : ℝ) (tts : List (String × ℝ)) (totals : Dict NpVal)
    (hm : ∀ m ∈ tm, m + M ≠ 0) (hd : totals.keys.Nodup) (hg : GoodTT tm.length tts totals)
    (ha : ArrTT tm.length tts totals) :
    (do add_titrant_totals (tm.map fin) (fin M) (fin c) (fin 0) (ttArgs tts)
        add_titrant_totals (tm.map fin) (fin M) (fin 0) (fin c) (ttArgs tts)) totals
      = (.ok (), totals) := by
  rw [PyS.bind_apply, add_eq hm tts totals hd hg]
  simp only
  rw [add_eq hm tts _ (by rw [withTitrant_keys]; exact hd) (hg.withTitrant rfl), withTitrant_add]
  simp [withTitrant_zero hd ha]

/-- C30: the order of the named totals does not matter. -/
theorem C30_order (tm : List ℝ) (M c prev : ℝ) (tts tts' : List (String × ℝ)) (totals : Dict NpVal)
    (hp : tts.Perm tts') (hm : ∀ m ∈ tm, m + M ≠ 0) (hd : totals.keys.Nodup)
    (hg : GoodTT tm.length tts totals) :
    add_titrant_totals (tm.map fin) (fin M) (fin c) (fin prev) (ttArgs tts) totals
      = add_titrant_totals (tm.map fin) (fin M) (fin c) (fin prev) (ttArgs tts') totals := by
  rw [add_eq hm tts totals hd hg, add_eq hm tts' totals hd (fun p h => hg p (hp.mem_iff.mpr h))]
  congr 1
  simp only [withTitrant]
  congr 1
  funext k v
  have h1 : named tts k = named tts' k := by
    simp only [named]
    rw [Bool.eq_iff_iff, List.any_eq_true, List.any_eq_true]
    exact ⟨fun ⟨p, h, h'⟩ => ⟨p, hp.mem_iff.mp h, h'⟩, fun ⟨p, h, h'⟩ => ⟨p, hp.mem_iff.mpr h, h'⟩⟩
  have h2 : factorSum tts k = factorSum tts' k := ((hp.filter _).map _).sum_eq
  rw [h1, h2]

theorem add_append {tm : List ℝ} {M c p : ℝ} (hm : ∀ m ∈ tm, m + M ≠ 0) (pre : List (String × ℝ))
    (post : List (String × Flt)) (d : Dict NpVal) (hd : d.keys.Nodup)
    (hg : GoodTT tm.length pre d) :
    add_titrant_totals (tm.map fin) (fin M) (fin c) (fin p) (ttArgs pre ++ post) d
      = add_titrant_totals (tm.map fin) (fin M) (fin c) (fin p) post
          (add_titrant_totals (tm.map fin) (fin M) (fin c) (fin p) (ttArgs pre) d).2 := by
  induction pre generalizing d with
  | nil => rfl
  | cons q pre ih =>
    obtain ⟨t, f⟩ := q
    obtain ⟨k, v, hq, hk, hv, hu⟩ := hg (t, f) (by simp)
    simp only at hq; subst hq
    rw [show ttArgs (("titrant_" ++ k, f) :: pre) = ("titrant_" ++ k, fin f) :: ttArgs pre from rfl,
      List.cons_append, add_cons hm hk hv hu, add_cons hm hk hv hu]
    have hset := Dict.set_eq_mapKV hd (w := addTo tm M (c - p) f v) hv
    apply ih
    · rw [hset, Dict.keys_mapKV]; exact hd
    · intro q hq
      obtain ⟨k', v', h1, h2, h3, h4⟩ := hg q (by simp [hq])
      refine ⟨k', if k' = k then addTo tm M (c - p) f v else v', h1, h2, ?_, ?_⟩
      · rw [hset, Dict.get?_mapKV, h3]; rfl
      · split
        · exact addTo_upd ..
        · exact h4

/-- C30: a name without the prefix raises AssertionError; the totals named before it have already
been updated, the later ones have not. -/
theorem C30_bad_name (tm : List ℝ) (M c prev : ℝ) (pre : List (String × ℝ)) (t : String) (f : Flt)
    (post : List (String × Flt)) (totals : Dict NpVal) (hm : ∀ m ∈ tm, m + M ≠ 0)
    (hd : totals.keys.Nodup) (hg : GoodTT tm.length pre totals)
    (ht : ¬ "titrant_total_".toList <+: t.toList) :
    add_titrant_totals (tm.map fin) (fin M) (fin c) (fin prev) (ttArgs pre ++ (t, f) :: post) totals
      = (.error .AssertionError, withTitrant tm M (c - prev) pre totals) := by
  rw [add_append hm pre _ totals hd hg, add_eq hm pre totals hd hg]
  have : titrantPrefix.toList.isPrefixOf t.toList = false := by
    rw [← Bool.not_eq_true, List.isPrefixOf_iff_prefix]; exact ht
  unfold add_titrant_totals
  simp [PyS.bind_apply, this, pyAssert]

/-- C30: naming a total that is absent raises KeyError (with the totals before it updated). -/
theorem C30_missing (tm : List ℝ) (M c prev : ℝ) (pre : List (String × ℝ)) (k : String) (f : Flt)
    (post : List (String × Flt)) (totals : Dict NpVal) (hm : ∀ m ∈ tm, m + M ≠ 0)
    (hd : totals.keys.Nodup) (hg : GoodTT tm.length pre totals)
    (hk : "total_".toList <+: k.toList) (hno : totals.get? k = none) :
    add_titrant_totals (tm.map fin) (fin M) (fin c) (fin prev)
        (ttArgs pre ++ ("titrant_" ++ k, f) :: post) totals
      = (.error (.KeyError k), withTitrant tm M (c - prev) pre totals) := by
  rw [add_append hm pre _ totals hd hg, add_eq hm pre totals hd hg]
  have h1 : titrantPrefix.toList.isPrefixOf ("titrant_" ++ k).toList = true := by
    rw [titrant_prefix]; exact List.isPrefixOf_iff_prefix.mpr hk
  have h2 : (withTitrant tm M (c - prev) pre totals).get k = .error (.KeyError k) := by
    simp [Dict.get, withTitrant_get?, hno]
  unfold add_titrant_totals
  simp only [PyS.bind_apply, PyS.lift_apply, h1, pyAssert, if_true, PyS.get_apply,
    dropTitrant_append, h2]

/-- hypotheses of C28-C30 are satisfiable -/
example : GoodTT 2 [("titrant_total_sulfate", 1)]
      [("total_borate", .scalar (fin 1)), ("total_sulfate", .arr [fin 1, fin 2])] ∧
    ArrTT 2 [("titrant_total_sulfate", 1)]
      [("total_borate", .scalar (fin 1)), ("total_sulfate", .arr [fin 1, fin 2])] := by
  constructor
  · intro p hp
    simp only [List.mem_singleton] at hp
    subst hp
    exact ⟨"total_sulfate", .arr [fin 1, fin 2], by decide, by decide,
      by simp [Dict.get?_cons], rfl⟩
  · intro k v hn hv
    simp only [named, List.any_cons, List.any_nil, Bool.or_false, decide_eq_true_eq] at hn
    rw [show ("titrant_total_sulfate" : String) = "titrant_" ++ "total_sulfate" from by decide,
      eq_titrant_iff] at hn
    subst hn
    simp [Dict.get?_cons] at hv
    exact ⟨_, hv.symm, rfl⟩

/-! ## C28 -/

/-- C28 (EMF): whatever the optimiser tries, the calibration sees each trial on the original totals
plus that trial's titrant, and on success the totals are what they were. -/
theorem C28_calibrate_emf (opt : Lsq Flt) (hopt : FiniteTrials opt) (ls : LsFun (Flt × Flt))
    (cert : Flt) (tm : List ℝ) (emf T : List Flt) (M : ℝ) (ks : Dict NpVal) (ai ei : Option Flt)
    (double : Bool) (lo hi c0 n : Flt) (tts : List (String × ℝ)) (totals : Dict NpVal)
    (hm : ∀ m ∈ tm, m + M ≠ 0) (hd : totals.keys.Nodup) (hg : GoodTT tm.length tts totals)
    (ha : ArrTT tm.length tts totals) (r : Py (LsqResult Flt)) (s : Dict NpVal)
    (h : calibrate_emf opt ls cert (tm.map fin) emf T (fin M) ks ai ei double lo hi c0 n
      (ttArgs tts) totals = (r, s)) :
    r = (opt.run (pureRes fun c => do
        let sr ← solve_emf ls (fin c) (tm.map fin) emf T (fin M) (withTitrant tm M c tts totals) ks
          { alkalinity_init := ai, emf0_init := ei, pH_min := lo, pH_max := hi,
            titrant_normality := n } double
        return [sr.alkalinity - cert]) c0 ()).1 ∧
    ∀ r', r = .ok r' → s = totals := by
  simp only [calibrate_emf, Lsq.run] at h
  have := loop_calibrate hm hd hg (fun c totals => do
      let sr ← solve_emf ls c (tm.map fin) emf T (fin M) totals ks
        { alkalinity_init := ai, emf0_init := ei, pH_min := lo, pH_max := hi,
          titrant_normality := n } double
      return sr.alkalinity) cert opt hopt c0 opt.maxEval [] totals (.inl rfl)
  rw [h, withTitrant_zero hd ha] at this
  refine ⟨?_, ?_⟩
  · refine Eq.trans this.1 ?_
    rw [trialRes_bind (fun c t => solve_emf ls c (tm.map fin) emf T (fin M) t ks
      { alkalinity_init := ai, emf0_init := ei, pH_min := lo, pH_max := hi,
        titrant_normality := n } double) (fun sr => sr.alkalinity)]
    rfl
  · rintro r' rfl
    rcases this.2 with h | h | ⟨c, e, -, h⟩
    · exact h
    · exact h
    · simp at h

/-- C28 (pH) -/
theorem C28_calibrate_pH (opt : Lsq Flt) (hopt : FiniteTrials opt) (cert : Flt) (tm : List ℝ)
    (pH : List Flt) (M : ℝ) (ks : Dict NpVal) (lo hi c0 n : Flt) (tts : List (String × ℝ))
    (totals : Dict NpVal)
    (hm : ∀ m ∈ tm, m + M ≠ 0) (hd : totals.keys.Nodup) (hg : GoodTT tm.length tts totals)
    (ha : ArrTT tm.length tts totals) (r : Py (LsqResult Flt)) (s : Dict NpVal)
    (h : calibrate_pH opt cert (tm.map fin) pH (fin M) ks lo hi c0 n (ttArgs tts) totals = (r, s)) :
    r = (opt.run (pureRes fun c => do
        let sr ← solve_pH (fin c) (tm.map fin) pH (fin M) (withTitrant tm M c tts totals) ks
          { pH_min := lo, pH_max := hi, titrant_normality := n }
        return [sr.alkalinity - cert]) c0 ()).1 ∧
    ∀ r', r = .ok r' → s = totals := by
  simp only [calibrate_pH, Lsq.run] at h
  have := loop_calibrate hm hd hg (fun c totals => do
      let sr ← solve_pH c (tm.map fin) pH (fin M) totals ks
        { pH_min := lo, pH_max := hi, titrant_normality := n }
      return sr.alkalinity) cert opt hopt c0 opt.maxEval [] totals (.inl rfl)
  rw [h, withTitrant_zero hd ha] at this
  refine ⟨?_, ?_⟩
  · refine Eq.trans this.1 ?_
    rw [trialRes_bind (fun c t => solve_pH c (tm.map fin) pH (fin M) t ks
      { pH_min := lo, pH_max := hi, titrant_normality := n }) (fun sr => sr.alkalinity)]
    rfl
  · rintro r' rfl
    rcases this.2 with h | h | ⟨c, e, -, h⟩
    · exact h
    · exact h
    · simp at h

/-- C28 (Gran): the totals do not matter at all, but they too are restored. -/
theorem C28_calibrate_pH_gran (opt : Lsq Flt) (hopt : FiniteTrials opt) (cert : Flt) (tm : List ℝ)
    (pH : List Flt) (M : ℝ) (lo hi c0 n : Flt) (tts : List (String × ℝ))
    (totals : Dict NpVal)
    (hm : ∀ m ∈ tm, m + M ≠ 0) (hd : totals.keys.Nodup) (hg : GoodTT tm.length tts totals)
    (ha : ArrTT tm.length tts totals) (r : Py (LsqResult Flt)) (s : Dict NpVal)
    (h : calibrate_pH_gran opt cert (tm.map fin) pH (fin M) lo hi c0 n (ttArgs tts) totals = (r, s)) :
    r = (opt.run (pureRes fun c => do
        let sr ← solve_pH_gran (fin c) (tm.map fin) pH (fin M)
          { pH_min := lo, pH_max := hi, titrant_normality := n }
        return [sr.alkalinity - cert]) c0 ()).1 ∧
    ∀ r', r = .ok r' → s = totals := by
  simp only [calibrate_pH_gran, Lsq.run] at h
  have := loop_calibrate hm hd hg (fun c _ => do
      let sr ← solve_pH_gran c (tm.map fin) pH (fin M)
        { pH_min := lo, pH_max := hi, titrant_normality := n }
      return sr.alkalinity) cert opt hopt c0 opt.maxEval [] totals (.inl rfl)
  rw [h, withTitrant_zero hd ha] at this
  refine ⟨?_, ?_⟩
  · refine Eq.trans this.1 ?_
    rw [trialRes_bind (fun c _ => solve_pH_gran c (tm.map fin) pH (fin M)
      { pH_min := lo, pH_max := hi, titrant_normality := n }) (fun sr => sr.alkalinity)]
    rfl
  · rintro r' rfl
    rcases this.2 with h | h | ⟨c, e, -, h⟩
    · exact h
    · exact h
    · simp at h

/-- C28: totals given as single numbers come back with the same value at every point (as arrays). -/
theorem C28_scalar_totals (opt : Lsq Flt) (hopt : FiniteTrials opt) (cert : Flt) (tm : List ℝ)
    (pH : List Flt) (M : ℝ) (ks : Dict NpVal) (lo hi c0 n : Flt) (tts : List (String × ℝ))
    (totals : Dict NpVal)
    (hm : ∀ m ∈ tm, m + M ≠ 0) (hd : totals.keys.Nodup) (hg : GoodTT tm.length tts totals)
    (r : LsqResult Flt) (s : Dict NpVal)
    (h : calibrate_pH opt cert (tm.map fin) pH (fin M) ks lo hi c0 n (ttArgs tts) totals
      = (.ok r, s)) :
    s.keys = totals.keys ∧ ∀ k v, totals.get? k = some v → ∃ v', s.get? k = some v' ∧
      ∀ i < tm.length, v'.at_ i = v.at_ i := by
  simp only [calibrate_pH, Lsq.run] at h
  have := (loop_calibrate hm hd hg (fun c totals => do
      let sr ← solve_pH c (tm.map fin) pH (fin M) totals ks
        { pH_min := lo, pH_max := hi, titrant_normality := n }
      return sr.alkalinity) cert opt hopt c0 opt.maxEval [] totals (.inl rfl)).2
  rw [h] at this
  rcases this with h | h | ⟨c, e, -, h⟩
  · simp only at h; subst h
    exact ⟨rfl, fun k v hv => ⟨v, hv, fun _ _ => rfl⟩⟩
  · simp only at h; subst h
    refine ⟨withTitrant_keys .., fun k v hv => ⟨_, by rw [withTitrant_get?, hv]; rfl, ?_⟩⟩
    intro i hi
    cases named tts k with
    | false => rfl
    | true =>
      simp only [if_true, addTo_at hi, mul_zero, zero_mul, zero_div]
      exact add_zero _
  · simp at h

theorem run_no_tts (opt : Lsq Flt) (solver : Flt → Dict NpVal → Py Flt) (cert : Flt)
    (tm : List Flt) (M : Flt) (c0 : Flt) (totals : Dict NpVal) :
    ((opt.run (lsqfun_calibrate solver cert tm M []) c0) totals).2 = totals := by
  have h1 : ∀ c, (lsqfun_calibrate solver cert tm M [] c totals).2 = totals := by
    intro c
    simp only [lsqfun_calibrate, add_titrant_totals, PyS.bind_apply, PyS.pure_apply, PyS.get_apply,
      PyS.lift_apply]
    cases solver c totals <;> rfl
  simp only [Lsq.run]
  generalize opt.maxEval = n
  generalize ([] : List (Flt × List Flt)) = hist
  induction n generalizing hist with
  | zero => rfl
  | succ n ih =>
    simp only [Lsq.loop]
    cases opt.next c0 hist with
    | none => rfl
    | some x =>
      have := h1 x
      cases hx : lsqfun_calibrate solver cert tm M [] x totals with
      | mk a s =>
        rw [hx] at this
        simp only at this
        subst this
        simp only [hx]
        cases a with
        | error e => rfl
        | ok a => exact ih _

/-- C28: without titrant totals (HCl) a calibration never changes the totals, whatever is tried and
whether or not it succeeds. -/
theorem C28_no_titrant_totals (opt : Lsq Flt) (ls : LsFun (Flt × Flt)) (cert : Flt)
    (tm xs T : List Flt) (M : Flt) (ks : Dict NpVal) (ai ei : Option Flt) (double : Bool)
    (lo hi c0 n : Flt) (totals : Dict NpVal) :
    (calibrate_emf opt ls cert tm xs T M ks ai ei double lo hi c0 n [] totals).2 = totals ∧
    (calibrate_pH opt cert tm xs M ks lo hi c0 n [] totals).2 = totals ∧
    (calibrate_pH_gran opt cert tm xs M lo hi c0 n [] totals).2 = totals :=
  ⟨run_no_tts .., run_no_tts .., run_no_tts ..⟩

/-! ## C29 -/

/-- C29: if a calibration fails, then either the totals are intact (the optimiser itself gave up) or
they carry the titrant of the trial on which the solver raised. -/
theorem C29_failure (opt : Lsq Flt) (hopt : FiniteTrials opt) (cert : Flt) (tm : List ℝ)
    (pH : List Flt) (M : ℝ) (ks : Dict NpVal) (lo hi c0 n : Flt) (tts : List (String × ℝ))
    (totals : Dict NpVal)
    (hm : ∀ m ∈ tm, m + M ≠ 0) (hd : totals.keys.Nodup) (hg : GoodTT tm.length tts totals)
    (ha : ArrTT tm.length tts totals) (e : PyErr) (s : Dict NpVal)
    (h : calibrate_pH opt cert (tm.map fin) pH (fin M) ks lo hi c0 n (ttArgs tts) totals
      = (.error e, s)) :
    s = totals ∨ ∃ c, solve_pH (fin c) (tm.map fin) pH (fin M) (withTitrant tm M c tts totals) ks
        { pH_min := lo, pH_max := hi, titrant_normality := n } = .error e ∧
      s = withTitrant tm M c tts totals := by
  simp only [calibrate_pH, Lsq.run] at h
  have := (loop_calibrate hm hd hg (fun c totals => do
      let sr ← solve_pH c (tm.map fin) pH (fin M) totals ks
        { pH_min := lo, pH_max := hi, titrant_normality := n }
      return sr.alkalinity) cert opt hopt c0 opt.maxEval [] totals (.inl rfl)).2
  rw [h, withTitrant_zero hd ha] at this
  rcases this with h | h | ⟨c, e', h1, h2⟩
  · exact .inl h
  · exact .inl h
  · simp only [Prod.mk.injEq, Except.error.injEq] at h2
    obtain ⟨rfl, rfl⟩ := h2
    refine .inr ⟨c, ?_, rfl⟩
    cases hs : solve_pH (fin c) (tm.map fin) pH (fin M) (withTitrant tm M c tts totals) ks
        { pH_min := lo, pH_max := hi, titrant_normality := n } with
    | ok sr => simp [hs, bind_ok, pure_ok] at h1
    | error e'' => simpa [hs, bind_error] using h1

/-- C29: with an empty pH window the solver asserts, and the first trial's titrant stays in the
caller's totals: they are different from before. -/
theorem C29_polluted (opt : Lsq Flt) (cert : Flt) (tm : List ℝ)
    (pH : List Flt) (M c : ℝ) (ks : Dict NpVal) (lo hi : ℝ) (c0 n : Flt) (tts : List (String × ℝ))
    (totals : Dict NpVal)
    (hm : ∀ m ∈ tm, m + M ≠ 0) (hd : totals.keys.Nodup) (hg : GoodTT tm.length tts totals)
    (hw : hi ≤ lo) (h1 : opt.next c0 [] = some (fin c)) (h2 : 0 < opt.maxEval) :
    calibrate_pH opt cert (tm.map fin) pH (fin M) ks (fin lo) (fin hi) c0 n (ttArgs tts) totals
      = (.error .AssertionError, withTitrant tm M c tts totals) ∧
    ∀ k v i x, totals.get? k = some v → (h : i < tm.length) → v.at_ i = fin x →
      tm[i] ≠ 0 → c ≠ 0 → ((tts.filter fun p => p.1 = "titrant_" ++ k).map Prod.snd).sum ≠ 0 →
      withTitrant tm M c tts totals ≠ totals := by
  constructor
  · simp only [calibrate_pH, Lsq.run]
    obtain ⟨N, hN⟩ : ∃ N, opt.maxEval = N + 1 := ⟨opt.maxEval - 1, by omega⟩
    have hs : ∀ (c : Flt) (totals : Dict NpVal), solve_pH c (tm.map fin) pH (fin M) totals ks
        { pH_min := fin lo, pH_max := fin hi, titrant_normality := n }
        = .error .AssertionError := by
      intro c totals
      have : ¬ lo < hi := not_lt.mpr hw
      simp [solve_pH, pyAssert, this, bind_error]
    simp only [hN, Lsq.loop, h1, lsqfun_calibrate_eq hm hd hg, trialRes, hs, bind_error]
  · intro k v i x hv hi' hx hm0 hc hf heq
    have hget := withTitrant_get? tm M c tts totals k
    rw [heq, hv] at hget
    have hn : named tts k = true := by
      by_contra hc
      exact hf (factorSum_not_named (by simpa using hc))
    simp only [hn, if_true, Option.map_some, Option.some.injEq] at hget
    have hat := congrArg (fun v => NpVal.at_ v i) hget
    simp only [addTo_at hi', hx, add_fin, fin_inj] at hat
    have hpos := hm _ (List.getElem_mem hi')
    have : tm[i] * c * factorSum tts k / (tm[i] + M) = 0 := by linarith
    rcases div_eq_zero_iff.mp this with h | h
    · have hf' : factorSum tts k ≠ 0 := hf
      simp [hm0, hc, hf'] at h
    · exact hpos h

/-! ## C17: calibration -/

/-- the optimiser reports a point that it evaluated, with the residual found there -/
def ReportsEvaluated (opt : Lsq Flt) : Prop :=
  ∀ x0 hist r, opt.finish x0 hist = .ok r → (r.x, r.fun_) ∈ hist

theorem loop_reports {opt : Lsq Flt} (hr : ReportsEvaluated opt) {g : ℝ → Py (List Flt)} {x0 : Flt}
    (n : ℕ) (hist : List (Flt × List Flt))
    (hh : ∀ p ∈ hist, ∃ c : ℝ, p.1 = fin c ∧ g c = .ok p.2) {r : LsqResult Flt}
    (h : (opt.loop (pureRes g) x0 n hist ()).1 = .ok r) :
    ∃ c : ℝ, r.x = fin c ∧ g c = .ok r.fun_ := by
  induction n generalizing hist with
  | zero => exact hh _ (hr _ _ _ h)
  | succ n ih =>
    simp only [Lsq.loop] at h
    cases hn : opt.next x0 hist with
    | none => rw [hn] at h; exact hh _ (hr _ _ _ h)
    | some x =>
      rw [hn] at h
      cases x with
      | fin c =>
        simp only [pureRes, PyS.lift_apply] at h
        cases hg : g c with
        | error e => rw [hg] at h; simp at h
        | ok v =>
          rw [hg] at h
          refine ih _ ?_ h
          intro p hp
          rcases List.mem_append.mp hp with hp | hp
          · exact hh p hp
          · simp only [List.mem_singleton] at hp; subst hp; exact ⟨c, rfl, hg⟩
      | nan => simp [pureRes] at h
      | ninf => simp [pureRes] at h
      | pinf => simp [pureRes] at h

/-- C17: a calibration that ends with zero residual has found a molinity that reproduces the
certified alkalinity (on the totals with that molinity's titrant). -/
theorem C17_calibrated (opt : Lsq Flt) (hopt : FiniteTrials opt) (hr : ReportsEvaluated opt)
    (cert : ℝ) (tm : List ℝ)
    (pH : List Flt) (M : ℝ) (ks : Dict NpVal) (lo hi c0 n : Flt) (tts : List (String × ℝ))
    (totals : Dict NpVal)
    (hm : ∀ m ∈ tm, m + M ≠ 0) (hd : totals.keys.Nodup) (hg : GoodTT tm.length tts totals)
    (ha : ArrTT tm.length tts totals) (r : LsqResult Flt) (s : Dict NpVal)
    (h : calibrate_pH opt (fin cert) (tm.map fin) pH (fin M) ks lo hi c0 n (ttArgs tts) totals
      = (.ok r, s)) (h0 : r.fun_ = [fin 0]) :
    ∃ c sr, r.x = fin c ∧ solve_pH (fin c) (tm.map fin) pH (fin M) (withTitrant tm M c tts totals) ks
        { pH_min := lo, pH_max := hi, titrant_normality := n } = .ok sr ∧
      sr.alkalinity = fin cert := by
  have := (C28_calibrate_pH opt hopt (fin cert) tm pH M ks lo hi c0 n tts totals hm hd hg ha _ _ h).1
  obtain ⟨c, hx, hc⟩ := loop_reports hr opt.maxEval [] (by simp) this.symm
  simp only [bind_ok_iff, pure_ok, Except.ok.injEq] at hc
  obtain ⟨sr, hsr, hval⟩ := hc
  refine ⟨c, sr, hx, hsr, ?_⟩
  rw [h0] at hval
  simp only [List.cons.injEq, and_true] at hval
  cases ha : sr.alkalinity with
  | fin a => rw [ha] at hval; simp at hval; simp; linarith
  | nan => rw [ha] at hval; cases hval
  | pinf => rw [ha] at hval; cases hval
  | ninf => rw [ha] at hval; cases hval

/-- C17: hence with a titrant that brings no totals (HCl), calibrating in pH mode to zero residual
finds the one molinity that reproduces the certified value. -/
theorem C17_calibration_unique (opt : Lsq Flt) (hopt : FiniteTrials opt) (hr : ReportsEvaluated opt)
    (n M lo hi cert : ℝ) (c0 : Flt) (tm pH : List ℝ) (totals ks : Dict NpVal)
    (hl : tm.length = pH.length) (hw : lo < hi) (hM : 0 < M) (hm : ∀ m ∈ tm, 0 ≤ m) (hn : 0 < n)
    (hd : totals.keys.Nodup)
    (hv : ValidRows totals ks pH.length) (hk : HasKsN totals ks 3)
    (hf : dictFits pH.length totals = true) (hf' : dictFits pH.length ks = true)
    (hin : ∃ i, ∃ (h : i < pH.length), lo ≤ pH[i] ∧ pH[i] ≤ hi ∧ 0 < tm[i]) :
    ∃ cTrue : ℝ, (∃ sr, solve_pH (fin cTrue) (tm.map fin) (pH.map fin) (fin M) totals ks
        { pH_min := fin lo, pH_max := fin hi, titrant_normality := fin n } = .ok sr ∧
        sr.alkalinity = fin cert) ∧
      ∀ r s, calibrate_pH opt (fin cert) (tm.map fin) (pH.map fin) (fin M) ks (fin lo) (fin hi) c0
        (fin n) [] totals = (.ok r, s) → r.fun_ = [fin 0] → r.x = fin cTrue := by
  obtain ⟨cT, h1, h2⟩ := C17_unique_molinity n M lo hi cert tm pH totals ks hl hw hM hm hn hv hk hf hf' hin
  refine ⟨cT, h1, ?_⟩
  intro r s h h0
  obtain ⟨c, sr, hx, hsr, hc⟩ := C17_calibrated opt hopt hr cert tm (pH.map fin) M ks (fin lo) (fin hi) c0
    (fin n) [] totals (fun m h => by have := hm m h; linarith) hd (by intro p hp; simp at hp)
    (by intro k v hn; simp [named] at hn) r s h h0
  have hwt : withTitrant tm M c [] totals = totals := by simp [withTitrant, named, Dict.mapKV_id]
  rw [hwt] at hsr
  rw [hx, h2 c ⟨sr, hsr, hc⟩]

/-- are these all finite numbers? -/
def allFinite (r : List Flt) : Bool := r.all fun y => match y with
  | .fin _ => true
  | _ => false

/-- An optimiser meeting the contracts: evaluates the start point and reports it, unless a residual
there is not finite. -/
def lsqOnce : Lsq Flt where
  next x0 hist := match x0, hist with
    | .fin c, [] => some (.fin c)
    | _, _ => none
  finish _ hist := match hist with
    | [] => .error .ValueError
    | p :: _ => if allFinite p.2 then .ok ⟨p.1, p.2⟩ else .error .ValueError
  maxEval := 5

example : FiniteTrials lsqOnce ∧ ReportsEvaluated lsqOnce := by
  constructor
  · intro x0 hist x h
    simp only [lsqOnce] at h
    split at h
    · exact ⟨_, by simpa using h.symm⟩
    · simp at h
  · intro x0 hist r h
    simp only [lsqOnce] at h
    split at h
    · simp at h
    · split at h
      · simp only [Except.ok.injEq] at h; subst h; simp
      · cases h

/-- C29 happens: two points, sulfuric acid, empty pH window. -/
example : (calibrate_pH lsqOnce (fin 2300) ([0, 1].map fin) [fin 4, fin 3] (fin 1) [] (fin 4) (fin 3)
      (fin 0.1) (fin 2) (ttArgs [("titrant_total_sulfate", 1)])
      [("total_sulfate", .arr [fin 1, fin 2])]).2 ≠ [("total_sulfate", .arr [fin 1, fin 2])] := by
  obtain ⟨h1, h2⟩ := C29_polluted lsqOnce (fin 2300) [0, 1] [fin 4, fin 3] 1 0.1 [] 4 3 (fin 0.1)
    (fin 2) [("titrant_total_sulfate", 1)] [("total_sulfate", .arr [fin 1, fin 2])]
    (by simp) (by simp [Dict.keys])
    (by
      intro p hp
      simp only [List.mem_singleton] at hp
      subst hp
      exact ⟨"total_sulfate", .arr [fin 1, fin 2], by decide, by decide,
        by simp [Dict.get?_cons], rfl⟩) (by norm_num) rfl (by simp [lsqOnce])
  rw [h1]
  exact h2 "total_sulfate" (.arr [fin 1, fin 2]) 1 2 (by simp [Dict.get?_cons]) (by simp)
    (by rw [at_arr (by simp)]; rfl) (by simp) (by norm_num) (by simp)

end Calk
