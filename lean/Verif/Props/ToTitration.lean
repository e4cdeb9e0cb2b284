import Verif.Lemmas.ByName
import Verif.Props.TitrationEmfExample
import Verif.Props.DatasetResults

/-!
# Property C98: a `Titration` made from a row of a solved data set
-/

namespace Calk
open Flt

/-! ## Specification -/

/-- Row `r` and the keyword arguments together give every setting of `files.solve` in one way only: a
setting that is in both has the same value in both, unless the cell is blank, and a blank cell has a
keyword argument to replace it, unless it is a setting for which blank means not given. A file type is
not given both in the old and in the new way. -/
structure OneWay (kw : Dict Val) (cols : List String) (r : Row) : Prop where
  agree : ∀ k ∈ keys_solve, k ∈ cols → ∀ u, titrationArg kw k = some u → (r k).isNull = true ∨ u = r k
  blank : ∀ k ∈ keys_solve, k ∈ cols → k ∉ nullArgs → (r k).isNull = true → titrationArg kw k ≠ none
  main : ∀ k ∈ solveParams, k ∈ cols ∧ titrationArg kw k = none
  file_type : "read_dat_method" ∉ cols ∨ "file_type" ∉ cols

/-- Files have points, with as many temperatures as titrant amounts. PyCO2SYS gives numbers for the
totals of one salinity and, for the constants, numbers or one value per temperature. -/
structure Shaped (w : World) : Prop where
  read : ∀ f kw dd, w.readDat f kw = .ok dd → dd.titrant_amount ≠ [] ∧
    dd.temperature.length = dd.titrant_amount.length
  salts : ∀ S a b c d o p t r, w.saltsAssemble S a b c d o p t = .ok r →
    ∀ k v, r.get? k = some v → ∃ x, v = .scalar x
  ks : ∀ T t a b c d k r, w.equilibriaAssemble T t a b c d k = .ok r →
    ∀ k xs, r.get? k = some (.arr xs) → xs.length = T.length

/-! ## Lemmas -/

/-- a number, or an array of `n` of them -/
def Long (n : ℕ) (v : NpVal) : Prop := ∀ xs, v = .arr xs → xs.length = n

theorem bin_long {f : Flt → Flt → Flt} {n : ℕ} {a b c : NpVal} (h : a.bin f b = .ok c) (ha : Long n a)
    (hb : Long n b) : Long n c := by
  cases a with
  | scalar x => cases b with
    | scalar y => cases h; intro xs e; cases e
    | arr ys => cases h; intro xs e; cases e; simpa using hb _ rfl
  | arr xs => cases b with
    | scalar y => cases h; intro zs e; cases e; simpa using ha _ rfl
    | arr ys =>
      have h1 := ha _ rfl
      have h2 := hb _ rfl
      simp only [NpVal.bin] at h
      rw [if_pos (h1.trans h2.symm)] at h
      cases h
      intro zs e
      cases e
      simp [h1, h2]

theorem filterMap_get? {β : Type} (g : String → Option β) :
    ∀ (l : Dict String) (k : String) (v : β),
      Dict.get? (l.filterMap fun kv => (g kv.2).map fun v => (kv.1, v)) k = some v →
      ∃ p, g p = some v := by
  intro l
  induction l with
  | nil => intro k v h; cases h
  | cons e l ih =>
    intro k v h
    rw [List.filterMap_cons] at h
    cases hg : g e.2 with
    | none => rw [hg] at h; exact ih k v h
    | some u =>
      rw [hg] at h
      simp only [Option.map_some, Dict.get?_cons] at h
      split at h
      · cases h; exact ⟨_, hg⟩
      · exact ih k v h

theorem titrant_masses_shape {dd : DatData} {kw : Dict Val} {tm : List Flt}
    (h : titrant_masses dd kw = .ok tm) : tm.length = dd.titrant_amount.length := by
  unfold titrant_masses at h
  obtain ⟨unit, -, h⟩ := bind_ok_iff.mp h
  obtain ⟨_, -, h⟩ := bind_ok_iff.mp h
  split at h
  · obtain ⟨density, -, h⟩ := bind_ok_iff.mp h
    cases density with
    | some d => rw [← Except.ok.inj h]; simp
    | none =>
      simp only at h
      obtain ⟨titrant, -, h⟩ := bind_ok_iff.mp h
      obtain ⟨_, -, h⟩ := bind_ok_iff.mp h
      split at h
      · obtain ⟨m, -, h⟩ := bind_ok_iff.mp h
        rw [← Except.ok.inj h]; simp
      · obtain ⟨m, -, h⟩ := bind_ok_iff.mp h
        obtain ⟨m', -, h⟩ := bind_ok_iff.mp h
        rw [← Except.ok.inj h]; simp
  · split at h <;> rw [← Except.ok.inj h]
    simp

theorem load_shape {w : World} (hw : Shaped w) {f : String} {S : Flt} {kw : Dict Val} {cv : Converted}
    {totals ks : Dict NpVal} (h : load w f S kw = .ok (cv, totals, ks)) :
    cv.titrant_mass ≠ [] ∧ cv.temperature.length = cv.titrant_mass.length ∧
      ∀ k xs, ks.get? k = some (.arr xs) → xs.length = cv.titrant_mass.length := by
  simp only [load, bind_ok_iff, pure_ok, Except.ok.injEq, Prod.mk.injEq, totals_ks] at h
  obtain ⟨fn, -, dd, hdd, cv', hcv, ⟨t, k⟩, ⟨⟨t0, tp⟩, h0, t1, h1, tpd, htp, ks', hks, h2⟩, h3⟩ := h
  simp only [Prod.mk.injEq] at h2 h3
  obtain ⟨rfl, rfl, rfl⟩ := h3
  obtain ⟨rfl, rfl⟩ := h2
  obtain ⟨hne, hT⟩ := hw.read _ _ _ hdd
  unfold amount_units at hcv
  obtain ⟨T, hTo, hcv⟩ := bind_ok_iff.mp hcv
  obtain ⟨tm, htm, hcv⟩ := bind_ok_iff.mp hcv
  obtain ⟨M, -, hcv⟩ := bind_ok_iff.mp hcv
  have htl := titrant_masses_shape htm
  have hTl : T.length = dd.temperature.length := by
    unfold override_temperature at hTo
    obtain ⟨o, -, hTo⟩ := bind_ok_iff.mp hTo
    cases o <;> rw [← Except.ok.inj hTo]
    simp
  have e := Except.ok.inj hcv
  subst e
  simp only at *
  have hlen : T.length = tm.length := by rw [hTl, hT, htl]
  refine ⟨fun hc => hne (List.length_eq_zero_iff.mp (by rw [← htl, hc]; rfl)), hlen, ?_⟩
  have hts : ∀ k v, tpd.get? k = some v → Long tm.length v := by
    have hsc : ∀ k v, tp.get? k = some v → ∃ x, v = .scalar x := by
      simp only [get_totals, bind_ok_iff, pure_ok, Except.ok.injEq, Prod.mk.injEq] at h0
      obtain ⟨dic, -, alpha, -, beta, -, amm, -, phos, -, sil, -, sulf, -, b, -, f, -, s, -, tp', h,
        t1, -, t2, -, t3, -, t4, -, tb, -, tf, -, ts, -, -, rfl⟩ := h0
      exact hw.salts _ _ _ _ _ _ _ _ _ h
    unfold totals_for_ks at htp
    intro k v hv
    split at htp
    · rcases mapValsM_get? _ _ _ htp k with ⟨-, h4⟩ | ⟨v0, w0, h5, h6, h4⟩
      · rw [h4] at hv; simp at hv
      · rw [h4] at hv
        cases hv
        split at h6
        · simp only [NpVal.zipW] at h6
          split at h6
          · cases h6
            intro xs e
            cases e
            simp [bcast_length, dilution_factors]
          · cases h6
        · cases h6
          obtain ⟨x, rfl⟩ := hsc _ _ h5
          intro xs e; cases e
    · cases htp
      obtain ⟨x, rfl⟩ := hsc _ _ hv
      intro xs e; cases e
  unfold get_k_constants at hks
  obtain ⟨kp0, -, hks⟩ := bind_ok_iff.mp hks
  obtain ⟨kp, hkp, hks⟩ := bind_ok_iff.mp hks
  have hk0 := hw.ks _ _ _ _ _ _ _ _ hkp
  rw [hlen] at hk0
  have hk1 : ∀ k v, Dict.get? (calk_to_pyco2_ks.filterMap fun kv => (kp.get? kv.2).map fun v => (kv.1, v)) k
      = some v → Long tm.length v := by
    intro k v hv
    obtain ⟨p, hp⟩ := filterMap_get? (fun k => kp.get? k) _ k v hv
    intro xs e
    subst e
    exact hk0 _ _ hp
  simp only at hks
  generalize (calk_to_pyco2_ks.filterMap fun kv => (kp.get? kv.2).map fun v => (kv.1, v)) = kc at hk1 hks
  split at hks
  · obtain ⟨tso4, a1, hks⟩ := bind_ok_iff.mp hks
    obtain ⟨kso4, a2, hks⟩ := bind_ok_iff.mp hks
    obtain ⟨ratio, a3, hks⟩ := bind_ok_iff.mp hks
    obtain ⟨kf, a4, hks⟩ := bind_ok_iff.mp hks
    obtain ⟨kf', a5, hks⟩ := bind_ok_iff.mp hks
    rw [← Except.ok.inj hks]
    have l1 := hts _ _ (Dict.get_ok_iff.mp a1)
    have l2 := hk1 _ _ (Dict.get_ok_iff.mp a2)
    have l4 := hk1 _ _ (Dict.get_ok_iff.mp a4)
    have l5 := bin_long a5 l4 (bin_long a3 l1 l2)
    intro k xs hx
    rw [Dict.get?_set] at hx
    split at hx
    · cases hx; exact l5 _ rfl
    · exact hk1 _ _ hx _ rfl
  · rw [← Except.ok.inj hks]
    intro k xs hx
    exact hk1 _ _ hx _ rfl

theorem window_of_dispatch {w : World} {mode : String} {cv : Converted} {c : Flt}
    {totals ks : Dict NpVal} {kw : Dict Val} {sr : SolveRes}
    (h : solve_dispatch w mode cv c totals ks kw = .ok sr) :
    ∃ a b, argNum kw "pH_min" (fin 3) = .ok a ∧ argNum kw "pH_max" (fin 4) = .ok b ∧
      a.lt b = true := by
  have emf : ∀ {st : Dict Val} {o : EmfOpts} {d : Bool} {e T : List Flt} {s : SolveEmf},
      (∀ k ∈ ["pH_min", "pH_max"], ∀ x, argNum st k x = argNum kw k x) →
      emf_opts st = .ok (o, d) → solve_emf w.ls c cv.titrant_mass e T cv.analyte_mass totals ks o d = .ok s →
      ∃ a b, argNum kw "pH_min" (fin 3) = .ok a ∧ argNum kw "pH_max" (fin 4) = .ok b ∧ a.lt b = true := by
    intro st o d e T s hst ho hs
    obtain ⟨o', e1, e2, -, hs⟩ := solve_emf_last hs
    obtain ⟨-, -, -, hlt, -⟩ := solve_emf_false_iff.mp hs
    unfold emf_opts at ho
    simp only [bind_ok_iff] at ho
    obtain ⟨a, -, b, -, x, hx, y, hy, n, -, ho⟩ := ho
    have ho := Except.ok.inj ho
    rw [Prod.mk.injEq] at ho
    rw [hst _ (by decide)] at hx hy
    refine ⟨x, y, hx, hy, ?_⟩
    rw [e1, e2, ← ho.1] at hlt
    exact hlt
  have ph : ∀ {st : Dict Val} {o : PHOpts},
      (∀ k ∈ ["pH_min", "pH_max"], ∀ x, argNum st k x = argNum kw k x) →
      ph_opts st = .ok o → o.pH_min.lt o.pH_max = true →
      ∃ a b, argNum kw "pH_min" (fin 3) = .ok a ∧ argNum kw "pH_max" (fin 4) = .ok b ∧ a.lt b = true := by
    intro st o hst ho hlt
    unfold ph_opts at ho
    simp only [bind_ok_iff] at ho
    obtain ⟨x, hx, y, hy, n, -, ho⟩ := ho
    have ho := Except.ok.inj ho
    rw [hst _ (by decide)] at hx hy
    refine ⟨x, y, hx, hy, ?_⟩
    rw [← ho] at hlt
    exact hlt
  unfold solve_dispatch at h
  split at h
  · simp only [bind_ok_iff] at h
    obtain ⟨⟨o, d⟩, ho, s, hs, h⟩ := h
    exact emf (fun k hk x => argNum_kwargs
      ((by decide : ∀ k ∈ ["pH_min", "pH_max"], k ∈ keys_solve_emf) k hk)) ho hs
  · split at h
    · simp only [bind_ok_iff] at h
      obtain ⟨⟨o, d⟩, ho, e, he, s, hs, h⟩ := h
      refine emf (fun k hk x => ?_) ho hs
      rw [argNum_set _ _ _ (by rintro rfl; revert hk; decide), argNum_kwargs
        ((by decide : ∀ k ∈ ["pH_min", "pH_max"], k ∈ keys_solve_emf) k hk)]
    · split at h
      · simp only [bind_ok_iff] at h
        obtain ⟨o, ho, s, hs, h⟩ := h
        exact ph (fun k hk x => argNum_kwargs
          ((by decide : ∀ k ∈ ["pH_min", "pH_max"], k ∈ keys_solve_pH) k hk)) ho (solve_pH_ok hs).1
      · split at h
        · simp only [bind_ok_iff] at h
          obtain ⟨o, ho, s, hs, h⟩ := h
          refine ph (fun k hk x => argNum_kwargs
            ((by decide : ∀ k ∈ ["pH_min", "pH_max"], k ∈ keys_solve_pH_gran) k hk)) ho ?_
          by_contra hc
          unfold solve_pH_gran at hs
          obtain ⟨_, hp, -⟩ := bind_ok_iff.mp hs
          simp [pyAssert, hc] at hp
        · cases h

theorem addCol_nodup {l : List String} (h : l.Nodup) (c : String) : (addCol l c).Nodup := by
  unfold addCol
  split
  · exact h
  · rename_i hc
    exact List.nodup_append.mpr ⟨h, by simp, by
      intro a ha b hb hab
      simp only [List.mem_singleton] at hb
      subst hb; subst hab
      exact hc (by simpa using ha)⟩

theorem Series.keys_dict (s : Series) : s.dict.keys = s.labels := by
  simp only [Series.dict, rowDict, Dict.keys, List.map_map]
  exact (List.map_congr_left fun a _ => rfl).trans (List.map_id _)

theorem titrationRow_labels {row row' : Series} {kw : Dict Val} (h : titrationRow row kw = .ok row')
    (hn : row.labels.Nodup) : row'.labels.Nodup := by
  unfold titrationRow at h
  obtain ⟨kwb, -, h⟩ := bind_ok_iff.mp h
  rw [← Except.ok.inj h]
  have : ∀ (l : Dict Val) (s : Series), s.labels.Nodup →
      (l.foldl (fun s kv => s.set kv.1 kv.2) s).labels.Nodup := by
    intro l
    induction l with
    | nil => exact fun s h => h
    | cons kv l ih => exact fun s h => ih (s.set kv.1 kv.2) (addCol_nodup h _)
  exact this kwb row hn

theorem keys_solve_params : ∀ k ∈ keys_solve, k ∉ solveParams := by decide +kernel

/-- the settings of the data set and those of the Titration -/
theorem settings_alike {kw kwb : Dict Val} {cols : List String} {r : Row} {row' : Series}
    (hk : kw.keys.Nodup) (hn : (nestedArgs kw).keys.Nodup) (ho : OneWay kw cols r)
    (hb : backcompat kw (rowDict cols r) = .ok kwb) (hr : titrationRow ⟨cols, r⟩ kw = .ok row') :
    Alike (fun k => keys_solve.contains k) (get_kwargs_for keys_solve kwb (some (rowDict cols r)))
      (row'.dict.filter fun kv => !solveParams.contains kv.1) := by
  have e : ∀ k ∈ keys_solve, (get_kwargs_for keys_solve kwb (some (rowDict cols r))).get? k
        = chosen kwb (rowDict cols r) k ∧
      Dict.get? (row'.dict.filter fun kv => !solveParams.contains kv.1) k
        = (kwb.get? k).or (Dict.get? (rowDict cols r) k) := by
    intro k hk'
    refine ⟨by rw [C31_value, if_pos hk'], ?_⟩
    have := Dict.get?_filter (fun k => !solveParams.contains k) row'.dict k
    rw [this]
    obtain ⟨kw', h1, h2⟩ := titrationRow_ok hk hr
    have h1' : backcompat kw (rowDict cols r) = .ok kw' := h1
    rw [hb] at h1'
    cases h1'
    have hp := keys_solve_params k hk'
    simp only [List.contains_iff_mem, hp, decide_false, Bool.not_false, if_true, h2]
    simp [hp]
    rfl
  have ek : ∀ k ∈ keys_solve, k ∈ cols → kwb.get? k = titrationArg kw k := by
    intro k _ hkc
    rw [backcompat_args hn hb, rowDict_get?]
    by_cases hf : k = "file_type"
    · subst hf
      rw [if_pos rfl, if_neg (ho.file_type.resolve_right fun h => h hkc)]
      rfl
    · rw [if_neg hf]
  have key : ∀ k ∈ keys_solve,
      chosen kwb (rowDict cols r) k = (kwb.get? k).or (Dict.get? (rowDict cols r) k) ∨
      (k ∈ nullArgs ∧ chosen kwb (rowDict cols r) k = none ∧ ∃ v, v.isNull = true ∧
        (kwb.get? k).or (Dict.get? (rowDict cols r) k) = some v) := by
    intro k hk'
    unfold chosen
    rw [rowDict_get?]
    by_cases hkc : k ∈ cols
    · rw [if_pos hkc, ek k hk' hkc]
      simp only
      cases hv : (r k).isNull with
      | false =>
        left
        cases ha : titrationArg kw k with
        | none => simp
        | some u =>
          rcases ho.agree k hk' hkc u ha with h | h
          · rw [hv] at h; cases h
          · subst h; simp
      | true =>
        cases ha : titrationArg kw k with
        | some u => left; simp
        | none =>
          right
          refine ⟨?_, by simp, r k, hv, by simp⟩
          by_contra hnull
          exact ho.blank k hk' hkc hnull hv ha
    · rw [if_neg hkc]; left; simp
  constructor
  · intro k hk' hnull
    have hk' : k ∈ keys_solve := by simpa using hk'
    obtain ⟨e1, e2⟩ := e k hk'
    rw [e1, e2]
    exact (key k hk').resolve_right fun h => hnull h.1
  · intro k hk' _
    have hk' : k ∈ keys_solve := by simpa using hk'
    obtain ⟨e1, e2⟩ := e k hk'
    rcases key k hk' with h | ⟨-, h1, v, hv, h2⟩
    · exact argNotNull_of_get (by rw [e1, e2, h])
    · simp only [argNotNull, e1, e2, h1, h2, hv, if_true]

/-- what `add_solve_results` writes is what a row that reports the same solution holds -/
theorem results_same {sr : SolveRes} {s s' : Row} {u : Unit} (h : add_solve_results sr s = (.ok u, s'))
    {r : Row} (hr : Reports r sr) : ∀ k ∈ resultLabels sr, s' k = r k := by
  have e : s' = (add_solve_results sr s).2 := by rw [h]
  subst e
  cases sr with
  | emf sr T =>
    obtain ⟨r1, r2, r3, r4, r5, r6, r7, r8⟩ := hr
    intro k hk
    revert h
    rcases hp : sr.pH with _ | ⟨p, ps⟩ <;> rcases T with _ | ⟨t, ts⟩ <;>
    simp only [add_solve_results, putNum, putFirst, hp, PyS.bind_apply, PyS.modify, PyS.raise,
      Prod.mk.injEq, reduceCtorEq, false_and, IsEmpty.forall_iff, true_and]
    intro _
    simp only [resultLabels, List.mem_cons, List.not_mem_nil, or_false] at hk
    rw [hp] at r7 r8
    rcases hk with rfl | rfl | rfl | rfl | rfl | rfl | rfl | rfl <;>
      simp [Row.put, r1, r2, r3, r4, r5, r6, r7, r8, countUsed_eq, firstOr]
  | pH sr ph T =>
    obtain ⟨r1, r2, r3, r4, r5, r6, r7, r8⟩ := hr
    intro k hk
    revert h
    rcases ph with _ | ⟨p, ps⟩ <;> rcases T with _ | ⟨t, ts⟩ <;>
    simp only [add_solve_results, putNum, putFirst, PyS.bind_apply, PyS.modify, PyS.raise,
      Prod.mk.injEq, reduceCtorEq, false_and, IsEmpty.forall_iff, true_and]
    intro _
    simp only [resultLabels, List.mem_cons, List.not_mem_nil, or_false] at hk
    rcases hk with rfl | rfl | rfl | rfl | rfl <;>
      simp [Row.put, r1, r3, r4, r7, r8, countUsed_eq, firstOr]
  | pH_gran sr ph T =>
    obtain ⟨r1, r2, r3, r4, r5, r6, r7, r8⟩ := hr
    intro k hk
    revert h
    rcases ph with _ | ⟨p, ps⟩ <;> rcases T with _ | ⟨t, ts⟩ <;>
    simp only [add_solve_results, putNum, putFirst, PyS.bind_apply, PyS.modify, PyS.raise,
      Prod.mk.injEq, reduceCtorEq, false_and, IsEmpty.forall_iff, true_and]
    intro _
    simp only [resultLabels, List.mem_cons, List.not_mem_nil, or_false] at hk
    rcases hk with rfl | rfl | rfl | rfl <;>
      simp [Row.put, r1, r3, r7, r8, countUsed_eq, firstOr]

/-! ## C98 -/

/-- **C98**: with the keyword arguments that the data set was solved with, and settings that are given
one way only, a Titration made from a row holds the results that the row holds. -/
theorem C98_same (w : World) (sys : SysIn → Py SysOut) (hw : ByName w) (kw : Dict Val) (df df' : DF)
    (h : dataset_solve w kw df = (.ok (), df')) (hk : kw.keys.Nodup) (hn : (nestedArgs kw).keys.Nodup)
    (hcols : df'.cols.Nodup) (i : ℕ) (r : Row) (hi : df'.rows[i]? = some r)
    (hg : Spec.Counts (r "file_good")) (ho : OneWay kw df'.cols r) (f : String) (c S : Flt)
    (hf : r "file_name" = .str f) (hc : r "titrant_molinity" = .num c) (hcn : c ≠ nan)
    (hS : r "salinity" = .num S) (tt : Titration) (ht : to_Titration w sys df' i kw = .ok tt) :
    Reports r tt.sr.sr ∧ ∀ k ∈ resultLabels tt.sr.sr, tt.row.dict.get? k = some (r k) := by
  have ht' : Titration_init w sys ⟨df'.cols, r⟩ kw = .ok tt := by
    unfold to_Titration at ht
    rw [hi] at ht
    exact ht
  obtain ⟨row', t0, t1, h1, h2, h3, -⟩ := Titration_ok ht'
  obtain ⟨f', c', S', e1, ⟨v2, e2, e2'⟩, ⟨v3, e3, e3'⟩, hs⟩ := titration_solve_ok h2
  have hset := C64_settings _ _ _ hk hn h1
  have par : ∀ k ∈ solveParams, row'.dict.get? k = some (r k) := by
    intro k hk'
    obtain ⟨m1, m2⟩ := ho.main k hk'
    have : k ≠ "file_type" := by rintro rfl; revert hk'; decide
    rw [hset, titrationSetting_ne _ _ this, m2, Series.dict_get?, if_pos m1]
    rfl
  rw [par _ (by decide), hf] at e1
  rw [par _ (by decide), hc] at e2
  rw [par _ (by decide), hS] at e3
  cases e1; cases e2; cases e3; cases e2'; cases e3'
  have hsr : files_solve w f c S (row'.dict.filter fun kv => !solveParams.contains kv.1) = .ok tt.sr.sr := by
    rw [files_solve_all_sr, hs]; rfl
  obtain ⟨kwb, hb, -⟩ := titrationRow_ok hk h1
  have hb : backcompat kw (rowDict df'.cols r) = .ok kwb := hb
  have hal := settings_alike hk hn ho hb h1
  have hn1 : (Dict.keys (row'.dict.filter fun kv => !solveParams.contains kv.1)).Nodup := by
    refine Dict.filter_keys_nodup ?_ (fun k => !solveParams.contains k)
    rw [Series.keys_dict]
    exact titrationRow_labels h1 hcols
  have hds := files_solve_alike hw hn1 (get_kwargs_nodup (backcompat_nodup hk hb) _) hal.symm hsr
  have hrep := (results_of_call h (List.mem_of_getElem? hi) hg hb (ho.main "file_name" (by decide)).1 hf hc
    hcn hS).1 _ hds
  refine ⟨hrep, ?_⟩
  unfold resultRow at h3
  rcases hx : add_solve_results tt.sr.sr row'.val with ⟨x, val⟩
  rw [hx] at h3
  cases x with
  | error e => cases h3
  | ok u =>
    have h3 := Except.ok.inj h3
    intro k hk'
    rw [← h3, Series.dict_get?]
    simp only [mem_foldl_addCol]
    rw [if_pos (.inr hk'), results_same hx hrep k hk']

/-- a Titration can be made if the file can be solved with the settings that a data set would use -/
theorem made_of_settings {w : World} {sys : SysIn → Py SysOut} (hsys : SysTotal sys) (hw : ByName w)
    (hsh : Shaped w) {kw kwb : Dict Val} {df : DF} (hk : kw.keys.Nodup)
    (hn : (nestedArgs kw).keys.Nodup) (hcols : df.cols.Nodup) {i : ℕ} {r : Row}
    (hi : df.rows[i]? = some r) (ho : OneWay kw df.cols r) {f : String} {c S M : Flt}
    (hf : r "file_name" = .str f) (hc : r "titrant_molinity" = .num c) (hS : r "salinity" = .num S)
    (hM : "analyte_mass" ∈ df.cols) (hM' : r "analyte_mass" = .num M)
    (hMk : titrationArg kw "analyte_mass" = none) (hb : backcompat kw (rowDict df.cols r) = .ok kwb)
    {sr : SolveRes}
    (hsr : files_solve w f c S (get_kwargs_for keys_solve kwb (some (rowDict df.cols r))) = .ok sr) :
    ∃ tt, to_Titration w sys df i kw = .ok tt ∧ tt.sr.sr = sr := by
  obtain ⟨row', hrow⟩ : ∃ row', titrationRow ⟨df.cols, r⟩ kw = .ok row' := by
    refine ⟨kwb.foldl (fun s kv => s.set kv.1 kv.2) ⟨df.cols, r⟩, ?_⟩
    unfold titrationRow
    have : backcompat kw (Series.dict ⟨df.cols, r⟩) = .ok kwb := hb
    rw [this]
    rfl
  have hal := settings_alike hk hn ho hb hrow
  have hn1 : (Dict.keys (row'.dict.filter fun kv => !solveParams.contains kv.1)).Nodup := by
    refine Dict.filter_keys_nodup ?_ (fun k => !solveParams.contains k)
    rw [Series.keys_dict]
    exact titrationRow_labels hrow hcols
  have hts := files_solve_alike hw (get_kwargs_nodup (backcompat_nodup hk hb) _) hn1 hal hsr
  rw [files_solve_all_sr] at hts
  obtain ⟨o, hso, hsr'⟩ := bind_ok_iff.mp hts
  have hset := C64_settings _ _ _ hk hn hrow
  have par : ∀ k ∈ solveParams, row'.dict.get? k = some (r k) := by
    intro k hk'
    obtain ⟨m1, m2⟩ := ho.main k hk'
    have : k ≠ "file_type" := by rintro rfl; revert hk'; decide
    rw [hset, titrationSetting_ne _ _ this, m2, Series.dict_get?, if_pos m1]
    rfl
  have hts' : titration_solve w row' = .ok o := by
    unfold titration_solve required
    simp only [par _ (by decide : "file_name" ∈ solveParams), par _ (by decide : "titrant_molinity" ∈ solveParams),
      par _ (by decide : "salinity" ∈ solveParams), hf, hc, hS, bind_ok, Val.toStr, Val.toFlt, hso]
  obtain ⟨_, _, _, hload, -⟩ := files_solve_all_ok hso
  obtain ⟨s1, s2, s3⟩ := load_shape hsh hload
  obtain ⟨tt, htt, hto⟩ := C88_made w sys hsys ⟨df.cols, r⟩ row' kw hk hn o hrow hts' s1 s2 s3 M (.num M)
    (by rw [titrationSetting_ne _ _ (by decide), hMk, Series.dict_get?, if_pos hM]; exact congrArg some hM') rfl
  exact ⟨tt, by unfold to_Titration; rw [hi]; exact htt, by rw [hto]; exact Except.ok.inj hsr'⟩

/-- **C98**: such a Titration can be made for every row with an alkalinity. -/
theorem C98_made (w : World) (sys : SysIn → Py SysOut) (hsys : SysTotal sys) (hw : ByName w)
    (kw : Dict Val) (df df' : DF) (h : dataset_solve w kw df = (.ok (), df')) (hk : kw.keys.Nodup)
    (hn : (nestedArgs kw).keys.Nodup) (hcols : df'.cols.Nodup) (i : ℕ) (r : Row)
    (hi : df'.rows[i]? = some r) (hg : Spec.Counts (r "file_good")) (ho : OneWay kw df'.cols r)
    (f : String) (c S M : Flt) (hf : r "file_name" = .str f) (hc : r "titrant_molinity" = .num c)
    (hcn : c ≠ nan) (hS : r "salinity" = .num S) (hM : "analyte_mass" ∈ df'.cols)
    (hM' : r "analyte_mass" = .num M) (hMk : titrationArg kw "analyte_mass" = none)
    (halk : r "alkalinity" ≠ .num nan)
    (hsh : Shaped w) :
    ∃ tt, to_Titration w sys df' i kw = .ok tt := by
  obtain ⟨s, hs, hrs⟩ := solved_self h (List.mem_of_getElem? hi)
  obtain ⟨kwb, hb⟩ : ∃ kwb, backcompat kw (rowDict df'.cols r) = .ok kwb := by
    cases hb : backcompat kw (rowDict df'.cols r) with
    | ok kwb => exact ⟨kwb, rfl⟩
    | error e =>
      exfalso
      have hnull : (r "titrant_molinity").isNull = false := by
        rw [hc]; cases c <;> first | rfl | exact absurd rfl hcn
      unfold solve_row at hs
      rw [if_pos (by rw [hnull, truthy_iff.mpr hg]; rfl)] at hs
      have : solve_attempt w kw df'.cols r (blankSolved r) = (.error e, blankSolved r) := by
        unfold solve_attempt
        rw [PyS.lift_bind, solve_call, hb]
        rfl
      rw [this] at hs
      simp only [caught] at hs
      rw [if_pos (by simpa using (ho.main "file_name" (by decide)).1)] at hs
      have e := hrs "alkalinity" (by decide)
      rw [← Except.ok.inj hs] at e
      exact halk e
  obtain ⟨-, h2⟩ := results_of_call h (List.mem_of_getElem? hi) hg hb (ho.main "file_name" (by decide)).1
    hf hc hcn hS
  obtain ⟨sr, hsr⟩ : ∃ sr, files_solve w f c S
      (get_kwargs_for keys_solve kwb (some (rowDict df'.cols r))) = .ok sr := by
    cases hx : files_solve w f c S (get_kwargs_for keys_solve kwb (some (rowDict df'.cols r))) with
    | ok sr => exact ⟨sr, rfl⟩
    | error e => exact absurd ((h2 e hx).2 "alkalinity" (by simp)) halk
  obtain ⟨tt, htt, -⟩ := made_of_settings (sys := sys) hsys hw hsh hk hn hcols hi ho hf hc hS hM hM' hMk hb hsr
  exact ⟨tt, htt⟩

/-! ## What is not carried over -/

/-- **C98**: a blank `pH_min` or `pH_max`, for which the data set takes the default, makes a
Titration impossible. -/
theorem C98_blank_limit (w : World) (sys : SysIn → Py SysOut) (df : DF) (i : ℕ) (r : Row)
    (kw : Dict Val) (hk : kw.keys.Nodup) (hn : (nestedArgs kw).keys.Nodup)
    (hi : df.rows[i]? = some r) (k : String) (hkk : k = "pH_min" ∨ k = "pH_max") (hkc : k ∈ df.cols)
    (hr : r k = .num nan) (ha : titrationArg kw k = none) (tt : Titration) :
    to_Titration w sys df i kw ≠ .ok tt := by
  intro ht
  have ht' : Titration_init w sys ⟨df.cols, r⟩ kw = .ok tt := by
    unfold to_Titration at ht
    rw [hi] at ht
    exact ht
  obtain ⟨f, c, S, kws, hs, -, -, -, -, hkws⟩ := C64_call w sys _ _ _ hk hn ht'
  obtain ⟨_, _, mode, -, -, -, -, hd, -⟩ := files_solve_all_ok hs
  obtain ⟨a, b, h1, h2, hlt⟩ := window_of_dispatch hd
  have hset : kws.get? k = some (.num nan) := by
    rw [hkws, if_neg (by rcases hkk with rfl | rfl <;> decide), titrationSetting_ne _ _
      (by rcases hkk with rfl | rfl <;> decide), ha, Series.dict_get?, if_pos hkc]
    exact congrArg some hr
  rcases hkk with rfl | rfl
  · simp only [argNum, hset, Val.toFlt] at h1
    cases h1
    cases b <;> cases hlt
  · simp only [argNum, hset, Val.toFlt] at h2
    cases h2
    cases a <;> cases hlt

/-! ## Cases -/

theorem tW_byName : ByName tW := fun _ _ _ _ => rfl

theorem tW_shaped : Shaped tW where
  read := by intro f kw dd h; cases h; exact ⟨by simp [tDat], rfl⟩
  salts := by
    intro S a b c d o p t r h k v hv
    cases h
    have := Dict.mem_of_get? hv
    simp only [List.mem_cons, Prod.mk.injEq, List.not_mem_nil, or_false] at this
    rcases this with h | h | h <;> exact ⟨_, h.2⟩
  ks := by
    intro T t a b c d k r h k' xs hv
    cases h
    have := Dict.mem_of_get? hv
    simp at this

theorem d_arg (n : Option ℝ) (k : String) : titrationArg (dKw n) k = (dKw n).get? k := by
  have hn : nestedArgs (dKw n) = [] := by cases n <;> simp [nestedArgs, dKw, Dict.get?]
  have hd : ∀ k, directArg (dKw n) k = (dKw n).get? k := by intro k; simp [directArg, hn, Dict.get?]
  have hr : rangeArg (dKw n) = none := by
    have : (dKw n).get? "pH_range" = none := by cases n <;> simp [dKw, Dict.get?]
    rw [rangeArg, hd, this]; rfl
  have hm : (dKw n).get? "read_dat_method" = none := by cases n <;> simp [dKw, Dict.get?]
  unfold titrationArg
  split_ifs <;> simp [hr, hd, hm]

theorem d_nodup (n : Option ℝ) : (dKw n).keys.Nodup ∧ (nestedArgs (dKw n)).keys.Nodup := by
  cases n <;> simp [dKw, Dict.keys, nestedArgs, Dict.get?]

theorem d_oneWay (n : Option ℝ) (r : Row)
    (h : ∀ c, c ∉ solvedCols ∨ c = "analyte_mass" → c ≠ "alkalinity_offset" → r c = dRow c) :
    OneWay (dKw n) (doneCols dCols) r where
  agree := by
    intro k hk hkc u hu
    left
    rw [d_arg] at hu
    have : k = "pH_min" := by
      have h1 := Dict.mem_of_get? hu
      cases n with
      | none =>
        simp only [dKw, Option.elim, List.mem_cons, List.not_mem_nil, or_false, Prod.mk.injEq] at h1
        exact h1.1
      | some n =>
        simp only [dKw, Option.elim, List.mem_cons, List.not_mem_nil, or_false, Prod.mk.injEq] at h1
        rcases h1 with h1 | h1
        · exact h1.1
        · rw [h1.1] at hkc
          exact absurd hkc (by decide +kernel)
    subst this
    rw [h _ (by decide) (by decide)]
    rfl
  blank := by
    intro k hk hkc _ hnull
    rw [d_arg]
    have hl : k ∈ dCols ∧ k ≠ "file_name" :=
      (by decide +kernel : ∀ k ∈ keys_solve, k ∈ doneCols dCols → k ∈ dCols ∧ k ≠ "file_name") k hk hkc
    have h1 : k ∉ solvedCols ∨ k = "analyte_mass" :=
      (by decide : ∀ k ∈ keys_solve, k ∉ solvedCols ∨ k = "analyte_mass") k hk
    have h2 : k ≠ "alkalinity_offset" := by rintro rfl; revert hk; decide
    rw [h k h1 h2] at hnull
    have hp : k = "pH_min" := by
      have := hl.1
      simp only [dCols, List.mem_cons, List.not_mem_nil, or_false] at this
      rcases this with rfl | rfl | rfl | rfl | rfl | rfl | rfl | rfl | rfl | rfl | rfl | rfl | rfl <;>
        first | rfl | (exfalso; revert hnull; simp [dRow, Val.isNull])
    subst hp
    simp [dKw, Dict.get?]
  main := by
    intro k hk
    rw [d_arg]
    constructor
    · exact (by decide +kernel : ∀ k ∈ solveParams, k ∈ doneCols dCols) k hk
    · simp only [solveParams, List.mem_cons, List.not_mem_nil, or_false] at hk
      rcases hk with rfl | rfl | rfl <;> cases n <;> simp [dKw, Dict.get?]
  file_type := .inl (by decide +kernel)

theorem d_nodup_cols : (doneCols dCols).Nodup := by decide +kernel

/-- the Titration of the row of the data set solved with normality `m`, made with normality `n` -/
theorem d_made (n : Option ℝ) (r : Row)
    (h : ∀ c, c ∉ solvedCols ∨ c = "analyte_mass" → c ≠ "alkalinity_offset" → r c = dRow c) :
    ∃ tt, to_Titration tW tSys ⟨doneCols dCols, [r]⟩ 0 (dKw n) = .ok tt ∧ tt.sr.sr
      = .pH (phRes (fin 0.1) [fin 0, fin 1] [fin 8, fin 3.5] (fin 1) (tTotals (fin 1)) tKs
        { pH_min := fin 3.2, pH_max := fin 4, titrant_normality := fin (n.getD 1) }) [fin 8, fin 3.5]
        [fin 25, fin 25] := by
  have hst : get_kwargs_for keys_solve (dKw n) (some (rowDict (doneCols dCols) r)) = dSt n := by
    apply get_kwargs_row_congr
    intro k hkk
    have h1 : k ∉ solvedCols ∨ k = "analyte_mass" :=
      (by decide : ∀ k ∈ keys_solve, k ∉ solvedCols ∨ k = "analyte_mass") k hkk
    have h2 : k ≠ "alkalinity_offset" := by rintro rfl; revert hkk; decide
    rw [rowDict_get?, rowDict_get?, h k h1 h2]
    have : k ∈ doneCols dCols ↔ k ∈ dCols :=
      (by decide +kernel : ∀ k ∈ keys_solve, (k ∈ doneCols dCols ↔ k ∈ dCols)) k hkk
    simp only [this]
  refine made_of_settings (kwb := dKw n) (c := fin 0.1) (S := fin 35) (M := fin 1) tSys_total tW_byName
    tW_shaped (d_nodup n).1 (d_nodup n).2 d_nodup_cols rfl (d_oneWay n r h)
    (by rw [h _ (by decide) (by decide)]; rfl) (by rw [h _ (by decide) (by decide)]; rfl)
    (by rw [h _ (by decide) (by decide)]; rfl) (by show "analyte_mass" ∈ doneCols dCols; decide +kernel)
    (by rw [h _ (by decide) (by decide)]; rfl) (by rw [d_arg]; cases n <;> simp [dKw, Dict.get?]) ?_ ?_
  · have : (rowDict (doneCols dCols) r).get? "read_dat_method" = none := by
      rw [rowDict_get?, if_neg (by decide +kernel)]
    simp only [backcompat, this]
    cases n <;> rfl
  · show files_solve tW "a.dat" (fin 0.1) (fin 35)
      (get_kwargs_for keys_solve (dKw n) (some (rowDict (doneCols dCols) r))) = _
    rw [hst]
    exact d_solve n

/-- C98 applies: a row solved with a pH limit and a normality given in the call -/
example : ∃ df' r tt, dataset_solve tW (dKw (some 2)) ⟨dCols, [dRow]⟩ = (.ok (), df') ∧
    df'.rows[0]? = some r ∧ OneWay (dKw (some 2)) df'.cols r ∧
    to_Titration tW tSys df' 0 (dKw (some 2)) = .ok tt ∧
    tt.row.dict.get? "alkalinity" = some (r "alkalinity") := by
  obtain ⟨r, h, -, -, -, hk⟩ := d_solved (some 2)
  obtain ⟨tt, ht, hs⟩ := d_made (some 2) r hk
  refine ⟨_, r, tt, h, rfl, d_oneWay _ r hk, ht, ?_⟩
  exact (C98_same tW tSys tW_byName _ _ _ h (d_nodup _).1 (d_nodup _).2 d_nodup_cols 0 r rfl
    (by rw [hk _ (by decide) (by decide)]; exact truthy_iff.mp rfl) (d_oneWay _ r hk) "a.dat" (fin 0.1) (fin 35)
    (by rw [hk _ (by decide) (by decide)]; rfl) (by rw [hk _ (by decide) (by decide)]; rfl) (by simp)
    (by rw [hk _ (by decide) (by decide)]; rfl) tt ht).2 "alkalinity" (by rw [hs]; simp [resultLabels])

/-- the alkalinity of the example for normality `n`, up to a constant -/
theorem d_alk : ∃ a : ℝ, ∀ n : ℝ, (phRes (fin 0.1) [fin 0, fin 1] [fin 8, fin 3.5] (fin 1)
    (tTotals (fin 1)) tKs { pH_min := fin 3.2, pH_max := fin 4, titrant_normality := fin n }).alkalinity
      = fin (a + 1e5 * n) := by
  refine ⟨1e6 * (specAlk (tTotals (fin 1)) tKs 1 3.5 * 2), fun n => ?_⟩
  have h1 := phAll_fin (c := 0.1) (n := n) (M := 1) (tm := [0, 1]) (pH := [8, 3.5])
    (totals := tTotals (fin 1)) (ks := tKs) t_valid (t_hasKs _) one_pos (by
      intro m hm
      simp only [List.mem_cons, List.not_mem_nil, or_false] at hm
      rcases hm with rfl | rfl <;> norm_num)
  have h2 := pH_used_fin [8, 3.5] 3.2 4
  have h3 : [(8 : ℝ), 3.5].map (inWin 3.2 4) = [false, true] := by
    simp only [List.map_cons, List.map_nil, inWin]
    norm_num
  rw [h3] at h2
  simp only [List.map_cons, List.map_nil] at h1 h2
  simp only [phRes, h1, h2, phAllR, List.zipIdx_cons, List.zipIdx_nil, List.zipWith_cons_cons,
    List.zipWith_nil_left, List.map_cons, List.map_nil, mask_cons_false, mask_cons_true, mask_nil, ptR]
  have h4 := npMean_map_fin [1e6 * (specAlk (tTotals (fin 1)) tKs (0 + 1) 3.5 * (1 + 1) + 1 * 0.1 * n) / 1]
    (by simp)
  simp only [List.map_cons, List.map_nil] at h4
  rw [h4]
  simp only [rmean, List.sum_cons, List.sum_nil, List.length_cons, List.length_nil, fin_inj]
  norm_num
  ring

theorem d_lookup (k : String) (hk : k ≠ "titrant_normality") :
    (dKw none).get? k = (dKw (some 2)).get? k := by
  have e : dKw (some 2) = ("pH_min", .num (fin 3.2)) :: ("titrant_normality", .num (fin 2)) :: [] := rfl
  have e' : dKw none = ("pH_min", .num (fin 3.2)) :: [] := rfl
  rw [e, e', Dict.get?_cons, Dict.get?_cons, Dict.get?_cons, if_neg (Ne.symm hk)]

/-- **C98**: the keyword arguments are not remembered. A data set solved with `titrant_normality=2` and
a Titration made from its row without that argument have different alkalinities. -/
theorem C98_arguments_lost : ∃ (w : World) (sys : SysIn → Py SysOut) (df df' : DF) (kw kw' : Dict Val)
    (r : Row) (tt : Titration), ByName w ∧ Shaped w ∧ SysTotal sys ∧
    (∀ k, k ≠ "titrant_normality" → kw'.get? k = kw.get? k) ∧
    dataset_solve w kw df = (.ok (), df') ∧ df'.rows[0]? = some r ∧
    to_Titration w sys df' 0 kw' = .ok tt ∧ ∃ a b : ℝ, r "alkalinity" = .num (fin a) ∧
      tt.row.dict.get? "alkalinity" = some (.num (fin b)) ∧ a ≠ b := by
  obtain ⟨r, h, ha, -, -, hk⟩ := d_solved (some 2)
  obtain ⟨tt, ht, hs⟩ := d_made none r hk
  obtain ⟨a, hal⟩ := d_alk
  refine ⟨tW, tSys, _, _, dKw (some 2), dKw none, r, tt, tW_byName, tW_shaped, tSys_total, ?_, h, rfl, ht,
    a + 1e5 * 2, a + 1e5 * 1, ?_, ?_, by norm_num⟩
  · exact fun k hk => d_lookup k hk
  · rw [ha]; exact congrArg Val.num (hal 2)
  · have ht' : Titration_init tW tSys ⟨doneCols dCols, r⟩ (dKw none) = .ok tt := ht
    obtain ⟨row', t0, t1, h1, h2, h3, -⟩ := Titration_ok ht'
    rw [(resultRow_ok h3).2, hs]
    exact congrArg (fun x => some (Val.num x)) (hal 1)

/-- C98: the row has a blank `pH_min`, so that no Titration can be made without arguments -/
example : ∃ df' r, dataset_solve tW (dKw none) ⟨dCols, [dRow]⟩ = (.ok (), df') ∧
    df'.rows[0]? = some r ∧ ∀ tt, to_Titration tW tSys df' 0 [] ≠ .ok tt := by
  obtain ⟨r, h, -, -, -, hk⟩ := d_solved none
  refine ⟨_, r, h, rfl, fun tt => ?_⟩
  exact C98_blank_limit tW tSys _ 0 r [] (by simp [Dict.keys]) (by simp [nestedArgs, Dict.get?, Dict.keys])
    rfl "pH_min" (.inl rfl) (by show "pH_min" ∈ doneCols dCols; decide +kernel)
    (by rw [hk _ (by decide) (by decide)]; rfl)
    (by simp [titrationArg, rangeArg, directArg, nestedArgs, Dict.get?]) tt

end Calk
