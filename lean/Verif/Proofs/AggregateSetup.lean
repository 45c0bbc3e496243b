import Verif.Model.Aggregate
import Mathlib.Data.List.Nodup
import Mathlib.Logic.Basic
/-! `setup_cumsegagg`: wiring of the columns. -/
set_option linter.unusedSimpArgs false
namespace Oups.Agg

/-- Pairs (column of data, column of result) of an aggregation function. -/
def pairsAt (cd cr : List (List Nat)) (j : Nat) : List (Nat × Nat) := (cd.getD j []).zip (cr.getD j [])

/-- The entry of a dtype represents the aggregations `l` (output column, input column, function). -/
structure Inv (t : Building) (l : List (Nat × Nat × Fn)) : Prop where
  out : t.colsOut = l.map Prod.fst
  nodup : t.funcs.Nodup
  lenD : t.colsData.length = t.funcs.length
  lenR : t.colsRes.length = t.funcs.length
  inner : ∀ j, (t.colsData.getD j []).length = (t.colsRes.getD j []).length
  sound : ∀ (j : Nat) f, t.funcs[j]? = some f → ∀ q ∈ pairsAt t.colsData t.colsRes j,
    ∃ out inCol, l[q.2]? = some (out, inCol, f) ∧ t.colsIn[q.1]? = some inCol
  complete : ∀ (k : Nat) e, l[k]? = some e → ∃ j : Nat, t.funcs[j]? = some e.2.2 ∧
    ∃ c, (c, k) ∈ pairsAt t.colsData t.colsRes j
  total : (t.colsRes.map List.length).sum = l.length

theorem inv_nil : Inv {} [] := by
  constructor <;> simp

theorem getD_appendAt (l : List (List Nat)) (i v j : Nat) (hi : i < l.length) :
    (appendAt l i v).getD j [] = if j = i then l.getD i [] ++ [v] else l.getD j [] := by
  unfold appendAt
  rw [List.getD_eq_getElem?_getD, List.getElem?_set]
  by_cases h : i = j
  · subst h; simp [hi]
  · rw [if_neg h, if_neg (Ne.symm h), List.getD_eq_getElem?_getD]

theorem getD_concat (l : List (List Nat)) (x : List Nat) (j : Nat) :
    (l ++ [x]).getD j [] = if j = l.length then x else l.getD j [] := by
  rw [List.getD_eq_getElem?_getD]
  by_cases h : j = l.length
  · subst h; simp
  · rw [if_neg h]
    rcases Nat.lt_or_gt_of_ne h with h' | h'
    · rw [List.getElem?_append_left h', List.getD_eq_getElem?_getD]
    · rw [List.getElem?_eq_none (by simp; omega), List.getD_eq_getElem?_getD, List.getElem?_eq_none (by omega)]

theorem sum_appendAt (l : List (List Nat)) (i v : Nat) (hi : i < l.length) :
    ((appendAt l i v).map List.length).sum = (l.map List.length).sum + 1 := by
  induction l generalizing i with
  | nil => simp at hi
  | cons x l ih =>
    cases i with
    | zero => simp [appendAt]; omega
    | succ i =>
      have := ih i (by simpa using hi)
      simp only [appendAt, List.getD_cons_succ, List.set_cons_succ, List.map_cons, List.sum_cons] at this ⊢
      omega

theorem inv_add {t : Building} {l : List (Nat × Nat × Fn)} (h : Inv t l) (out inCol : Nat) (f : Fn) :
    Inv (t.add out inCol f) (l ++ [(out, inCol, f)]) := by
  -- input column
  let inIdx := if inCol ∈ t.colsIn then t.colsIn.idxOf inCol else t.colsIn.length
  let colsIn := if inCol ∈ t.colsIn then t.colsIn else t.colsIn ++ [inCol]
  have hin : colsIn[inIdx]? = some inCol := by
    simp only [colsIn, inIdx]
    by_cases hm : inCol ∈ t.colsIn
    · simp only [hm, if_true]
      rw [List.getElem?_eq_getElem (List.idxOf_lt_length_of_mem hm), List.getElem_idxOf]
    · simp only [hm, if_false]; simp
  have hext : ∀ (c x : Nat), t.colsIn[c]? = some x → colsIn[c]? = some x := by
    intro c x hc
    simp only [colsIn]
    by_cases hm : inCol ∈ t.colsIn
    · simp only [hm, if_true]; exact hc
    · simp only [hm, if_false]
      rw [List.getElem?_append_left (List.getElem?_eq_some_iff.1 hc).1]; exact hc
  have hlen : t.colsOut.length = l.length := by rw [h.out, List.length_map]
  have hl : ∀ (k : Nat) e, l[k]? = some e → (l ++ [(out, inCol, f)])[k]? = some e := by
    intro k e hk
    rw [List.getElem?_append_left (List.getElem?_eq_some_iff.1 hk).1]; exact hk
  have hl' : (l ++ [(out, inCol, f)])[l.length]? = some (out, inCol, f) := by simp
  have hlcase : ∀ (k : Nat) e, (l ++ [(out, inCol, f)])[k]? = some e →
      l[k]? = some e ∨ (k = l.length ∧ e = (out, inCol, f)) := by
    intro k e hk
    rcases Nat.lt_trichotomy k l.length with h' | h' | h'
    · rw [List.getElem?_append_left h'] at hk; exact Or.inl hk
    · subst h'; rw [hl'] at hk; exact Or.inr ⟨rfl, by injection hk with hk; exact hk.symm⟩
    · rw [List.getElem?_eq_none (by simp; omega)] at hk; cases hk
  by_cases hf : f ∈ t.funcs
  · have hi : t.funcs.idxOf f < t.funcs.length := List.idxOf_lt_length_of_mem hf
    have hfi : t.funcs[t.funcs.idxOf f]? = some f := by
      rw [List.getElem?_eq_getElem hi, List.getElem_idxOf]
    have hadd : t.add out inCol f = ⟨colsIn, t.colsOut ++ [out], t.funcs,
        appendAt t.colsData (t.funcs.idxOf f) inIdx, appendAt t.colsRes (t.funcs.idxOf f) t.colsOut.length⟩ := by
      unfold Building.add
      simp only [if_pos hf]
      rw [if_neg (by rw [h.lenD]; omega)]
    have hiD : t.funcs.idxOf f < t.colsData.length := by rw [h.lenD]; exact hi
    have hiR : t.funcs.idxOf f < t.colsRes.length := by rw [h.lenR]; exact hi
    have hpairs : ∀ j, pairsAt (appendAt t.colsData (t.funcs.idxOf f) inIdx)
        (appendAt t.colsRes (t.funcs.idxOf f) t.colsOut.length) j =
        if j = t.funcs.idxOf f then pairsAt t.colsData t.colsRes j ++ [(inIdx, l.length)]
        else pairsAt t.colsData t.colsRes j := by
      intro j
      unfold pairsAt
      rw [getD_appendAt _ _ _ _ hiD, getD_appendAt _ _ _ _ hiR]
      by_cases hj : j = t.funcs.idxOf f
      · subst hj
        simp only [if_true]
        rw [List.zip_append (h.inner _), hlen]; rfl
      · simp only [if_neg hj]
    rw [hadd]
    constructor
    · simp [h.out]
    · exact h.nodup
    · simp [appendAt, h.lenD]
    · simp [appendAt, h.lenR]
    · intro j
      rw [getD_appendAt _ _ _ _ hiD, getD_appendAt _ _ _ _ hiR]
      split
      · rw [List.length_append, List.length_append, h.inner]; rfl
      · exact h.inner j
    · intro j f' hj q hq
      simp only at hj hq ⊢
      rw [hpairs] at hq
      by_cases hji : j = t.funcs.idxOf f
      · rw [if_pos hji] at hq
        rcases List.mem_append.1 hq with hq | hq
        · obtain ⟨o, i, h1, h2⟩ := h.sound j f' hj q hq
          exact ⟨o, i, hl _ _ h1, hext _ _ h2⟩
        · simp only [List.mem_singleton] at hq
          subst hq
          rw [hji, hfi] at hj
          simp only [Option.some.injEq] at hj
          subst hj
          exact ⟨out, inCol, hl', hin⟩
      · rw [if_neg hji] at hq
        obtain ⟨o, i, h1, h2⟩ := h.sound j f' hj q hq
        exact ⟨o, i, hl _ _ h1, hext _ _ h2⟩
    · intro k e hk
      simp only
      rcases hlcase k e hk with hk | ⟨rfl, rfl⟩
      · obtain ⟨j, h1, c, h2⟩ := h.complete k e hk
        refine ⟨j, h1, c, ?_⟩
        rw [hpairs]
        split
        · exact List.mem_append_left _ h2
        · exact h2
      · refine ⟨t.funcs.idxOf f, hfi, inIdx, ?_⟩
        rw [hpairs, if_pos rfl]; simp
    · simp only
      rw [sum_appendAt _ _ _ hiR, h.total]; simp
  · have hadd : t.add out inCol f = ⟨colsIn, t.colsOut ++ [out], t.funcs ++ [f],
        t.colsData ++ [[inIdx]], t.colsRes ++ [[t.colsOut.length]]⟩ := by
      unfold Building.add
      simp only [if_neg hf]
      rw [if_pos (by rw [h.lenD])]
    have hpairs : ∀ j, pairsAt (t.colsData ++ [[inIdx]]) (t.colsRes ++ [[t.colsOut.length]]) j =
        if j = t.funcs.length then [(inIdx, l.length)] else pairsAt t.colsData t.colsRes j := by
      intro j
      unfold pairsAt
      rw [getD_concat, getD_concat, h.lenD, h.lenR]
      by_cases hj : j = t.funcs.length
      · simp only [if_pos hj, hlen]; rfl
      · simp only [if_neg hj]
    rw [hadd]
    constructor
    · simp [h.out]
    · simp only
      rw [List.nodup_append]
      exact ⟨h.nodup, by simp, by rintro a ha b hb; simp at hb; subst hb; rintro rfl; exact hf ha⟩
    · simp [h.lenD]
    · simp [h.lenR]
    · intro j
      rw [getD_concat, getD_concat, h.lenD, h.lenR]
      split
      · rfl
      · exact h.inner j
    · intro j f' hj q hq
      simp only at hj hq ⊢
      rw [hpairs] at hq
      by_cases hji : j = t.funcs.length
      · rw [if_pos hji] at hq
        simp only [List.mem_singleton] at hq
        subst hq
        rw [hji] at hj
        simp at hj
        subst hj
        exact ⟨out, inCol, hl', hin⟩
      · rw [if_neg hji] at hq
        have hj' : t.funcs[j]? = some f' := by
          have := (List.getElem?_eq_some_iff.1 hj).1
          rw [List.length_append, List.length_singleton] at this
          rw [List.getElem?_append_left (by omega)] at hj; exact hj
        obtain ⟨o, i, h1, h2⟩ := h.sound j f' hj' q hq
        exact ⟨o, i, hl _ _ h1, hext _ _ h2⟩
    · intro k e hk
      simp only
      rcases hlcase k e hk with hk | ⟨rfl, rfl⟩
      · obtain ⟨j, h1, c, h2⟩ := h.complete k e hk
        have hj := (List.getElem?_eq_some_iff.1 h1).1
        refine ⟨j, ?_, c, ?_⟩
        · rw [List.getElem?_append_left hj]; exact h1
        · rw [hpairs, if_neg (by omega)]; exact h2
      · refine ⟨t.funcs.length, by simp, inIdx, ?_⟩
        rw [hpairs, if_pos rfl]; simp
    · simp only
      rw [List.map_append, List.sum_append, h.total]; simp

/-! ### A finished entry -/

/-- The entry represents the aggregations `l`. -/
structure GroupOk (g : Group) (l : List (Nat × Nat × Fn)) : Prop where
  out : g.colsOut = l.map Prod.fst
  nCols : g.nCols = l.length
  nodup : (g.aggs.map Prod.fst).Nodup
  sound : ∀ a ∈ g.aggs, ∀ q ∈ a.2.1.zip a.2.2,
    ∃ out inCol, l[q.2]? = some (out, inCol, a.1) ∧ g.colsIn[q.1]? = some inCol
  complete : ∀ (k : Nat) e, l[k]? = some e → ∃ a ∈ g.aggs, a.1 = e.2.2 ∧ ∃ c, (c, k) ∈ a.2.1.zip a.2.2

theorem inv_finish {t : Building} {l : List (Nat × Nat × Fn)} (h : Inv t l) : GroupOk t.finish l := by
  have hz : (t.colsData.zip t.colsRes).length = t.funcs.length := by rw [List.length_zip, h.lenD, h.lenR]; simp
  have hget : ∀ (j : Nat) (hj : j < t.funcs.length), (t.finish.aggs)[j]? =
      some (t.funcs[j], t.colsData.getD j [], t.colsRes.getD j []) := by
    intro j hj
    simp only [Building.finish]
    rw [List.getElem?_eq_getElem (by rw [List.length_zip, hz]; omega), List.getElem_zip, List.getElem_zip,
      List.getD_eq_getElem?_getD, List.getD_eq_getElem?_getD, List.getElem?_eq_getElem (by rw [h.lenD]; omega),
      List.getElem?_eq_getElem (by rw [h.lenR]; omega)]
    rfl
  constructor
  · exact h.out
  · exact h.total
  · simp only [Building.finish]
    rw [List.map_fst_zip (by omega)]; exact h.nodup
  · intro a ha q hq
    obtain ⟨j, hj⟩ := List.getElem?_of_mem ha
    have hjl : j < t.funcs.length := by
      have := (List.getElem?_eq_some_iff.1 hj).1
      simp only [Building.finish, List.length_zip] at this; omega
    rw [hget j hjl] at hj
    simp only [Option.some.injEq] at hj
    subst hj
    exact h.sound j _ (List.getElem?_eq_getElem hjl) q hq
  · intro k e hk
    obtain ⟨j, h1, c, h2⟩ := h.complete k e hk
    have hjl := (List.getElem?_eq_some_iff.1 h1).1
    refine ⟨_, List.mem_of_getElem? (hget j hjl), ?_, c, h2⟩
    rw [List.getElem?_eq_getElem hjl] at h1
    simpa using h1

/-! ### Effect of an entry on a result row -/

section
variable {V : Type} (O : Ops V)

theorem foldl_set (ps : List (Nat × Nat)) (val : Nat × Nat → V) (acc : List V) (k : Nat) (v : V) (hk : k < acc.length)
    (hv : ∀ q ∈ ps, q.2 = k → val q = v) :
    (ps.foldl (fun acc p => acc.set p.2 (val p)) acc)[k]? = if k ∈ ps.map Prod.snd then some v else acc[k]? := by
  induction ps generalizing acc with
  | nil => simp
  | cons q ps ih =>
    rw [List.foldl_cons, ih _ (by simpa using hk) (fun q' hq' => hv q' (by simp [hq']))]
    by_cases hm : k ∈ ps.map Prod.snd
    · rw [if_pos hm, if_pos (by rw [List.map_cons]; exact List.mem_cons_of_mem _ hm)]
    · rw [if_neg hm]
      by_cases hq : q.2 = k
      · rw [if_pos (by rw [List.map_cons, hq]; exact List.mem_cons_self ..), List.getElem?_set, if_pos hq,
          hv q (by simp) hq, if_pos (by omega)]
      · rw [if_neg (by rw [List.map_cons, List.mem_cons]; rintro (h | h)
                       · exact hq h.symm
                       · exact hm h), List.getElem?_set, if_neg hq]

theorem length_foldl_set (ps : List (Nat × Nat)) (val : Nat × Nat → V) (acc : List V) :
    (ps.foldl (fun acc p => acc.set p.2 (val p)) acc).length = acc.length := by
  induction ps generalizing acc with
  | nil => rfl
  | cons q ps ih => rw [List.foldl_cons, ih]; simp

theorem length_updGroup (g : Group) (chunk : List (List V)) (res : List V) (p : Bool) :
    (updGroup O g chunk res p).length = res.length := by
  unfold updGroup
  generalize g.aggs = l
  induction l generalizing res with
  | nil => rfl
  | cons a l ih => rw [List.foldl_cons, ih, applyAgg, length_foldl_set]

open Classical in
/-- Effect on the column of the aggregation `e`. -/
theorem updGroup_get {R : Type} (get : R → Nat → V) {g : Group} {l : List (Nat × Nat × Fn)} (h : GroupOk g l)
    (chunk : List R) (res : List V) (p : Bool) (hres : res.length = g.nCols) (k : Nat) (e : Nat × Nat × Fn)
    (hk : l[k]? = some e) :
    (updGroup O g (chunk.map fun row => g.colsIn.map (get row)) res p)[k]? =
      some (jagg O e.2.2 (chunk.map fun row => get row e.2.1) (res.getD k O.zero) p) := by
  have hkl : k < res.length := by rw [hres, h.nCols]; exact (List.getElem?_eq_some_iff.1 hk).1
  -- an aggregation function, on the column
  have hone : ∀ a ∈ g.aggs, ∀ r : List V, r.length = res.length →
      (applyAgg O (chunk.map fun row => g.colsIn.map (get row)) p r a)[k]? =
        if a.1 = e.2.2 ∧ ∃ c, (c, k) ∈ a.2.1.zip a.2.2 then
          some (jagg O e.2.2 (chunk.map fun row => get row e.2.1) (r.getD k O.zero) p) else r[k]? := by
    intro a ha r hr
    unfold applyAgg
    rw [foldl_set _ _ _ k (jagg O e.2.2 (chunk.map fun row => get row e.2.1) (r.getD k O.zero) p) (by omega)]
    · have hiff : (k ∈ (a.2.1.zip a.2.2).map Prod.snd) ↔ (a.1 = e.2.2 ∧ ∃ c, (c, k) ∈ a.2.1.zip a.2.2) := by
        constructor
        · intro hm
          obtain ⟨q, hq, rfl⟩ := List.mem_map.1 hm
          obtain ⟨o, i, h1, _⟩ := h.sound a ha q hq
          rw [hk] at h1
          simp only [Option.some.injEq] at h1
          exact ⟨by rw [h1], q.1, hq⟩
        · rintro ⟨_, c, hc⟩
          exact List.mem_map.2 ⟨(c, k), hc, rfl⟩
      simp only [hiff]
    · intro q hq hqk
      obtain ⟨o, i, h1, h2⟩ := h.sound a ha q hq
      rw [hqk, hk] at h1
      simp only [Option.some.injEq] at h1
      subst h1
      rw [List.map_map, hqk]
      congr 2
      funext row
      simp only [Function.comp, List.getD_eq_getElem?_getD, List.getElem?_map, h2, Option.map_some, Option.getD_some]
  -- all of them
  have hall : ∀ (as : List (Fn × List Nat × List Nat)) (r : List V), (∀ a ∈ as, a ∈ g.aggs) →
      (as.map Prod.fst).Nodup → r.length = res.length →
      (as.foldl (applyAgg O (chunk.map fun row => g.colsIn.map (get row)) p) r)[k]? =
        if ∃ a ∈ as, a.1 = e.2.2 ∧ ∃ c, (c, k) ∈ a.2.1.zip a.2.2 then
          some (jagg O e.2.2 (chunk.map fun row => get row e.2.1) (r.getD k O.zero) p) else r[k]? := by
    intro as
    induction as with
    | nil => intro r _ _ _; simp
    | cons a as ih =>
      intro r hsub hnd hr
      rw [List.map_cons, List.nodup_cons] at hnd
      have hlen : (applyAgg O (chunk.map fun row => g.colsIn.map (get row)) p r a).length = res.length := by
        rw [applyAgg, length_foldl_set, hr]
      rw [List.foldl_cons, ih _ (fun x hx => hsub x (by simp [hx])) hnd.2 hlen]
      have ha := hone a (hsub a (by simp)) r hr
      by_cases hc : a.1 = e.2.2 ∧ ∃ c, (c, k) ∈ a.2.1.zip a.2.2
      · rw [if_pos hc] at ha
        have hnot : ¬ ∃ x ∈ as, x.1 = e.2.2 ∧ ∃ c, (c, k) ∈ x.2.1.zip x.2.2 := by
          rintro ⟨x, hx, hx1, _⟩
          apply hnd.1
          rw [hc.1, ← hx1]
          exact List.mem_map_of_mem hx
        rw [if_neg hnot, ha, if_pos ⟨a, by simp, hc⟩]
      · rw [if_neg hc] at ha
        have hd : (applyAgg O (chunk.map fun row => g.colsIn.map (get row)) p r a).getD k O.zero =
            r.getD k O.zero := by
          rw [List.getD_eq_getElem?_getD, List.getD_eq_getElem?_getD, ha]
        rw [hd, ha]
        have hiff : (∃ x ∈ as, x.1 = e.2.2 ∧ ∃ c, (c, k) ∈ x.2.1.zip x.2.2) ↔
            (∃ x ∈ a :: as, x.1 = e.2.2 ∧ ∃ c, (c, k) ∈ x.2.1.zip x.2.2) := by
          constructor
          · rintro ⟨x, hx, h'⟩; exact ⟨x, by simp [hx], h'⟩
          · rintro ⟨x, hx, h'⟩
            rcases List.mem_cons.1 hx with rfl | hx
            · exact absurd h' hc
            · exact ⟨x, hx, h'⟩
        simp only [hiff]
  unfold updGroup
  rw [hall g.aggs res (fun _ h => h) h.nodup rfl, if_pos]
  obtain ⟨a, ha, h1, h2⟩ := h.complete k e hk
  exact ⟨a, ha, h1, h2⟩

end

/-! ### The whole configuration -/

section
variable {D : Type} [DecidableEq D]

/-- Aggregations of the input columns of dtype `d`, in order. -/
def ofDtype (dtype : Nat → Option D) (d : D) (agg : List (Nat × Nat × Option Fn)) : List (Nat × Nat × Fn) :=
  agg.filterMap fun e => if dtype e.2.1 = some d then e.2.2.map fun f => (e.1, e.2.1, f) else none

/-- The configuration represents the aggregations: one entry per dtype in use. -/
structure CfgOk (dtype : Nat → Option D) (agg : List (Nat × Nat × Option Fn)) (cfg : List (D × Group)) : Prop where
  keys : (cfg.map Prod.fst).Nodup
  entry : ∀ p ∈ cfg, GroupOk p.2 (ofDtype dtype p.1 agg)
  all : ∀ e ∈ agg, ∃ d f g, dtype e.2.1 = some d ∧ e.2.2 = some f ∧ (d, g) ∈ cfg

theorem upsert_keys (d : D) (f : Building → Building) (cfg : List (D × Building)) :
    (upsert d {} f cfg).map Prod.fst = if d ∈ cfg.map Prod.fst then cfg.map Prod.fst else cfg.map Prod.fst ++ [d] := by
  induction cfg with
  | nil => simp [upsert]
  | cons p cfg ih =>
    obtain ⟨d', t⟩ := p
    unfold upsert
    by_cases h : d' = d
    · subst h; simp
    · rw [if_neg h, List.map_cons, ih]
      have : d ∈ List.map Prod.fst ((d', t) :: cfg) ↔ d ∈ cfg.map Prod.fst := by
        simp only [List.map_cons, List.mem_cons]
        exact ⟨fun h' => h'.resolve_left (fun h'' => h h''.symm), Or.inr⟩
      simp only [this]
      split <;> simp

theorem mem_upsert {d : D} {f : Building → Building} {cfg : List (D × Building)} {p : D × Building}
    (hn : (cfg.map Prod.fst).Nodup) (h : p ∈ upsert d {} f cfg) :
    (p.1 ≠ d ∧ p ∈ cfg) ∨ (p.1 = d ∧ ((∃ t, (d, t) ∈ cfg ∧ p.2 = f t) ∨ (d ∉ cfg.map Prod.fst ∧ p.2 = f {}))) := by
  induction cfg with
  | nil =>
    simp only [upsert, List.mem_singleton] at h
    subst h; right; exact ⟨rfl, Or.inr ⟨by simp, rfl⟩⟩
  | cons q cfg ih =>
    obtain ⟨d', t⟩ := q
    rw [List.map_cons, List.nodup_cons] at hn
    unfold upsert at h
    by_cases hd : d' = d
    · subst hd
      rw [if_pos rfl] at h
      rcases List.mem_cons.1 h with rfl | h
      · exact Or.inr ⟨rfl, Or.inl ⟨t, by simp, rfl⟩⟩
      · left
        refine ⟨?_, by simp [h]⟩
        intro h0
        have hm : p.1 ∈ cfg.map Prod.fst := List.mem_map_of_mem h
        rw [h0] at hm
        exact hn.1 hm
    · rw [if_neg hd] at h
      rcases List.mem_cons.1 h with rfl | h
      · left; exact ⟨hd, by simp⟩
      · rcases ih hn.2 h with ⟨h1, h2⟩ | ⟨h1, h2⟩
        · exact Or.inl ⟨h1, by simp [h2]⟩
        · right
          refine ⟨h1, ?_⟩
          rcases h2 with ⟨t', h3, h4⟩ | ⟨h3, h4⟩
          · exact Or.inl ⟨t', by simp [h3], h4⟩
          · right
            refine ⟨?_, h4⟩
            simp only [List.map_cons, List.mem_cons, not_or]
            exact ⟨fun h' => hd h'.symm, h3⟩

/-- Invariant of step 1. -/
structure LoopInv (dtype : Nat → Option D) (done : List (Nat × Nat × Option Fn)) (cfg : List (D × Building)) : Prop where
  keys : (cfg.map Prod.fst).Nodup
  entry : ∀ p ∈ cfg, Inv p.2 (ofDtype dtype p.1 done)
  all : ∀ e ∈ done, ∃ d f, dtype e.2.1 = some d ∧ e.2.2 = some f ∧ d ∈ cfg.map Prod.fst
  none : ∀ d, d ∉ cfg.map Prod.fst → ofDtype dtype d done = []

theorem ofDtype_concat (dtype : Nat → Option D) (d : D) (done : List (Nat × Nat × Option Fn)) (out i : Nat) (f : Fn) :
    ofDtype dtype d (done ++ [(out, i, some f)]) =
      if dtype i = some d then ofDtype dtype d done ++ [(out, i, f)] else ofDtype dtype d done := by
  unfold ofDtype
  rw [List.filterMap_append]
  by_cases h : dtype i = some d
  · simp [h]
  · simp [h]

theorem setupLoop_inv (dtype : Nat → Option D) (agg done : List (Nat × Nat × Option Fn)) (cfg : List (D × Building))
    (h : LoopInv dtype done cfg) :
    (∃ cfg', setupLoop dtype agg cfg = .ok cfg' ∧ LoopInv dtype (done ++ agg) cfg' ∧
      ∀ e ∈ agg, dtype e.2.1 ≠ none ∧ e.2.2 ≠ none) ∨
    (∃ err, setupLoop dtype agg cfg = .error err ∧ ∃ e ∈ agg, dtype e.2.1 = none ∨ e.2.2 = none) := by
  induction agg generalizing done cfg with
  | nil => left; exact ⟨cfg, rfl, by simpa using h, by simp⟩
  | cons e agg ih =>
    obtain ⟨out, i, f⟩ := e
    unfold setupLoop
    cases hd : dtype i with
    | none => right; exact ⟨_, rfl, (out, i, f), by simp, Or.inl hd⟩
    | some d =>
      cases f with
      | none => right; exact ⟨_, rfl, (out, i, none), by simp, Or.inr rfl⟩
      | some f =>
        have hinv : LoopInv dtype (done ++ [(out, i, some f)]) (upsert d {} (fun t => t.add out i f) cfg) := by
          constructor
          · rw [upsert_keys]
            split
            · exact h.keys
            · rename_i hn
              rw [List.nodup_append]
              exact ⟨h.keys, by simp, by rintro a ha b hb; simp at hb; subst hb; rintro rfl; exact hn ha⟩
          · intro p hp
            rw [ofDtype_concat]
            rcases mem_upsert h.keys hp with ⟨h1, h2⟩ | ⟨h1, ⟨t, h2, h3⟩ | ⟨h2, h3⟩⟩
            · rw [if_neg (by rw [hd]; simpa using fun h' => h1 h'.symm)]
              exact h.entry p h2
            · rw [h1, if_pos hd, h3]
              exact inv_add (h.entry (d, t) h2) out i f
            · rw [h1, if_pos hd, h3, h.none d h2]
              exact inv_add inv_nil out i f
          · intro e he
            rcases List.mem_append.1 he with he | he
            · obtain ⟨d', f', h1, h2, h3⟩ := h.all e he
              refine ⟨d', f', h1, h2, ?_⟩
              rw [upsert_keys]
              split
              · exact h3
              · exact List.mem_append_left _ h3
            · simp only [List.mem_singleton] at he
              subst he
              refine ⟨d, f, hd, rfl, ?_⟩
              rw [upsert_keys]
              split
              · assumption
              · simp
          · intro d' hd'
            rw [upsert_keys] at hd'
            have hne : d ≠ d' := by
              rintro rfl
              split at hd'
              · exact hd' (by assumption)
              · exact hd' (by simp)
            rw [ofDtype_concat, if_neg (by rw [hd]; simpa using hne)]
            apply h.none
            intro hm
            apply hd'
            split
            · exact hm
            · exact List.mem_append_left _ hm
        rcases ih _ _ hinv with ⟨cfg', h1, h2, h3⟩ | ⟨err, h1, e, he, h2⟩
        · left
          refine ⟨cfg', h1, by rw [List.append_assoc] at h2; exact h2, ?_⟩
          intro e he
          rcases List.mem_cons.1 he with rfl | he
          · exact ⟨by simp [hd], by simp⟩
          · exact h3 e he
        · right; exact ⟨err, h1, e, by simp [he], h2⟩

/-- `setup_cumsegagg` succeeds exactly when all columns and functions are known, and then represents the
aggregations. -/
theorem setup_spec (dtype : Nat → Option D) (agg : List (Nat × Nat × Option Fn)) :
    (∃ cfg, setupCumsegagg agg dtype = .ok cfg ∧ CfgOk dtype agg cfg ∧
      ∀ e ∈ agg, dtype e.2.1 ≠ none ∧ e.2.2 ≠ none) ∨
    (∃ err, setupCumsegagg agg dtype = .error err ∧ ∃ e ∈ agg, dtype e.2.1 = none ∨ e.2.2 = none) := by
  have h0 : LoopInv dtype [] ([] : List (D × Building)) := ⟨by simp, by simp, by simp, fun _ _ => rfl⟩
  unfold setupCumsegagg
  rcases setupLoop_inv dtype agg [] [] h0 with ⟨cfg, h1, h2, h3⟩ | ⟨err, h1, h2⟩
  · left
    rw [h1]
    refine ⟨_, rfl, ⟨?_, ?_, ?_⟩, h3⟩
    · rw [List.map_map]; exact h2.keys
    · intro p hp
      obtain ⟨q, hq, rfl⟩ := List.mem_map.1 hp
      have := h2.entry q hq
      simpa using inv_finish this
    · intro e he
      obtain ⟨d, f, h4, h5, h6⟩ := h2.all e (by simpa using he)
      obtain ⟨q, hq, rfl⟩ := List.mem_map.1 h6
      exact ⟨q.1, f, q.2.finish, h4, h5, List.mem_map.2 ⟨q, hq, rfl⟩⟩
  · right; rw [h1]; exact ⟨err, rfl, h2⟩

/-- Shape of a row of results. -/
def Shaped {V : Type} (cfg : List (D × Group)) (res : List (List V)) : Prop :=
  List.Forall₂ (fun p r => r.length = p.2.nCols) cfg res

variable {R V : Type} (O : D → Ops V) (get : R → Nat → V)

theorem shaped_upd (cfg : List (D × Group)) (chunk : List R) (res : List (List V)) (p : Bool)
    (h : Shaped cfg res) : Shaped cfg (updCfg O get cfg chunk res p) := by
  unfold Shaped updCfg at *
  induction h with
  | nil => exact List.Forall₂.nil
  | cons h1 h2 ih => exact List.Forall₂.cons (by rw [length_updGroup, h1]) ih

theorem shaped_zero (cfg : List (D × Group)) : Shaped cfg (chunkRes0 O cfg) := by
  unfold Shaped chunkRes0
  induction cfg with
  | nil => exact List.Forall₂.nil
  | cons p cfg ih => exact List.Forall₂.cons (by simp) ih

theorem idxOf_getElem? {α : Type} [DecidableEq α] {l : List α} (h : l.Nodup) {k : Nat} {x : α} (hk : l[k]? = some x) :
    l.idxOf x = k := by
  obtain ⟨hlt, rfl⟩ := List.getElem?_eq_some_iff.1 hk
  exact List.Nodup.idxOf_getElem h k hlt

theorem readCol_group {cfg : List (D × Group)} {out : Nat} {d : D} {g : Group} (hmem : (d, g) ∈ cfg)
    (hout : out ∈ g.colsOut) (huniq : ∀ p ∈ cfg, out ∈ p.2.colsOut → p = (d, g)) (res : List (List V))
    (hs : Shaped cfg res) :
    ∃ r : List V, r.length = g.nCols ∧ readCol out cfg res = r[g.colsOut.idxOf out]? ∧
      ∀ chunk p, readCol out cfg (updCfg O get cfg chunk res p) =
        (updGroup (O d) g (chunk.map fun row => g.colsIn.map (get row)) r p)[g.colsOut.idxOf out]? := by
  unfold Shaped at hs
  induction hs with
  | nil => simp at hmem
  | @cons q r cfg res h1 h2 ih =>
    obtain ⟨d', g'⟩ := q
    by_cases ho : out ∈ g'.colsOut
    · have := huniq (d', g') (by simp) ho
      simp only [Prod.mk.injEq] at this
      obtain ⟨rfl, rfl⟩ := this
      exact ⟨r, h1, by simp [readCol, ho], by intro chunk p; simp [readCol, updCfg, ho]⟩
    · have hm : (d, g) ∈ cfg := by
        rcases List.mem_cons.1 hmem with h | h
        · simp only [Prod.mk.injEq] at h; rw [h.2] at hout; exact absurd hout ho
        · exact h
      obtain ⟨r', e1, e2, e3⟩ := ih hm (fun p hp => huniq p (by simp [hp]))
      refine ⟨r', e1, by simp [readCol, ho, e2], ?_⟩
      intro chunk p
      have := e3 chunk p
      simp only [updCfg, List.zip_cons_cons, List.map_cons, readCol, ho, if_false] at this ⊢
      exact this

/-- Effect of a configuration on an output column: the requested function, applied to the requested column. -/
theorem updCfg_col {dtype : Nat → Option D} {agg : List (Nat × Nat × Option Fn)} {cfg : List (D × Group)}
    (h : CfgOk dtype agg cfg) (hout : (agg.map Prod.fst).Nodup) {out i : Nat} {f : Fn} {d : D}
    (he : (out, i, some f) ∈ agg) (hd : dtype i = some d) (res : List (List V)) (hs : Shaped cfg res) :
    (readCol out cfg res).isSome ∧ ∀ chunk p, readCol out cfg (updCfg O get cfg chunk res p) =
      some (jagg (O d) f (chunk.map fun row => get row i) ((readCol out cfg res).getD (O d).zero) p) := by
  obtain ⟨d', f', g, h1, h2, h3⟩ := h.all _ he
  simp only at h1 h2
  rw [hd] at h1
  simp only [Option.some.injEq] at h1 h2
  subst h1 h2
  have hg := h.entry _ h3
  simp only at hg
  have hmem : (out, i, f) ∈ ofDtype dtype d agg :=
    List.mem_filterMap.2 ⟨_, he, by simp [hd]⟩
  have hsub : ∀ d', ((ofDtype dtype d' agg).map Prod.fst).Sublist (agg.map Prod.fst) := by
    intro d'
    unfold ofDtype
    clear he hmem hout h hg
    induction agg with
    | nil => simp
    | cons e agg ih =>
      rw [List.filterMap_cons]
      obtain ⟨o, j, f⟩ := e
      simp only
      by_cases hj : dtype j = some d'
      · cases f with
        | none => simp only [hj, if_true, Option.map_none, List.map_cons]; exact ih.cons _
        | some f => simp only [hj, if_true, Option.map_some, List.map_cons]; exact ih.cons_cons _
      · simp only [hj, if_false, List.map_cons]; exact ih.cons _
  have hnd : g.colsOut.Nodup := by rw [hg.out]; exact (hsub d).nodup hout
  obtain ⟨k, hk⟩ := List.getElem?_of_mem hmem
  have hko : g.colsOut[k]? = some out := by rw [hg.out, List.getElem?_map, hk]; rfl
  have hidx : g.colsOut.idxOf out = k := idxOf_getElem? hnd hko
  have huniq : ∀ p ∈ cfg, out ∈ p.2.colsOut → p = (d, g) := by
    rintro ⟨d'', g''⟩ hp ho
    have hg'' := h.entry _ hp
    simp only at hg'' ho
    rw [hg''.out] at ho
    obtain ⟨⟨o, j, f''⟩, he'', rfl⟩ := List.mem_map.1 ho
    obtain ⟨⟨o', j', f'''⟩, he3, he4⟩ := List.mem_filterMap.1 he''
    simp only at he4
    split at he4
    · rename_i hj
      cases f''' with
      | none => simp at he4
      | some f''' =>
        simp only [Option.map_some, Option.some.injEq, Prod.mk.injEq] at he4
        obtain ⟨rfl, rfl, rfl⟩ := he4
        have heq : (o', j', some f''') = (o', i, some f) := by
          have := List.inj_on_of_nodup_map hout he3 he rfl
          exact this
        simp only [Prod.mk.injEq, true_and] at heq
        rw [heq.1, hd] at hj
        simp only [Option.some.injEq] at hj
        subst hj
        have hkeys := List.inj_on_of_nodup_map h.keys hp h3 rfl
        exact hkeys
    · cases he4
  obtain ⟨r, e1, e2, e3⟩ := readCol_group O get h3 (List.mem_of_getElem? hko) huniq res hs
  rw [hidx] at e2 e3
  have hkr : k < r.length := by
    rw [e1, hg.nCols]; exact (List.getElem?_eq_some_iff.1 hk).1
  refine ⟨by rw [e2, List.getElem?_eq_getElem hkr]; rfl, ?_⟩
  intro chunk p
  rw [e3, updGroup_get (O d) get hg chunk r p e1 k _ hk, e2, List.getD_eq_getElem?_getD]

end

end Oups.Agg
