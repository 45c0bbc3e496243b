import Verif.Proofs.SeedIter
import Verif.Props.Filter
/-! Properties C45, C46, C47: rows of the seed that are delivered to aggregation. -/
set_option linter.unusedSimpArgs false
namespace Oups.AggStream
variable {F R P : Type} [DecidableEq F]

/-! ### C47: one call, any filters -/

/-- **C47** Rows delivered for a filter by a call to `agg`: the rows of the seed (after `pre`), in order, that are not
before the restart index (if `trim_start`), not in the last row group of the whole seed (if `discard_last`), and that the
filter keeps. Chunks do not matter. -/
theorem C47_delivered {ord : R → Int} {restart : Option Int} {pre : Option (Pre R P)} {fs : List (F × Filt R)}
    {trimStart discard : Bool} {seed : List (List R)} {pb pb' : P} {ys : List (Yield F R)}
    (hn : (fs.map Prod.fst).Nodup) (p : F → R → Bool) (hf : ∀ f ∈ fs, RowFilter f.2 (p f.1))
    (h : iterData ord restart pre pb fs trimStart discard seed = (ys, pb', none))
    (hasc : Ascending ord (preprocessed pre pb seed).flatten) {f : F × Filt R} (hfm : f ∈ fs) :
    delivered f.1 ys = (preprocessed pre pb seed).flatten.filter fun r =>
      notBefore ord (if trimStart then restart else none) r &&
      (!discard || notLast ord (preprocessed pre pb seed).flatten r) && p f.1 r :=
  (iterLoop_spec hn p hf (by simp) h (by rw [List.nil_append]) hasc (by simp)).1 f hfm

/-- **C47** No empty frame is delivered, and only for the filters of the configuration. -/
theorem C47_nonempty {ord : R → Int} {restart : Option Int} {pre : Option (Pre R P)} {fs : List (F × Filt R)}
    {trimStart discard : Bool} {seed : List (List R)} {pb pb' : P} {ys : List (Yield F R)}
    (hn : (fs.map Prod.fst).Nodup) (p : F → R → Bool) (hf : ∀ f ∈ fs, RowFilter f.2 (p f.1))
    (h : iterData ord restart pre pb fs trimStart discard seed = (ys, pb', none))
    (hasc : Ascending ord (preprocessed pre pb seed).flatten) :
    ∀ y ∈ ys, y.rows ≠ [] ∧ y.filt ∈ fs.map Prod.fst := fun y hy =>
  have := (iterLoop_spec hn p hf (by simp) h (by rw [List.nil_append]) hasc (by simp)).2.1 y hy
  ⟨this.1, this.2.1⟩

/-- **C47** The iteration ends without exception if chunks are in order and not empty after `pre`, `pre` does not raise and
filters can be applied. -/
theorem C47_total {ord : R → Int} {restart : Option Int} {pre : Option (Pre R P)} {fs : List (F × Filt R)}
    {trimStart discard : Bool} {seed : List (List R)} {pb : P}
    (ha : ∀ c ∈ seed, Ascending ord c) (hp : PreOk pre pb seed) (hne : ∀ c ∈ preprocessed pre pb seed, c ≠ [])
    (hf : ∀ f ∈ fs, ∀ g, f.2 = some g → ∀ l, ∃ m, g l = .ok m) :
    ∃ ys pb', iterData ord restart pre pb fs trimStart discard seed = (ys, pb', none) :=
  iterLoop_total ha hp hne hf

/-- Frame of given columns. -/
def frameOf {V : Type} (cols : List String) (get : String → R → V) (rows : List R) : Filter.Frame V :=
  ⟨rows.length, fun c => if c ∈ cols then some (rows.map (get c)) else none⟩

/-- Meaning of filters on one row: some inner list has all its conditions satisfied by the values of the row. -/
def KeepRow {V : Type} (O : Filter.Ops V) (get : String → R → V) (conds : List (List (Filter.Cond V))) (r : R) : Prop :=
  ∃ l ∈ conds, ∀ c ∈ l, Filter.Sat O (get c.name r) c.op c.val

open Classical in
/-- **C47** `dataframe_filter` applied to a chunk decides on each row from its own values, if no list is compared with a column (with
`==`, `<`...). -/
theorem C47_dataframe_filter {V : Type} (O : Filter.Ops V) (cols : List String) (get : String → R → V)
    (conds : List (List (Filter.Cond V)))
    (hv : ∀ l ∈ conds, ∀ c ∈ l, c.op ∈ ["==", "=", "!=", ">", ">=", "<", "<="] → ∃ v, c.val = .one v) :
    RowFilter (some fun rows => Filter.dataframeFilter O (frameOf cols get rows) (.nested conds))
      (fun r => decide (KeepRow O get conds r)) := by
  intro rows m h
  have hwf : (frameOf cols get rows).WF := by
    intro c vs hc
    simp only [frameOf] at hc
    split at hc
    · cases hc; simp [frameOf]
    · cases hc
  obtain ⟨hl, hi⟩ := Filter.C25_rows hwf h
  have hok := Filter.C25_accepts.1 ⟨m, h⟩
  have hl' : m.length = rows.length := hl
  apply List.ext_getElem? 
  intro i
  by_cases hlt : i < rows.length
  · have e : m[i]? = some m[i] := List.getElem?_eq_getElem (by omega)
    rw [e, List.getElem?_map, List.getElem?_eq_getElem hlt, Option.map_some, Option.some.injEq]
    have := hi i hlt
    rw [e, Option.some.injEq] at this
    rw [Bool.eq_iff_iff, this, decide_eq_true_eq]
    refine exists_congr fun l => and_congr_right fun hlm => forall_congr' fun c => forall_congr' fun hc => ?_
    obtain ⟨vs, hvs, -⟩ := hok.2 l hlm c hc
    have harg : ∀ (n : Nat) a, Filter.ArgAt n i c.op c.val a ↔ c.val = a := by
      intro n a
      by_cases ho : c.op ∈ Filter.cmpOps
      · obtain ⟨v, hv⟩ := hv l hlm c hc ho
        rw [hv]
        exact ⟨fun h => by cases h; rfl, fun h => by subst h; exact .one⟩
      · refine ⟨fun h => h.set_eq ho, ?_⟩
        rintro rfl
        cases c.val with
        | one v => exact .one
        | many l => exact .set ho
    simp only [frameOf] at hvs
    split at hvs
    · rename_i hcol
      cases hvs
      constructor
      · rintro ⟨vs, x, a, h1, h2, h3⟩
        simp only [frameOf, hcol, if_true, Option.some.injEq] at h1
        subst h1
        rw [List.getElem?_map, List.getElem?_eq_getElem hlt, Option.map_some, Option.some.injEq] at h2
        subst h2
        rw [harg] at h3
        rw [h3.1]
        exact h3.2
      · intro h3
        refine ⟨rows.map (get c.name), get c.name rows[i], c.val, by simp only [frameOf, hcol, if_true], ?_, (harg _ _).2 rfl, h3⟩
        rw [List.getElem?_map, List.getElem?_eq_getElem hlt, Option.map_some]
    · cases hvs
  · rw [List.getElem?_eq_none (by omega), List.getElem?_eq_none (by simpa using hlt)]

/-- Rows `(index, value)`. -/
def exOrd : Int × Int → Int := Prod.fst

/-- Rows with value above 10, all rows. -/
def exFilters : List (Nat × Filt (Int × Int)) :=
  [(1, some fun l => .ok (l.map fun r => decide (10 < r.2))), (0, none)]

/-- **C47** (finding) If a list is compared with a column, the rows a filter lets through depend on the chunks of the seed: with
the filter `value == [7, 8]`, the same row is kept, left out, or makes the filter raise, according to the chunk it is in. -/
theorem C47_list_fails :
    let keep (rows : List (Int × Int)) := Filter.dataframeFilter Filter.exOps (frameOf ["value"] (fun _ r => r.2) rows)
      (.nested [[⟨"value", "==", .many [7, 8]⟩]])
    keep [(1, 7), (2, 8)] = .ok [true, true] ∧ keep [(3, 7)] = .error .valueError ∧
    keep [(2, 8), (3, 7)] = .ok [false, false] ∧ keep [(1, 7), (2, 8), (3, 7)] = .error .valueError := by
  decide +kernel

example : iterData exOrd (some 2) none () exFilters true true
    [[(1, 11), (1, 5)], [(1, 12), (2, 3)], [(2, 20), (3, 4)], [(3, 30), (4, 40)], [(4, 1)]] =
    ([⟨3, 1, [(2, 20)]⟩, ⟨3, 0, [(2, 3), (2, 20)]⟩, ⟨4, 1, [(3, 30)]⟩, ⟨4, 0, [(3, 4), (3, 30)]⟩], (), none) := by
  decide

/-! ### C45: all rows once -/

/-- **C45** Without filter, trimming, nor `pre`, the frames delivered are the seed, without its last row group if
`discard_last`. -/
theorem C45_once {ord : R → Int} {restart : Option Int} {discard : Bool} {seed : List (List R)} {pb : P} {id : F}
    (hne : ∀ c ∈ seed, c ≠ []) (hasc : Ascending ord seed.flatten) :
    ∃ ys, iterData ord restart none pb [(id, none)] false discard seed = (ys, pb, none) ∧
      (ys.flatMap Yield.rows) = seed.flatten.filter fun r => !discard || notLast ord seed.flatten r := by
  have hpre : ∀ (cs : List (List R)), preprocessed (none : Option (Pre R P)) pb cs = cs := by
    intro cs
    induction cs with
    | nil => rfl
    | cons c cs ih => rw [preprocessed, ih]
  have hpok : ∀ (cs : List (List R)), PreOk (none : Option (Pre R P)) pb cs := by
    intro cs
    induction cs with
    | nil => trivial
    | cons c cs ih => exact ⟨rfl, ih⟩
  have hpb : ∀ (cs : List (List R)) t rem ys pb' e,
      iterLoop ord (none : Option (Pre R P)) [(id, none)] discard t rem pb cs = (ys, pb', e) → pb' = pb := by
    intro cs
    induction cs with
    | nil => intro t rem ys pb' e h; simp only [iterLoop, Prod.mk.injEq] at h; exact h.2.1.symm
    | cons c cs ih =>
      intro t rem ys pb' e h
      simp only [iterLoop, runPre] at h
      split at h
      · simp only [Prod.mk.injEq] at h; exact h.2.1.symm
      · cases hx : (rem ++ c).getLast? with
        | none => simp only [hx, Prod.mk.injEq] at h; exact h.2.1.symm
        | some x =>
          simp only [hx] at h
          split at h
          · exact ih _ _ _ _ _ h
          · generalize hy1 : filterLoop (ord x) (rem ++ c) _ _ = fl at h
            obtain ⟨ys1, e1⟩ := fl
            cases e1 with
            | some e => simp only [Prod.mk.injEq] at h; exact h.2.1.symm
            | none =>
              simp only at h
              generalize hz : iterLoop ord none _ discard none _ pb cs = it at h
              obtain ⟨zs, pb2, e2⟩ := it
              simp only [Prod.mk.injEq] at h
              rw [← h.2.1]
              exact ih _ _ _ _ _ hz
  have hchunk : ∀ c ∈ seed, Ascending ord c := fun c hc =>
    (List.pairwise_flatten.1 hasc).1 c hc
  obtain ⟨ys, pb', h⟩ := C47_total (ord := ord) (restart := restart) (pre := none) (fs := [(id, none)])
    (trimStart := false) (discard := discard) (pb := pb) hchunk (hpok seed) (by rwa [hpre]) (by simp)
  have := hpb _ _ _ _ _ _ h
  subst this
  refine ⟨ys, h, ?_⟩
  have hd := C47_delivered (by simp) (fun _ _ => true) (by simp [RowFilter]) h (by rwa [hpre]) (f := (id, none)) (by simp)
  have hall := C47_nonempty (by simp) (fun _ _ => true) (by simp [RowFilter]) h (by rwa [hpre])
  have : ys.filter (fun y => decide (y.filt = id)) = ys := by
    rw [List.filter_eq_self]
    intro y hy
    simpa using (hall y hy).2
  rw [delivered, this, hpre] at hd
  rw [hd]
  apply List.filter_congr
  simp [notBefore]

/-- A chunk without row raises `IndexError`, what precedes it being aggregated but not written. -/
theorem C45_empty_chunk_fails : iterData exOrd none none () [((0 : Nat), none)] false false [[(1, 1)], [], [(2, 2)]] =
    ([⟨1, 0, [(1, 1)]⟩], (), some .index) := by decide

/-- Chunks in order, but not with respect to one another, are accepted, and `discard_last` then removes in the middle:
row `(3, 3)` is never delivered. -/
theorem C45_unordered_fails :
    iterData exOrd none none () [((0 : Nat), none)] false true [[(2, 2), (3, 3)], [(1, 1), (2, 4)]] =
      ([⟨3, 0, [(2, 2)]⟩, ⟨2, 0, [(1, 1)]⟩], (), none) := by decide

example : iterData exOrd none none () [((0 : Nat), none)] false true
    [[(1, 1), (2, 2)], [(2, 3)], [(2, 4), (5, 5)], [(5, 6)]] =
    ([⟨2, 0, [(1, 1)]⟩, ⟨5, 0, [(2, 2), (2, 3), (2, 4)]⟩], (), none) := by decide

/-! ### C46: successive calls on a growing stream -/

/-- Calls to `agg` with `trim_start` and `discard_last` over a stream `T` that grows: each seed (after `pre`) is made of
the first rows of `T`, possibly without rows that are before the restart index. `Runs T r ys`: after such calls, the
restart index is `r` and `ys` has been delivered. -/
inductive Runs (ord : R → Int) (pre : Option (Pre R P)) (fs : List (F × Filt R)) (T : List R) :
    Option Int → List (Yield F R) → Prop
  | nil : Runs ord pre fs T none []
  | run {r ys} {pb pb' : P} {seed : List (List R)} {n d : Nat} {new : List (Yield F R)} :
    Runs ord pre fs T r ys →
    iterData ord r pre pb fs true true seed = (new, pb', none) →
    (preprocessed pre pb seed).flatten = (T.take n).drop d →
    (∀ x ∈ T.take d, ∃ t, r = some t ∧ ord x < t) →
    Runs ord pre fs T (restartAfter r new) (ys ++ new)

/-- Below the restart index. -/
def below (ord : R → Int) (restart : Option Int) (r : R) : Bool :=
  match restart with
  | some t => decide (ord r < t)
  | none => false

theorem delivered_mem {id : F} {ys : List (Yield F R)} {r : R} :
    r ∈ delivered id ys ↔ ∃ y ∈ ys, y.filt = id ∧ r ∈ y.rows := by
  simp [delivered, and_assoc]

theorem notBefore_below (ord : R → Int) (r : Option Int) (x : R) : notBefore ord r x = !below ord r x := by
  cases r with
  | none => rfl
  | some t =>
    simp only [notBefore, below]
    by_cases h : ord x < t
    · simp [h, not_le.2 h]
    · simp [h, not_lt.1 h]

theorem filter_split {ord : R → Int} {L : List R} (h : Ascending ord L) (r : Option Int) (q : R → Bool) :
    L.filter q = L.filter (fun x => below ord r x && q x) ++ L.filter (fun x => notBefore ord r x && q x) := by
  cases r with
  | none => simp [below, notBefore]
  | some t =>
    have e := congrArg (List.filter q) (asc_split t h)
    rw [List.filter_append, List.filter_filter, List.filter_filter] at e
    rw [e]
    congr 1
    · exact List.filter_congr fun x _ => by simp [below, Bool.and_comm]
    · exact List.filter_congr fun x _ => by rw [notBefore_below]; simp [below, Bool.and_comm]

/-- State after one call: rows below the restart index have been delivered, and all of the seen rows but the last row
group. -/
theorem run_step {ord : R → Int} {pre : Option (Pre R P)} {fs : List (F × Filt R)} {T : List R}
    (hn : (fs.map Prod.fst).Nodup) (p : F → R → Bool) (hf : ∀ f ∈ fs, RowFilter f.2 (p f.1)) (hT : Ascending ord T)
    {r : Option Int} {ys new : List (Yield F R)} {pb pb' : P} {seed : List (List R)} {n d : Nat}
    (ih : ∀ f ∈ fs, delivered f.1 ys = T.filter fun x => below ord r x && p f.1 x)
    (h : iterData ord r pre pb fs true true seed = (new, pb', none))
    (hs : (preprocessed pre pb seed).flatten = (T.take n).drop d)
    (hd : ∀ x ∈ T.take d, ∃ t, r = some t ∧ ord x < t) :
    (∀ f ∈ fs, delivered f.1 (ys ++ new) = T.filter fun x => below ord (restartAfter r new) x && p f.1 x) ∧
    ((∀ t, r = some t → ∃ x ∈ T.take n, t ≤ ord x) →
      ∀ f ∈ fs, delivered f.1 (ys ++ new) = (T.take n).filter fun x => notLast ord (T.take n) x && p f.1 x) ∧
    ∀ t, restartAfter r new = some t → r = some t ∨ ∃ x ∈ T.take n, ord x = t := by
  have hU : Ascending ord (T.take n) := List.Pairwise.sublist (List.take_sublist n T) hT
  have hS : Ascending ord ((T.take n).drop d) := List.Pairwise.sublist (List.drop_sublist d _) hU
  obtain ⟨s1, s2, s3⟩ := iterLoop_spec hn p hf (by simp) h (by rw [List.nil_append]) (by rw [hs]; exact hS) (by simp)
  rw [hs] at s1 s2
  simp only [if_true, Bool.not_true, Bool.false_or] at s1
  -- `T` in three parts
  have hTn : T = T.take n ++ T.drop n := (List.take_append_drop n T).symm
  have hlate : ∀ x ∈ T.take n, ∀ z ∈ T.drop n, ord x ≤ ord z := by
    rw [hTn] at hT
    exact (List.pairwise_append.1 hT).2.2
  have hUd : T.take n = (T.take n).take d ++ (T.take n).drop d := (List.take_append_drop d _).symm
  have hearly : ∀ x ∈ (T.take n).take d, below ord r x = true := by
    intro x hx
    have : x ∈ T.take d := by
      rw [List.take_take] at hx
      rw [Nat.min_comm, ← List.take_take] at hx
      exact List.mem_of_mem_take hx
    obtain ⟨t, rfl, ht⟩ := hd x this
    simpa [below] using ht
  have dropEarly : ∀ q : R → Bool, (T.take n).filter (fun x => notBefore ord r x && q x) =
      ((T.take n).drop d).filter (fun x => notBefore ord r x && q x) := by
    intro q
    conv_lhs => rw [hUd]
    rw [List.filter_append]
    have : ((T.take n).take d).filter (fun x => notBefore ord r x && q x) = [] := by
      rw [List.filter_eq_nil_iff]
      intro x hx
      rw [notBefore_below, hearly x hx]
      simp
    rw [this, List.nil_append]
  refine ⟨fun f hfm => ?_, fun hr f hfm => ?_, fun t ht => ?_⟩
  · rw [delivered_append, ih f hfm]
    cases hl : new.getLast? with
    | none =>
      rw [List.getLast?_eq_none_iff] at hl
      subst hl
      simp [delivered, restartAfter]
    | some y =>
      have hra : restartAfter r new = some y.last := by simp [restartAfter, hl]
      rw [hra, s1 f hfm]
      have hy : y ∈ new := List.mem_of_getLast? hl
      obtain ⟨y1, y2, y3, y4⟩ := s2 y hy
      obtain ⟨xv, hxv, hxe⟩ := List.mem_map.1 y3
      have hmax : ∀ z ∈ new, z.last ≤ y.last := by
        intro z hz
        obtain ⟨l', rfl⟩ := List.getLast?_eq_some_iff.1 hl
        rcases List.mem_append.1 hz with hz | hz
        · rw [List.map_append, List.pairwise_append] at s3
          exact s3.2.2 _ (List.mem_map_of_mem hz) _ (by simp)
        · simp only [List.mem_singleton] at hz; rw [hz]
      obtain ⟨w, hw⟩ := List.exists_mem_of_ne_nil _ y1
      obtain ⟨g, hg, hge⟩ := List.mem_map.1 y2
      have hwd : w ∈ delivered g.1 new := delivered_mem.2 ⟨y, hy, hge.symm, hw⟩
      rw [s1 g hg, List.mem_filter] at hwd
      simp only [Bool.and_eq_true] at hwd
      have hrv : ∀ t, r = some t → t ≤ y.last := by
        intro t ht
        subst ht
        have := hwd.2.1.1
        simp only [notBefore, decide_eq_true_eq] at this
        have := (y4 w hw).2 rfl
        omega
      rw [filter_split hT r (fun x => below ord (some y.last) x && p f.1 x)]
      congr 1
      · apply List.filter_congr
        intro x _
        cases r with
        | none => simp [below]
        | some t =>
          have := hrv t rfl
          simp only [below]
          by_cases hx : ord x < t
          · have : ord x < y.last := by omega
            simp [hx, this]
          · simp [hx]
      · conv_rhs => rw [hTn]
        rw [List.filter_append]
        have : (T.drop n).filter (fun x => notBefore ord r x && (below ord (some y.last) x && p f.1 x)) = [] := by
          rw [List.filter_eq_nil_iff]
          intro x hx
          have := hlate xv (List.mem_of_mem_drop hxv) x hx
          have : ¬ ord x < y.last := by omega
          simp [below, this]
        rw [this, List.append_nil, dropEarly]
        apply List.filter_congr
        intro x hx
        rw [Bool.eq_iff_iff]
        simp only [Bool.and_eq_true, below, decide_eq_true_eq, notLast, List.any_eq_true]
        constructor
        · rintro ⟨⟨h1, h2⟩, h3⟩
          refine ⟨h1, ?_, h3⟩
          have : x ∈ delivered f.1 new := by
            rw [s1 f hfm, List.mem_filter]
            refine ⟨hx, ?_⟩
            simp only [Bool.and_eq_true, notLast, List.any_eq_true, decide_eq_true_eq]
            exact ⟨⟨h1, h2⟩, h3⟩
          obtain ⟨z, hz, _, hxz⟩ := delivered_mem.1 this
          have h4 := ((s2 z hz).2.2.2 x hxz).2 rfl
          have h5 := hmax z hz
          omega
        · rintro ⟨h1, h2, h3⟩
          exact ⟨⟨h1, xv, hxv, by omega⟩, h3⟩
  · rw [delivered_append, ih f hfm, s1 f hfm, filter_split hU r]
    congr 1
    · conv_lhs => rw [hTn]
      rw [List.filter_append]
      have : (T.drop n).filter (fun x => below ord r x && p f.1 x) = [] := by
        rw [List.filter_eq_nil_iff]
        intro x hx
        cases r with
        | none => simp [below]
        | some t =>
          obtain ⟨z, hz, hze⟩ := hr t rfl
          have := hlate z hz x hx
          have : ¬ ord x < t := by omega
          simp [below, this]
      rw [this, List.append_nil]
      apply List.filter_congr
      intro x hx
      cases r with
      | none => simp [below]
      | some t =>
        obtain ⟨z, hz, hze⟩ := hr t rfl
        simp only [below]
        by_cases hxt : ord x < t
        · have : notLast ord (T.take n) x = true := by
            simp only [notLast, List.any_eq_true, decide_eq_true_eq]
            exact ⟨z, hz, by omega⟩
          simp [hxt, this]
        · simp [hxt]
    · rw [dropEarly]
      apply List.filter_congr
      intro x hx
      by_cases hb : below ord r x = true
      · rw [notBefore_below, hb]; simp
      · have : notLast ord (T.take n) x = notLast ord ((T.take n).drop d) x := by
          conv_lhs => rw [hUd]
          simp only [notLast]
          rw [List.any_append, Bool.or_eq_right_iff_imp]
          intro hany
          exfalso
          obtain ⟨z, hz, hlt⟩ := List.any_eq_true.1 hany
          have h1 := hearly z hz
          cases r with
          | none => simp [below] at h1
          | some t =>
            simp only [below, decide_eq_true_eq] at h1 hlt hb
            omega
        rw [this, Bool.and_assoc]
  · cases hl : new.getLast? with
    | none =>
      rw [List.getLast?_eq_none_iff] at hl
      subst hl
      exact Or.inl ht
    | some y =>
      right
      simp only [restartAfter, hl, Option.some.injEq] at ht
      have hy : y ∈ new := List.mem_of_getLast? hl
      obtain ⟨xv, hxv, hxe⟩ := List.mem_map.1 (s2 y hy).2.2.1
      exact ⟨xv, List.mem_of_mem_drop hxv, by rw [hxe, ht]⟩

/-- **C46** After any number of calls, what has been delivered for a filter is exactly the rows of the stream that are
before the restart index and that the filter keeps, each one once and in order. -/
theorem C46_invariant {ord : R → Int} {pre : Option (Pre R P)} {fs : List (F × Filt R)} {T : List R}
    (hn : (fs.map Prod.fst).Nodup) (p : F → R → Bool) (hf : ∀ f ∈ fs, RowFilter f.2 (p f.1)) (hT : Ascending ord T)
    {r : Option Int} {ys : List (Yield F R)} (h : Runs ord pre fs T r ys) :
    ∀ f ∈ fs, delivered f.1 ys = T.filter fun x => below ord r x && p f.1 x := by
  induction h with
  | nil => intro f _; simp [delivered, below]
  | run _ h1 h2 h3 ih => exact (run_step hn p hf hT ih h1 h2 h3).1

/-- **C46** After a call over the first `n` rows of the stream, those being not fewer than what gave the restart index,
what has been delivered overall is exactly these rows but the last row group, each one once and in order. -/
theorem C46_growing {ord : R → Int} {pre : Option (Pre R P)} {fs : List (F × Filt R)} {T : List R}
    (hn : (fs.map Prod.fst).Nodup) (p : F → R → Bool) (hf : ∀ f ∈ fs, RowFilter f.2 (p f.1)) (hT : Ascending ord T)
    {r : Option Int} {ys new : List (Yield F R)} (hr : Runs ord pre fs T r ys)
    {pb pb' : P} {seed : List (List R)} {n d : Nat}
    (h : iterData ord r pre pb fs true true seed = (new, pb', none))
    (hs : (preprocessed pre pb seed).flatten = (T.take n).drop d)
    (hd : ∀ x ∈ T.take d, ∃ t, r = some t ∧ ord x < t)
    (hgrow : ∀ t, r = some t → ∃ x ∈ T.take n, ord x = t) {f : F × Filt R} (hfm : f ∈ fs) :
    delivered f.1 (ys ++ new) = (T.take n).filter fun x => notLast ord (T.take n) x && p f.1 x :=
  (run_step hn p hf hT (C46_invariant hn p hf hT hr) h hs hd).2.1
    (fun t ht => (hgrow t ht).imp fun _ h => ⟨h.1, h.2.ge⟩) f hfm

/-- **C46** A last call without `discard_last` delivers the remaining rows: overall, all rows once. -/
theorem C46_complete {ord : R → Int} {pre : Option (Pre R P)} {fs : List (F × Filt R)} {T : List R}
    (hn : (fs.map Prod.fst).Nodup) (p : F → R → Bool) (hf : ∀ f ∈ fs, RowFilter f.2 (p f.1)) (hT : Ascending ord T)
    {r : Option Int} {ys new : List (Yield F R)} (hr : Runs ord pre fs T r ys)
    {pb pb' : P} {seed : List (List R)} {d : Nat}
    (h : iterData ord r pre pb fs true false seed = (new, pb', none))
    (hs : (preprocessed pre pb seed).flatten = T.drop d)
    (hd : ∀ x ∈ T.take d, ∃ t, r = some t ∧ ord x < t) {f : F × Filt R} (hfm : f ∈ fs) :
    delivered f.1 (ys ++ new) = T.filter (p f.1) := by
  have hS : Ascending ord (T.drop d) := List.Pairwise.sublist (List.drop_sublist d _) hT
  have h1 := C47_delivered hn p hf h (by rw [hs]; exact hS) hfm
  rw [delivered_append, C46_invariant hn p hf hT hr f hfm, h1, hs, filter_split hT r (p f.1)]
  congr 1
  conv_rhs => rw [← List.take_append_drop d T]
  rw [List.filter_append]
  have : (T.take d).filter (fun x => notBefore ord r x && p f.1 x) = [] := by
    rw [List.filter_eq_nil_iff]
    intro x hx
    obtain ⟨t, rfl, ht⟩ := hd x hx
    simp [notBefore, not_le.2 ht]
  rw [this, List.nil_append]
  exact List.filter_congr fun x _ => by simp

/-- Without `discard_last`, the rows at the restart index are delivered again by the next call with `trim_start`. -/
theorem C46_no_discard_fails :
    iterData exOrd none none () [((0 : Nat), none)] false false [[(1, 1), (2, 2)]] =
      ([⟨2, 0, [(1, 1), (2, 2)]⟩], (), none) ∧
    iterData exOrd (some 2) none () [((0 : Nat), none)] true false [[(1, 1), (2, 2), (3, 3)]] =
      ([⟨3, 0, [(2, 2), (3, 3)]⟩], (), none) := by decide

/-- The stream is `(1, 1), (2, 2), (2, 3), (3, 4)`: two calls. -/
example : ∃ r ys, Runs exOrd (none : Option (Pre (Int × Int) Unit)) [((0 : Nat), none)]
    [(1, 1), (2, 2), (2, 3), (3, 4)] r ys ∧ r = some 3 ∧ delivered 0 ys = [(1, 1), (2, 2), (2, 3)] := by
  refine ⟨_, _, .run (n := 4) (d := 1) (seed := [[(2, 2)], [(2, 3), (3, 4)]]) (pb := ()) (pb' := ())
    (new := [⟨3, 0, [(2, 2), (2, 3)]⟩])
    (.run (n := 2) (d := 0) (seed := [[(1, 1), (2, 2)]]) (pb := ()) (pb' := ()) (new := [⟨2, 0, [(1, 1)]⟩])
      .nil (by decide) rfl (by simp)) (by decide) rfl ?_, by decide, by decide⟩
  intro x hx
  simp only [List.take_succ_cons, List.take_zero, List.mem_singleton] at hx
  subst hx
  exact ⟨2, rfl, by decide⟩

end Oups.AggStream
