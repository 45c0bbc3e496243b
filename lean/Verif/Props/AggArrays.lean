import Verif.Model.AggArrays
import Verif.Proofs.Aggregate
import Verif.Proofs.AggregateSetup
/-! # C84: aggregation functions work in place, on copies -/
namespace Oups.Agg
open Spec

section
variable {V : Type}

/-! ### One call -/

theorem getD_set_self {α : Type} (l : List α) (i : Nat) (v z : α) (h : i < l.length) : (l.set i v).getD i z = v := by
  simp [List.getD, h]

theorem getD_set_other {α : Type} (l : List α) (i j : Nat) (v z : α) (h : i ≠ j) : (l.set i v).getD j z = l.getD j z := by
  simp [List.getD, h]

/-- Arrays in which the accumulated one is told apart. -/
def mkArgs (rest : List (List V)) (ini : List V) (res : List V) : Loc → Args V
  | .init => ⟨rest, res⟩
  | .row0 => ⟨res :: rest, ini⟩

/-- Index in `ar` of the `j`-th row read. -/
def rowIdx (j : Nat) : Loc → Nat
  | .init => j
  | .row0 => j + 1

def pureCell (z : V) (f : V → V → Option V) (row res : List V) (i : Nat) : List V :=
  ((f (res.getD i z) (row.getD i z)).map fun v => res.set i v).getD res

theorem cellStep_eq (z : V) (f : V → V → Option V) (loc : Loc) (rest : List (List V)) (ini res : List V) (j i : Nat) :
    cellStep z f loc (rowIdx j loc) (mkArgs rest ini res loc) i = mkArgs rest ini (pureCell z f (rest.getD j []) res i) loc := by
  cases loc with
  | init =>
    simp only [cellStep, pureCell, mkArgs, Args.read, rowIdx]
    cases f (res.getD i z) ((rest.getD j []).getD i z) <;> rfl
  | row0 =>
    simp only [cellStep, pureCell, mkArgs, Args.read, rowIdx, List.headD_cons, List.getD_cons_succ]
    cases f (res.getD i z) ((rest.getD j []).getD i z) <;> rfl

theorem cells_eq (z : V) (f : V → V → Option V) (loc : Loc) (rest : List (List V)) (ini : List V) (j : Nat) (is : List Nat) :
    ∀ res, is.foldl (cellStep z f loc (rowIdx j loc)) (mkArgs rest ini res loc) =
      mkArgs rest ini (is.foldl (pureCell z f (rest.getD j [])) res) loc := by
  induction is with
  | nil => intro res; rfl
  | cons i is ih => intro res; rw [List.foldl_cons, cellStep_eq, ih, List.foldl_cons]

theorem pureCell_length (z : V) (f : V → V → Option V) (row res : List V) (i : Nat) :
    (pureCell z f row res i).length = res.length := by
  unfold pureCell
  cases f (res.getD i z) (row.getD i z) <;> simp

theorem pureRow_spec (z : V) (f : V → V → Option V) (row res : List V) (n : Nat) (hn : n ≤ res.length) :
    ((List.range n).foldl (pureCell z f row) res).length = res.length ∧
    ∀ i, ((List.range n).foldl (pureCell z f row) res).getD i z =
      if i < n then (f (res.getD i z) (row.getD i z)).getD (res.getD i z) else res.getD i z := by
  induction n with
  | zero => simp
  | succ n ih =>
    obtain ⟨h1, h2⟩ := ih (by omega)
    rw [List.range_succ, List.foldl_append, List.foldl_cons, List.foldl_nil]
    generalize hr : (List.range n).foldl (pureCell z f row) res = r at *
    refine ⟨by rw [pureCell_length, h1], fun i => ?_⟩
    have hrn : r.getD n z = res.getD n z := by rw [h2 n, if_neg (by omega)]
    unfold pureCell
    rw [hrn]
    by_cases hi : i = n
    · subst hi
      rw [if_pos (by omega)]
      cases hf : f (res.getD i z) (row.getD i z) with
      | none => simp only [Option.map_none, Option.getD_none]; exact hrn
      | some v => simp only [Option.map_some, Option.getD_some]; exact getD_set_self _ _ _ _ (by omega)
    · have : ((((f (res.getD n z) (row.getD n z)).map fun v => r.set n v).getD r).getD i z) = r.getD i z := by
        cases f (res.getD n z) (row.getD n z) with
        | none => rfl
        | some v => exact getD_set_other _ _ _ _ _ (fun e => hi e.symm)
      rw [this, h2 i]
      by_cases h : i < n
      · rw [if_pos h, if_pos (by omega)]
      · rw [if_neg h, if_neg (by omega)]

theorem rows_eq (z : V) (f : V → V → Option V) (loc : Loc) (rest : List (List V)) (ini : List V) (js : List Nat) :
    ∀ res, (js.map fun j => rowIdx j loc).foldl (rowStep z f loc) (mkArgs rest ini res loc) =
      mkArgs rest ini (js.foldl (fun r j => (List.range (rest.getD j []).length).foldl (pureCell z f (rest.getD j [])) r) res) loc := by
  induction js with
  | nil => intro res; rfl
  | cons j js ih =>
    intro res
    rw [List.map_cons, List.foldl_cons, List.foldl_cons, rowStep, cells_eq, ← ih]
    congr 3
    cases loc <;> rfl

theorem foldl_getD {α β : Type} (g : β → α → β) (d : α) : ∀ (l : List α) (b : β),
    (List.range l.length).foldl (fun r j => g r (l.getD j d)) b = l.foldl g b := by
  intro l
  induction l with
  | nil => intro b; rfl
  | cons a l ih =>
    intro b
    rw [List.length_cons, List.range_succ_eq_map, List.foldl_cons, List.foldl_map, List.foldl_cons]
    exact ih (g b a)

/-- Column by column. -/
theorem pureRows_spec (z : V) (f : V → V → Option V) : ∀ (rows : List (List V)) (res : List V), (∀ r ∈ rows, r.length = res.length) →
    (rows.foldl (fun r row => (List.range row.length).foldl (pureCell z f row) r) res).length = res.length ∧
    ∀ i, i < res.length → (rows.foldl (fun r row => (List.range row.length).foldl (pureCell z f row) r) res).getD i z =
      (rows.map fun row => row.getD i z).foldl (fun r v => (f r v).getD r) (res.getD i z) := by
  intro rows
  induction rows with
  | nil => intro res _; exact ⟨rfl, fun _ _ => rfl⟩
  | cons row rows ih =>
    intro res h
    have hl := h row (by simp)
    obtain ⟨p1, p2⟩ := pureRow_spec z f row res row.length (by omega)
    obtain ⟨q1, q2⟩ := ih ((List.range row.length).foldl (pureCell z f row) res) (fun r hr => by rw [p1]; exact h r (by simp [hr]))
    refine ⟨by rw [List.foldl_cons, q1, p1], fun i hi => ?_⟩
    rw [List.foldl_cons, q2 i (by rw [p1]; exact hi), p2 i, if_pos (by omega), List.map_cons, List.foldl_cons]

variable (O : Ops V)

/-- What a function writes at each step, and its step (`jfold`). -/
def fnStep : Fn → V → V → Option V
  | .max => fun res v => if O.lt res v then some v else none
  | .min => fun res v => if O.lt v res then some v else none
  | .sum => fun res v => some (O.add res v)
  | _ => fun _ _ => none

theorem jaggMem_fold (fn : Fn) (h : fn = .max ∨ fn = .min ∨ fn = .sum) (w : Nat) (a : Args V) (u : Bool) :
    jaggMem O fn w a u = jfoldMem O (fnStep O fn) w a u := by
  rcases h with rfl | rfl | rfl <;> rfl

theorem jagg_fold (fn : Fn) (h : fn = .max ∨ fn = .min ∨ fn = .sum) (ar : List V) (v : V) (u : Bool) :
    jagg O fn ar v u = jfold O (fun r v => (fnStep O fn r v).getD r) ar v u := by
  rcases h with rfl | rfl | rfl
  · simp only [jagg, jmax]
    congr 1; funext r v; simp only [fnStep]; split <;> rfl
  · simp only [jagg, jmin]
    congr 1; funext r v; simp only [fnStep]; split <;> rfl
  · rfl

/-- Arrays of one width. -/
def Args.Wide (w : Nat) (a : Args V) : Prop := (∀ r ∈ a.ar, r.length = w) ∧ a.initial.length = w

theorem eq_map_getD {l : List V} {w : Nat} (z : V) (h : l.length = w) (g : Nat → V) (hg : ∀ i, i < w → l.getD i z = g i) :
    l = (List.range w).map g := by
  apply List.ext_getElem
  · simp [h]
  · intro i h1 h2
    rw [List.getElem_map, List.getElem_range, ← hg i (by omega), List.getD_eq_getElem?_getD, List.getElem?_eq_getElem h1]
    rfl

theorem jfoldMem_spec (f : V → V → Option V) (w : Nat) (a : Args V) (u : Bool) (ha : a.Wide w) :
    (jfoldMem O f w a u).2 = (List.range w).map (fun i =>
        jfold O (fun r v => (f r v).getD r) (a.ar.map fun row => row.getD i O.zero) (a.initial.getD i O.zero) u) ∧
    (jfoldMem O f w a u).1 = if a.ar = [] then a else if u then { a with initial := (jfoldMem O f w a u).2 }
      else { a with ar := (jfoldMem O f w a u).2 :: a.ar.tail } := by
  obtain ⟨h1, h2⟩ := ha
  obtain ⟨ar, ini⟩ := a
  simp only at h1 h2
  cases ar with
  | nil =>
    refine ⟨?_, rfl⟩
    cases u with
    | false =>
      simp only [jfoldMem, jfold, List.length_nil, Nat.lt_irrefl, if_false, List.map_nil, Bool.false_eq_true]
      exact eq_map_getD O.zero (by simp) _ (fun i hi => by simp [List.getD, hi])
    | true =>
      simp only [jfoldMem, jfold, List.length_nil, Nat.lt_irrefl, if_false, List.map_nil, if_true]
      exact eq_map_getD O.zero h2 _ (fun i hi => rfl)
  | cons row ar =>
    cases u with
    | true =>
      have key := rows_eq O.zero f .init (row :: ar) ini (List.range (row :: ar).length) ini
      rw [foldl_getD (fun r (row : List V) => (List.range row.length).foldl (pureCell O.zero f row) r)] at key
      simp only [rowIdx, List.map_id', mkArgs] at key
      obtain ⟨q1, q2⟩ := pureRows_spec O.zero f (row :: ar) ini (fun r hr => by rw [h1 r hr, h2])
      have hval : jfoldMem O f w ⟨row :: ar, ini⟩ true =
          (⟨row :: ar, (row :: ar).foldl (fun r row => (List.range row.length).foldl (pureCell O.zero f row) r) ini⟩,
            (row :: ar).foldl (fun r row => (List.range row.length).foldl (pureCell O.zero f row) r) ini) := by
        simp only [jfoldMem, List.length_cons, Nat.succ_pos, if_true, List.drop_zero, beq_self_eq_true, Bool.or_true]
        rw [List.length_cons] at key
        rw [key]
        rfl
      rw [hval]
      refine ⟨?_, by simp⟩
      refine eq_map_getD O.zero (by rw [q1, h2]) _ (fun i hi => ?_)
      rw [q2 i (by omega)]
      rfl
    | false =>
      have key := rows_eq O.zero f .row0 ar ini (List.range ar.length) row
      rw [foldl_getD (fun r (row : List V) => (List.range row.length).foldl (pureCell O.zero f row) r)] at key
      simp only [rowIdx, mkArgs] at key
      have hr := h1 row (by simp)
      obtain ⟨q1, q2⟩ := pureRows_spec O.zero f ar row (fun r hr' => by rw [h1 r (by simp [hr']), hr])
      have hval : jfoldMem O f w ⟨row :: ar, ini⟩ false =
          (⟨ar.foldl (fun r row => (List.range row.length).foldl (pureCell O.zero f row) r) row :: ar, ini⟩,
            ar.foldl (fun r row => (List.range row.length).foldl (pureCell O.zero f row) r) row) := by
        cases ar with
        | nil => rfl
        | cons row2 ar =>
          simp only [jfoldMem, List.length_cons, Nat.succ_pos, if_true, Bool.false_eq_true, if_false]
          rw [if_pos (by simp), List.range_succ_eq_map, List.drop_succ_cons, List.drop_zero]
          rw [List.length_cons] at key
          rw [show List.map Nat.succ = List.map (fun j => j + 1) from rfl, key]
          rfl
      rw [hval]
      refine ⟨?_, by simp⟩
      refine eq_map_getD O.zero (by rw [q1, hr]) _ (fun i hi => ?_)
      rw [q2 i (by omega)]
      rfl

/-- **C84** What an aggregation function returns is, for each column, the aggregate of the column. -/
theorem C84_columns (fn : Fn) (w : Nat) (a : Args V) (u : Bool) (ha : a.Wide w) :
    (jaggMem O fn w a u).2 =
      (List.range w).map fun i => jagg O fn (a.ar.map fun row => row.getD i O.zero) (a.initial.getD i O.zero) u := by
  by_cases h : fn = .max ∨ fn = .min ∨ fn = .sum
  · rw [jaggMem_fold O fn h, (jfoldMem_spec O _ w a u ha).1]
    exact List.map_congr_left fun i _ => (jagg_fold O fn h _ _ u).symm
  · obtain ⟨h1, h2⟩ := ha
    obtain ⟨ar, ini⟩ := a
    simp only at h1 h2
    have hrow : ∀ l : List V, l.length = w → l = (List.range w).map fun i => l.getD i O.zero :=
      fun l hl => eq_map_getD O.zero hl _ fun _ _ => rfl
    have hzero : List.replicate w O.zero = (List.range w).map fun _ => O.zero := by
      rw [List.map_const', List.length_range]
    cases fn with
    | first =>
      cases u with
      | true => exact hrow ini h2
      | false =>
        cases ar with
        | nil => exact hzero
        | cons row ar => exact hrow row (h1 row (by simp))
    | last =>
      cases hl : ar.getLast? with
      | none =>
        rw [List.getLast?_eq_none_iff] at hl
        subst hl
        cases u with
        | true => exact hrow ini h2
        | false => exact hzero
      | some r =>
        have hne : ar ≠ [] := by rintro rfl; simp at hl
        have : (jaggMem O .last w ⟨ar, ini⟩ u).2 = r := by
          simp only [jaggMem, if_pos (List.length_pos_iff.2 hne)]
          rw [List.getLastD_eq_getLast?, hl]; rfl
        rw [this]
        refine (hrow r (h1 r (List.mem_of_getLast? hl))).trans (List.map_congr_left fun i _ => ?_)
        simp only [jagg, jlast, List.getLast?_map, hl, Option.map_some]
    | max => exact absurd (Or.inl rfl) h
    | min => exact absurd (Or.inr (Or.inl rfl)) h
    | sum => exact absurd (Or.inr (Or.inr rfl)) h

/-- **C84** The arrays it was given: `first` and `last` leave them as they are; `max`, `min` and `sum` overwrite `initial` if it is used,
the first row of `ar` otherwise, with what is returned. -/
theorem C84_arguments (fn : Fn) (w : Nat) (a : Args V) (u : Bool) (ha : a.Wide w) :
    (jaggMem O fn w a u).1 =
      if fn = .first ∨ fn = .last ∨ a.ar = [] then a
      else if u then { a with initial := (jaggMem O fn w a u).2 } else { a with ar := (jaggMem O fn w a u).2 :: a.ar.tail } := by
  by_cases h : fn = .max ∨ fn = .min ∨ fn = .sum
  · rw [jaggMem_fold O fn h, (jfoldMem_spec O _ w a u ha).2]
    have : (fn = .first ∨ fn = .last ∨ a.ar = []) ↔ a.ar = [] := by rcases h with rfl | rfl | rfl <;> simp
    simp only [this]
  · cases fn with
    | first => rfl
    | last => rfl
    | max => exact absurd (Or.inl rfl) h
    | min => exact absurd (Or.inr (Or.inl rfl)) h
    | sum => exact absurd (Or.inr (Or.inr rfl)) h

/-! ### `jcsagg` -/

theorem putAt_eq (cols : List Nat) (idx : List Nat) (h : cols.length = idx.length) (val : Nat → Nat → V) : ∀ (acc : List V),
    putAt acc idx ((List.range cols.length).map fun i => val (cols.getD i 0) (idx.getD i 0)) =
      (cols.zip idx).foldl (fun acc p => acc.set p.2 (val p.1 p.2)) acc := by
  induction cols generalizing idx with
  | nil =>
    cases idx with
    | nil => intro acc; rfl
    | cons _ _ => simp at h
  | cons c cols ih =>
    cases idx with
    | nil => simp at h
    | cons d idx =>
      intro acc
      have := ih idx (by simpa using h) (acc.set d (val c d))
      simp only [putAt] at this ⊢
      rw [List.length_cons, List.range_succ_eq_map, List.map_cons, List.map_map, List.zip_cons_cons, List.zip_cons_cons,
        List.foldl_cons, List.foldl_cons, ← this]
      rfl

theorem applyMem_eq (lo hi : Nat) (preserve : Bool) (m : Mem V) (agg : Fn × List Nat × List Nat)
    (h : agg.2.1.length = agg.2.2.length) :
    applyMem O false lo hi preserve m agg =
      { m with res := applyAgg O ((m.data.drop lo).take (hi - lo)) preserve m.res agg } := by
  simp only [applyMem, Bool.false_eq_true, if_false]
  congr 1
  rw [C84_columns]
  · rw [applyAgg, ← putAt_eq _ _ h (fun c d => jagg O agg.1 (((m.data.drop lo).take (hi - lo)).map fun row => row.getD c O.zero)
      (m.res.getD d O.zero) preserve)]
    congr 1
    apply List.map_congr_left
    intro i hi'
    have hi' := List.mem_range.1 hi'
    simp only [List.map_map]
    congr 1
    · apply List.map_congr_left
      intro row _
      simp [List.getD_eq_getElem?_getD, hi']
    · simp [List.getD_eq_getElem?_getD, h ▸ hi']
  · exact ⟨fun r hr => by obtain ⟨_, _, rfl⟩ := List.mem_map.1 hr; simp, by simp [h]⟩

/-- Functions have as many columns of data as of results (`setup_cumsegagg`: `C84_setup`). -/
def Group.Paired (g : Group) : Prop := ∀ a ∈ g.aggs, a.2.1.length = a.2.2.length

theorem groupMem_eq (g : Group) (hg : g.Paired) (lo hi : Nat) (preserve : Bool) (m : Mem V) :
    groupMem O false g lo hi preserve m = { m with res := updGroup O g ((m.data.drop lo).take (hi - lo)) m.res preserve } := by
  unfold groupMem updGroup
  unfold Group.Paired at hg
  generalize g.aggs = l at hg
  induction l generalizing m with
  | nil => rfl
  | cons a l ih =>
    rw [List.foldl_cons, applyMem_eq O _ _ _ _ _ (hg a (by simp)), ih _ (fun a ha => hg a (by simp [ha])), List.foldl_cons]

theorem mloop_eq (g : Group) (hg : g.Paired) (data : List (List V)) (es : List (Bool × Nat)) : ∀ (bs : Int) (cs : Nat) (p : Bool) (res : List V),
    mloop O false g ⟨bs, cs, p, ⟨data, res⟩⟩ es =
      ((jloop (updGroup O g) data ⟨bs, cs, p, res⟩ es).1, ⟨data, (jloop (updGroup O g) data ⟨bs, cs, p, res⟩ es).2⟩) := by
  induction es with
  | nil => intro _ _ _ _; rfl
  | cons e es ih =>
    intro bs cs p res
    obtain ⟨isBin, next⟩ := e
    by_cases h1 : bs = (next : Int)
    · simp only [mloop, jloop, mstep, jstep, h1, if_true, ih]
    · by_cases h2 : ((data.drop cs).take (next - cs)).isEmpty = true
      · cases isBin <;> simp only [mloop, jloop, mstep, jstep, h1, if_false, h2, if_true, ih, Bool.not_true, Bool.not_false, Bool.false_eq_true]
      · cases isBin <;> simp only [mloop, jloop, mstep, jstep, h1, if_false, h2, groupMem_eq O g hg, ih, Bool.not_true, Bool.not_false, if_true, Bool.false_eq_true]

/-- **C84** `jcsagg` leaves the data as it is, and its results are those of the model without arrays (C35 to C43). -/
theorem C84_data_unchanged (g : Group) (hg : g.Paired) (data : List (List V)) (res : List V) (starts binIndices : List Nat)
    (someSnaps preserve : Bool) :
    ∃ bins snaps res', jcsaggMem O false g ⟨data, res⟩ starts binIndices someSnaps preserve = (bins, snaps, ⟨data, res'⟩) ∧
      jcsagg (updGroup O g) data starts binIndices someSnaps preserve res = (bins, snaps, res') := by
  refine ⟨_, _, _, ?_, rfl⟩
  simp only [jcsaggMem, mloop_eq O g hg]

end

/-- **C84** The groups of `setup_cumsegagg` have as many columns of data as of results. -/
theorem C84_setup {D : Type} [DecidableEq D] (dtype : Nat → Option D) (agg : List (Nat × Nat × Option Fn)) (cfg : List (D × Group))
    (h : setupCumsegagg agg dtype = .ok cfg) : ∀ p ∈ cfg, p.2.Paired := by
  have h0 : LoopInv dtype [] ([] : List (D × Building)) := ⟨by simp, by simp, by simp, fun _ _ => rfl⟩
  unfold setupCumsegagg at h
  rcases setupLoop_inv dtype agg [] [] h0 with ⟨cfg', h1, h2, _⟩ | ⟨err, h1, _⟩
  · rw [h1] at h
    simp only [Except.ok.injEq] at h
    subst h
    intro p hp a ha
    obtain ⟨q, hq, rfl⟩ := List.mem_map.1 hp
    have hi := (h2.entry q hq).inner
    obtain ⟨j, hj⟩ := List.getElem?_of_mem ha
    simp only [Building.finish] at hj
    rw [List.getElem?_zip_eq_some] at hj
    obtain ⟨_, hj⟩ := hj
    rw [List.getElem?_zip_eq_some] at hj
    have := hi j
    rw [List.getD_eq_getElem?_getD, List.getD_eq_getElem?_getD, hj.1, hj.2] at this
    exact this
  · rw [h1] at h; simp at h

/-- Integers. -/
def memOps : Ops Int := ⟨fun a b => decide (a < b), (· + ·), 0⟩

/-- **C84** An aggregation function called on an array itself changes it: its first row. -/
theorem C84_direct_fails : ∃ (a : Args Int), a.Wide 2 ∧ (jaggMem memOps .max 2 a false).1 ≠ a :=
  ⟨⟨[[1, 5], [3, 2]], [0, 0]⟩, ⟨by decide, by decide⟩, by decide⟩

/-- **C84** If columns were views and not copies, a `first` after a `max` of the same column would be that of the changed data. -/
theorem C84_views_fails :
    let g : Group := ⟨[0], [0, 1], [(.max, [0], [0]), (.first, [0], [1])], 2⟩
    (jcsaggMem memOps false g ⟨[[1], [3], [2]], [0, 0]⟩ [3] [] false false) = ([some [3, 1]], [], ⟨[[1], [3], [2]], [3, 1]⟩) ∧
    (jcsaggMem memOps true g ⟨[[1], [3], [2]], [0, 0]⟩ [3] [] false false) = ([some [3, 3]], [], ⟨[[3], [3], [2]], [3, 3]⟩) := by
  decide +kernel

/-- Two columns, all functions, 2 bins and the bin in progress. -/
example :
    let g : Group := ⟨[0, 1], [0, 1, 2, 3, 4], [(.sum, [0, 1], [0, 1]), (.min, [1], [2]), (.first, [0], [3]), (.last, [1], [4])], 5⟩
    jcsaggMem memOps false g ⟨[[1, 10], [2, 30], [4, 20]], [100, 100, 5, 7, 7]⟩ [1, 3] [] false true =
      ([some [101, 110, 5, 7, 10], some [6, 50, 20, 2, 20]], [], ⟨[[1, 10], [2, 30], [4, 20]], [6, 50, 20, 2, 20]⟩) := by
  decide +kernel

end Oups.Agg
