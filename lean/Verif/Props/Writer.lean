import Verif.Proofs.WriterDisk
import Verif.Proofs.WriterSafe
import Verif.Proofs.WriterRows
/-! Properties C12 to C20, C23 and C24: writing parquet datasets. -/
set_option linter.unusedSimpArgs false
namespace Oups.Writer
variable {R : Type}

/-- Rows of the examples: value in column 0 (the ordering column), value in column 1. -/
def exT : Table (Int × Int) := ⟨[0, 1], fun c r => if c = 0 then r.1 else r.2⟩

/-- Row groups of the examples, from the values of column 0. -/
def exRgs (ls : List (List Int)) : List (RG (Int × Int)) :=
  ls.zipIdx.map fun p => ⟨p.2, p.1.map fun v => (v, 0)⟩

def exRows (l : List Int) : List (Int × Int) := l.map fun v => (v, 1)

/-! ### C12 -/

/-- **C12** Without `ordered_on`, the frames handed to the parquet writer are the rows in order, in at most
⌈n / max⌉ pieces, none of them empty, none of them longer than `max_row_group_size`. -/
theorem C12_split {T : Table R} {data : List R} {isVaex : Bool} {m : Nat} (hm : 0 < m) (hd : data ≠ []) :
    ∃ chunks, iterDataframe T data isVaex (some m) none none = .ok chunks ∧
      chunks.flatten = data ∧ (∀ c ∈ chunks, c ≠ [] ∧ c.length ≤ m) ∧
      chunks.length ≤ (data.length + m - 1) / m := by
  refine ⟨_, iter_plain (m := some m) (by simp; omega), ?_⟩
  obtain ⟨h1, h2, h3⟩ := plain_slices data m hm hd
  refine ⟨h1, h2, le_trans h3 (le_of_eq ?_)⟩
  have hn : 0 < data.length := List.length_pos_iff.2 hd
  rw [show data.length + m - 1 = (data.length - 1) + m by omega, Nat.add_div_right _ hm]

example : ∃ chunks, iterDataframe exT (exRows [1, 2, 3, 4, 5]) true (some 2) none none = .ok chunks ∧
      chunks.flatten = exRows [1, 2, 3, 4, 5] ∧ (∀ c ∈ chunks, c ≠ [] ∧ c.length ≤ 2) ∧ chunks.length ≤ (5 + 2 - 1) / 2 :=
  C12_split (by decide) (by decide)

/-- **C12** An empty frame gives one empty piece. -/
theorem C12_split_empty {T : Table R} {isVaex : Bool} {m : Nat} :
    iterDataframe T ([] : List R) isVaex (some m) none none = .ok [[]] := by
  cases isVaex <;> rfl

example : ∃ chunks, iterDataframe exT (exRows [1, 2, 3, 4, 5, 6, 7]) false (some 3) none none = .ok chunks ∧
    chunks.map List.length = [3, 3, 1] := ⟨_, rfl, rfl⟩

/-! ### C13 -/

/-- **C13** With `ordered_on`, on ordered data, the pieces are the rows in order, none is empty, each is before the
next one without sharing a value with it, and the rows of a piece having not its first value number fewer than
`max_row_group_size`. -/
theorem C13_sharp_split {T : Table R} {data : List R} {m : Nat} {on : Col} (hm : 0 < m) (hd : data ≠ [])
    (hs : SortedOn (T.get on) data) :
    ∃ chunks, iterDataframe T data true (some m) (some on) none = .ok chunks ∧
      chunks.flatten = data ∧ (∀ c ∈ chunks, c ≠ []) ∧ Separated (T.get on) chunks ∧
      ∀ c ∈ chunks, ∀ x, c.head? = some x → (c.filter (fun r => T.get on r ≠ T.get on x)).length < m := by
  refine ⟨_, iter_sharp hd (by simp; omega) (by simp), ?_⟩
  have hid : ∀ ls : List (List R), ls.map (dedup T on none) = ls := fun ls => by
    rw [show dedup T on none = id from rfl, List.map_id]
  rw [hid]
  obtain ⟨h1, h2, h3⟩ := sharp_slices (T.get on) data m hd hs
  exact ⟨h1, h2, h3, sharp_size (T.get on) data m hm hd hs⟩

example : ∃ chunks, iterDataframe exT (exRows [1, 2, 2, 2, 2, 3, 4]) true (some 2) (some 0) none = .ok chunks ∧
    chunks.map (·.map Prod.fst) = [[1], [2, 2, 2, 2, 3], [4]] := ⟨_, rfl, rfl⟩

/-! ### C14 -/

/-- Any history of successful writes with parameters satisfying `ok`: frames written, resulting dataset. -/
inductive Hist (T : Table R) (ok : Params → Prop) : List (List R) → List (RG R) → Prop
  | nil : Hist T ok [] []
  | snoc {frames rgs rgs' p data} : Hist T ok frames rgs → ok p → write T p rgs data = .ok rgs' →
      Hist T ok (frames ++ [data]) rgs'

/-- **C14** Without `ordered_on`, whatever the other parameters of each call, a dataset is the concatenation of
the frames written. -/
theorem C14_append {T : Table R} {frames : List (List R)} {rgs : List (RG R)}
    (h : Hist T (fun p => p.orderedOn = none) frames rgs) : readRows rgs = frames.flatten := by
  induction h with
  | nil => rfl
  | snoc _ hp hw ih => rw [write_plain hp hw, ih]; simp

/-- **C14** Such a write always succeeds without `max_nirgs` nor `duplicates_on`. -/
theorem C14_append_succeeds {T : Table R} {p : Params} {rgs : List (RG R)} {data : List R}
    (ho : p.orderedOn = none) (hd : p.dupOn = none) (hn : p.maxNirgs = none) (hm : p.maxRg ≠ some 0) :
    ∃ rgs', write T p rgs data = .ok rgs' := by
  simp only [write, ho, checkOrderedOn, bind, Except.bind, hd, hn, overlapWindow, iter_plain hm, pure,
    Except.pure]
  split <;> exact ⟨_, rfl⟩

/-- A history with splitting and coalescing. -/
example : ∃ rgs, Hist exT (fun p => p.orderedOn = none) [exRows [1, 2], exRows [3], exRows [4]] rgs ∧
    rgs.map (·.rows.map Prod.fst) = [[1, 2, 3, 4]] := by
  refine ⟨[⟨0, exRows [1, 2, 3, 4]⟩], ?_, rfl⟩
  have h1 : Hist exT (fun p => p.orderedOn = none) [exRows [1, 2]] [⟨0, exRows [1]⟩, ⟨1, exRows [2]⟩] :=
    .snoc (p := { maxRg := some 1 }) .nil rfl rfl
  have h2 : Hist exT (fun p => p.orderedOn = none) [exRows [1, 2], exRows [3]]
      [⟨0, exRows [1]⟩, ⟨1, exRows [2]⟩, ⟨2, exRows [3]⟩] :=
    .snoc (p := {}) h1 rfl rfl
  exact .snoc (p := { maxRg := some 10, maxNirgs := some 2 }) h2 rfl rfl

/-- **C14** `max_nirgs` without `max_row_group_size` cannot be used on an existing dataset, although
`max_row_group_size` has a default value. -/
theorem C14_max_nirgs_alone_fails {T : Table R} {p : Params} {rgs : List (RG R)} {data : List R} {k : Nat}
    (hne : rgs ≠ []) (hn : p.maxNirgs = some k) (hm : p.maxRg = none) :
    ∃ e, write T p rgs data = .error e := by
  cases hw : write T p rgs data with
  | error e => exact ⟨e, rfl⟩
  | ok rgs' =>
    exfalso
    obtain ⟨on, _, hcase⟩ := write_cases hw
    rcases hcase with ⟨rfl, _⟩ | ⟨_, _, w, _, ⟨_, h, _⟩ | ⟨s, _, h⟩⟩
    · exact hne rfl
    · rcases h with h | ⟨m, _, h, _⟩
      · rw [hn] at h; cases h
      · rw [hm] at h; cases h
    · rcases h with ⟨h, _⟩ | ⟨m, _, h, _⟩
      · rw [hn] at h; cases h
      · rw [hm] at h; cases h

example : write exT { maxNirgs := some 2 } (exRgs [[1]]) (exRows [2]) = .error .typeError := rfl

/-- **C14** When coalescing is decided while the last row group is complete, the write is rejected: a frame of
`max_row_group_size` rows cannot be appended to a dataset ending with a complete row group. -/
theorem C14_coalesce_complete_fails {T : Table R} {p : Params} {A : List (RG R)} {g : RG R} {data : List R} {m k : Nat}
    (ho : p.orderedOn = none) (hd : p.dupOn = none) (hn : p.maxNirgs = some k) (hm : p.maxRg = some m)
    (hg : m * 9 / 10 < g.rows.length) (hlen : m ≤ data.length ∨ k = 0) :
    write T p (A ++ [g]) data = .error .noFiles := by
  have htr : trailing (m * 9 / 10) (A ++ [g]) = [] := by
    rw [trailing, List.reverse_append]
    simp only [List.reverse_cons, List.reverse_nil, List.nil_append, List.cons_append]
    rw [List.takeWhile_cons_of_neg]
    simpa using hg
  have hco : coalesce m k (A ++ [g]) data.length none none = some (A ++ [g]).length := by
    simp only [coalesce, htr, List.map_nil, List.sum_nil, List.length_nil, Nat.add_zero, Nat.sub_zero, Nat.sub_self]
    rw [if_pos]
    rcases hlen with h | h <;> simp [h]
  have hemp : (A ++ [g]).isEmpty = false := by simp
  simp only [write, ho, checkOrderedOn, bind, Except.bind, hemp, Bool.false_eq_true, if_false, hd, Option.isSome_none,
    Bool.false_and, pure, Except.pure, overlapWindow, hn, hm, hco, writeUpdate, Option.getD_none, List.take_length,
    List.drop_length, List.isEmpty_nil, if_true, throw, throwThe, MonadExceptOf.throw]

example : write exT { maxRg := some 2, maxNirgs := some 3 } (exRgs [[1, 2]]) (exRows [3, 4]) = .error .noFiles := rfl

/-! ### C15 -/

/-- **C15** After any history of ordered writes of ascending frames (each overlapping recorded row groups or after all of
them; in the latter case without ties, or of at most `max_row_group_size` rows; coalescing used safely), the rows are read in ascending order; moreover row groups
are not empty and no value of the ordering column is shared by two of them. -/
theorem C15_ordered {T : Table R} {on : Col} {dup : Option DupOn} {frames : List (List R)} {rgs : List (RG R)}
    (h : OrdHist T on dup frames rgs) :
    SortedOn (T.get on) (readRows rgs) ∧ (∀ g ∈ rgs, g.rows ≠ []) ∧ Separated (T.get on) (rgs.map RG.rows) := by
  obtain ⟨h1, _⟩ := h.inv
  exact ⟨h1.sorted, fun g hg => (h1.1 g.rows (List.mem_map.2 ⟨g, hg, rfl⟩)).1, h1.2⟩

/-- **C15** One step, from any ordered dataset. -/
theorem C15_ordered_step {T : Table R} {p : Params} {on : Col} {rgs rgs' : List (RG R)} {data : List R}
    (hp : p.orderedOn = some (.col on)) (hl : OrderedLayout (T.get on) (rgs.map RG.rows)) (hne : data ≠ [])
    (hs : TiesKept (T.get on) p.maxRg (rgs.map RG.rows) data) (hi : IdsDistinct T on p.dupOn (rgs.map RG.rows) data)
    (hg : NoGap (T.get on) (rgs.map RG.rows) data)
    (hc : CoalescingSafe (T.get on) p.maxRg p.maxNirgs (rgs.map RG.rows) data)
    (h : write T p rgs data = .ok rgs') : OrderedLayout (T.get on) (rgs'.map RG.rows) :=
  (write_ordered hp hl hne hs hi hg hc h).2.layout

/-- Rows 2 and 3 written where there are row groups of 1 and 2, 5 and 6. -/
example : ∃ rgs', write exT { orderedOn := some (.col 0) } (exRgs [[1, 2], [5, 6]]) (exRows [2, 3]) = .ok rgs' ∧
    OrderedLayout (exT.get 0) (rgs'.map RG.rows) :=
  ⟨_, rfl, C15_ordered_step (T := exT) (p := { orderedOn := some (.col 0) }) (rgs := exRgs [[1, 2], [5, 6]])
    (data := exRows [2, 3]) rfl ⟨by decide, by decide⟩ (by decide) (StrictOn.tied (by decide))
    (fun _ _ h => by cases h) (Or.inr ⟨[(1, 0), (2, 0)], by decide, by decide, by decide⟩) (Or.inl rfl) rfl⟩

/-- A history with an insertion in the middle. -/
theorem ex_ordHist : OrdHist exT 0 (some (.one 0)) [exRows [1, 2, 5, 6, 8, 9], exRows [2, 3, 6]]
    [⟨0, exRows [1]⟩, ⟨1, exRows [2, 3]⟩, ⟨2, exRows [5]⟩, ⟨3, exRows [6]⟩, ⟨4, exRows [8, 9]⟩] := by
  have h1 : OrdHist exT 0 (some (.one 0)) [exRows [1, 2, 5, 6, 8, 9]]
      [⟨0, exRows [1, 2]⟩, ⟨1, exRows [5, 6]⟩, ⟨2, exRows [8, 9]⟩] := by
    refine .snoc (p := { maxRg := some 2, orderedOn := some (.col 0), dupOn := some (.one 0) }) .nil rfl rfl
      (by simp [exRows]) (StrictOn.tied ?_) (strict_ids (by decide) ?_) (Or.inl (by simp [rowsOf])) (Or.inl rfl) rfl <;>
    simp [StrictOn, exRows, exT]
  refine .snoc (p := { maxRg := some 2, orderedOn := some (.col 0), dupOn := some (.one 0) }) h1 rfl rfl
    (by simp [exRows]) (StrictOn.tied (by simp [StrictOn, exRows, exT])) (strict_ids (by decide) (by simp [StrictOn, exRows, exT]))
    (Or.inr ?_) (Or.inl rfl) rfl
  exact ⟨exRows [1, 2], by simp [rowsOf], ⟨(2, 1), by simp [exRows], (2, 1), rfl, by simp⟩,
    ⟨(2, 1), by simp [exRows], (6, 1), rfl, by simp [exT]⟩⟩

example := C15_ordered ex_ordHist

/-- **C15** fails for a frame falling between two row groups: the rows are appended at the end. -/
theorem C15_gap_fails : ∃ rgs', write exT { orderedOn := some (.col 0) } (exRgs [[1, 2], [10, 11]]) (exRows [5, 6]) = .ok rgs' ∧
    OrderedLayout (exT.get 0) ((exRgs [[1, 2], [10, 11]]).map RG.rows) ∧
    (readRows rgs').map Prod.fst = [1, 2, 10, 11, 5, 6] :=
  ⟨_, rfl, ⟨by decide, by decide⟩, rfl⟩

/-- **C15** fails for a frame before all row groups. -/
theorem C15_before_all_fails : ∃ rgs', write exT { orderedOn := some (.col 0) } (exRgs [[10, 11]]) (exRows [5, 6]) = .ok rgs' ∧
    (readRows rgs').map Prod.fst = [10, 11, 5, 6] := ⟨_, rfl, rfl⟩

/-- **C15** fails with `max_nirgs` when new rows overlap the first row group only: index 0 is taken for 'no overlap'. -/
theorem C15_first_row_group_fails :
    ∃ rgs', write exT { maxRg := some 2, maxNirgs := some 1, orderedOn := some (.col 0) }
      (exRgs [[1, 2], [3, 4], [5]]) (exRows [1]) = .ok rgs' ∧
    OrderedLayout (exT.get 0) ((exRgs [[1, 2], [3, 4], [5]]).map RG.rows) ∧
    NoGap (exT.get 0) ((exRgs [[1, 2], [3, 4], [5]]).map RG.rows) (exRows [1]) ∧
    (readRows rgs').map Prod.fst = [1, 2, 3, 4, 1, 5] := by
  refine ⟨_, rfl, ⟨by decide, by decide⟩, Or.inr ?_, rfl⟩
  exact ⟨[(1, 0), (2, 0)], by simp [exRgs], ⟨(1, 0), by simp, (1, 1), rfl, by simp [exT]⟩,
    ⟨(1, 0), by simp, (1, 1), rfl, by simp [exT]⟩⟩

/-- **C15** fails when a value sits on both sides of a row group boundary (possible when frames with ties are
appended): row groups are re-ordered on their maximum only. -/
theorem C15_ties_fails : ∃ rgs', write exT { maxRg := some 2, orderedOn := some (.col 0) }
      (exRgs [[1, 2], [3, 7], [7, 7]]) (exRows [2, 3]) = .ok rgs' ∧
    SortedOn (exT.get 0) (readRows (exRgs [[1, 2], [3, 7], [7, 7]])) ∧
    (readRows rgs').map Prod.fst = [1, 2, 2, 7, 7, 3, 3, 7] :=
  ⟨_, rfl, by decide, rfl⟩

/-- **C15** Such a layout comes from ordered writes themselves: an ascending frame with ties, of more rows than
`max_row_group_size`, is cut in the middle of a tie when the dataset is created. -/
theorem C15_ties_history_fails : ∃ rgs rgs', write exT { maxRg := some 2, orderedOn := some (.col 0) } []
      [(1, 0), (2, 0), (3, 0), (7, 0), (7, 1), (7, 2)] = .ok rgs ∧
    rgs.map RG.rows = [[(1, 0), (2, 0)], [(3, 0), (7, 0)], [(7, 1), (7, 2)]] ∧
    NoGap (exT.get 0) (rgs.map RG.rows) (exRows [2, 3]) ∧
    write exT { maxRg := some 2, orderedOn := some (.col 0) } rgs (exRows [2, 3]) = .ok rgs' ∧
    (readRows rgs').map Prod.fst = [1, 2, 2, 7, 7, 3, 3, 7] :=
  ⟨_, _, rfl, rfl, Or.inr ⟨[(1, 0), (2, 0)], by decide, ⟨(2, 0), by decide, (2, 1), rfl, by decide⟩,
    ⟨(2, 0), by decide, (3, 1), rfl, by decide⟩⟩, rfl, rfl⟩

/-! ### C16 -/

/-- **C16** Without `duplicates_on`, every successful write, on any dataset ordered or not, with any parameters,
leaves exactly the old and the new rows, as a multiset. -/
theorem C16_perm {T : Table R} {p : Params} {rgs rgs' : List (RG R)} {data : List R}
    (hd : p.dupOn = none) (h : write T p rgs data = .ok rgs') :
    (readRows rgs').Perm (readRows rgs ++ data) := write_perm hd h

example := C16_perm (T := exT) (p := { orderedOn := some (.col 0) }) (rgs := exRgs [[5, 1], [3]]) (data := exRows [4, 2]) rfl rfl

/-- **C16** Same, over a history. -/
theorem C16_perm_history {T : Table R} {frames : List (List R)} {rgs : List (RG R)}
    (h : Hist T (fun p => p.dupOn = none) frames rgs) : (readRows rgs).Perm frames.flatten := by
  induction h with
  | nil => exact List.Perm.refl _
  | snoc _ hp hw ih =>
    refine (write_perm hp hw).trans ?_
    rw [List.flatten_append]
    simpa using List.Perm.append_right _ ih

example := C16_perm_history (T := exT) (frames := [exRows [3, 1], exRows [2]])
  (rgs := [⟨0, exRows [1, 2, 3]⟩]) <| .snoc (frames := [exRows [3, 1]]) (p := { orderedOn := some (.col 0) })
    (.snoc (frames := []) (p := {}) (rgs' := [⟨0, exRows [3, 1]⟩]) .nil (by rfl) rfl) (by rfl) rfl

/-- **C16** With `duplicates_on` or not, nothing is invented: every row found after a write, on any dataset, with any
parameters, was there or is in the frame. -/
theorem C16_no_invention {T : Table R} {p : Params} {rgs rgs' : List (RG R)} {data : List R}
    (h : write T p rgs data = .ok rgs') {x : R} (hx : x ∈ readRows rgs') : x ∈ readRows rgs ∨ x ∈ data := write_mem h hx

example := C16_no_invention (T := exT) (p := { orderedOn := some (.col 0), dupOn := some (.one 0) }) (rgs := exRgs [[1, 3]])
  (data := exRows [2, 3]) rfl (x := (3, 1)) (by decide)

/-- **C16** For ordered writes, the dataset is the ordered merge of the frames: ascending and, for each value, the rows in
the order in which they were written. -/
theorem C16_merge_history {T : Table R} {on : Col} {frames : List (List R)} {rgs : List (RG R)}
    (h : OrdHist T on none frames rgs) : IsMerge (T.get on) [] frames.flatten (readRows rgs) := by
  rw [h.merge]
  simpa using isMerge_sort (T.get on) [] frames.flatten

example := C16_merge_history (T := exT) (on := 0) (frames := [[] ++ exRows [1, 3]] ++ [exRows [2, 3]]) <|
  .snoc (p := { orderedOn := some (.col 0) }) (.snoc (frames := []) (p := { orderedOn := some (.col 0) }) .nil rfl rfl (by decide)
    (StrictOn.tied (by decide)) (fun _ _ h => by cases h) (Or.inl (by decide)) (Or.inl rfl) rfl) rfl rfl (by decide)
    (StrictOn.tied (by decide)) (fun _ _ h => by cases h) (Or.inr ⟨exRows [1, 3], by decide, by decide, by decide⟩) (Or.inl rfl) rfl

/-- **C16** One step. -/
theorem C16_merge_step {T : Table R} {p : Params} {on : Col} {rgs rgs' : List (RG R)} {data : List R}
    (hp : p.orderedOn = some (.col on)) (hd : p.dupOn = none)
    (hl : OrderedLayout (T.get on) (rgs.map RG.rows)) (hne : data ≠ [])
    (hs : TiesKept (T.get on) p.maxRg (rgs.map RG.rows) data) (hg : NoGap (T.get on) (rgs.map RG.rows) data)
    (hc : CoalescingSafe (T.get on) p.maxRg p.maxNirgs (rgs.map RG.rows) data)
    (h : write T p rgs data = .ok rgs') : IsMerge (T.get on) (readRows rgs) data (readRows rgs') := by
  obtain ⟨hon, hm⟩ := write_ordered hp hl hne hs (by intro _ d hx; rw [hd] at hx; cases hx) hg hc h
  rw [hd] at hm
  rw [Merged.canonical (before := readRows rgs) (dup := none) hon hl.sorted trivial hm]
  exact isMerge_sort _ _ _

example : ∃ rgs', write exT { maxRg := some 2, orderedOn := some (.col 0) }
      (exRgs [[1, 2], [4, 5], [7, 8]]) (exRows [2, 3]) = .ok rgs' ∧
    rgs'.map (·.rows) = [[(1, 0)], [(2, 0), (2, 1), (3, 1)], [(4, 0), (5, 0)], [(7, 0), (8, 0)]] := ⟨_, rfl, rfl⟩

/-! ### C17 -/

/-- **C17** One step: on an ordered dataset without duplicates, the write is an update: rows are identified by
`duplicates_on` (with the ordering column), new rows replace old ones, other old rows are kept. -/
theorem C17_upsert_step {T : Table R} {p : Params} {on : Col} {d : DupOn} {rgs rgs' : List (RG R)} {data : List R}
    (hp : p.orderedOn = some (.col on)) (hd : p.dupOn = some d)
    (hl : OrderedLayout (T.get on) (rgs.map RG.rows)) (hne : data ≠ [])
    (hs : TiesKept (T.get on) p.maxRg (rgs.map RG.rows) data) (hg : NoGap (T.get on) (rgs.map RG.rows) data)
    (hc : CoalescingSafe (T.get on) p.maxRg p.maxNirgs (rgs.map RG.rows) data)
    (hk' : (data.map (T.key (dupCols T.cols on d))).Nodup)
    (hk : ((readRows rgs).map (T.key (dupCols T.cols on d))).Nodup)
    (h : write T p rgs data = .ok rgs') :
    IsUpsert (T.get on) (T.key (dupCols T.cols on d)) (readRows rgs) data (readRows rgs') := by
  obtain ⟨hon, hm⟩ := write_ordered hp hl hne hs (by intro _ d' hx; rw [hd] at hx; cases hx; exact hk') hg hc h
  rw [hd] at hm
  rw [Merged.canonical (before := readRows rgs) (dup := some d) hon hl.sorted hk hm]
  exact isUpsert_dedup _ _ (fun x y => dupCols_sep hon) hk hk'

example : ∃ rgs', write exT { orderedOn := some (.col 0), dupOn := some (.one 0) } (exRgs [[1, 2], [5, 6]]) (exRows [2, 3]) = .ok rgs' ∧
    IsUpsert (exT.get 0) (exT.key [0]) [(1, 0), (2, 0), (5, 0), (6, 0)] [(2, 1), (3, 1)] (readRows rgs') :=
  ⟨_, rfl, C17_upsert_step (T := exT) (p := { orderedOn := some (.col 0), dupOn := some (.one 0) }) (d := .one 0)
    (rgs := exRgs [[1, 2], [5, 6]]) (data := exRows [2, 3]) rfl rfl ⟨by decide, by decide⟩ (by decide) (StrictOn.tied (by decide))
    (Or.inr ⟨[(1, 0), (2, 0)], by decide, by decide, by decide⟩) (Or.inl rfl) (by decide) (by decide) rfl⟩

/-- **C17** Last write wins over any history: for each identifier there is one row, the last one written (none
if no row was written), and rows are ascending. -/
theorem C17_last_write_wins {T : Table R} {on : Col} {d : DupOn} {frames : List (List R)} {rgs : List (RG R)}
    (h : OrdHist T on (some d) frames rgs) :
    SortedOn (T.get on) (readRows rgs) ∧
    ∀ u, (readRows rgs).filter (fun r => T.key (dupCols T.cols on d) r = u) =
      (frames.flatten.filter (fun r => T.key (dupCols T.cols on d) r = u)).getLast?.toList :=
  ⟨h.inv.1.sorted, h.upsert⟩

/-- **C17** With `duplicates_on` the ordering column itself, the dataset is the dictionary obtained by applying
the frames in turn. -/
theorem C17_dictionary {T : Table R} {on : Col} {frames : List (List R)} {rgs : List (RG R)}
    (h : OrdHist T on (some (.one on)) frames rgs) :
    StrictOn (T.get on) (readRows rgs) ∧
    ∀ v, (readRows rgs).find? (fun r => T.get on r = v) =
      (frames.flatten.filter (fun r => T.get on r = v)).getLast? := by
  have hkey : ∀ r v, T.key (dupCols T.cols on (.one on)) r = [v] ↔ T.get on r = v := by
    intro r v; simp [dupCols, Table.key]
  have hu : ∀ v, (readRows rgs).filter (fun r => T.get on r = v) =
      (frames.flatten.filter (fun r => T.get on r = v)).getLast?.toList := by
    intro v
    have := h.upsert [v]
    simpa only [hkey] using this
  refine ⟨?_, fun v => ?_⟩
  · have hs := h.inv.1.sorted
    have hn : ((readRows rgs).map (T.key (dupCols T.cols on (.one on)))).Nodup := h.inv.2.1
    rw [List.nodup_iff_pairwise_ne, List.pairwise_map] at hn
    refine List.Pairwise.imp ?_ (List.Pairwise.and hs hn)
    rintro a b ⟨h1, h2⟩
    rcases lt_or_eq_of_le h1 with h | h
    · exact h
    · exact absurd ((hkey a _).2 h |>.trans ((hkey b _).2 rfl).symm) h2
  · rw [← List.head?_filter, hu v]
    cases (frames.flatten.filter (fun r => decide (T.get on r = v))).getLast? <;> rfl

example := C17_dictionary ex_ordHist

/-- **C17** The writes of such a history always succeed without `max_nirgs`. -/
theorem C17_succeeds {T : Table R} {p : Params} {rgs : List (RG R)} {data : List R} {on : Col}
    (hp : p.orderedOn = some (.col on)) (hon : on ∈ T.cols) (hne : data ≠ []) (hm : p.maxRg ≠ some 0)
    (hn : p.maxNirgs = none) (hk : DupKnown T p.dupOn) : ∃ rgs', write T p rgs data = .ok rgs' :=
  write_succeeds hp hon hne hm hn hk

example : (readRows [⟨0, exRows [1]⟩, ⟨1, exRows [2, 3]⟩, ⟨2, exRows [5]⟩, ⟨3, exRows [6]⟩, ⟨4, exRows [8, 9]⟩]).filter
    (fun r => exT.key (dupCols exT.cols 0 (.one 0)) r = [3]) = [(3, 1)] :=
  (C17_last_write_wins ex_ordHist).2 [3]

/-- **C17** On any dataset, ordered or not, with any frame: for each identifier of the frame, its last row in the frame is
recorded. -/
theorem C17_newest_recorded {T : Table R} {p : Params} {on : Col} {d : DupOn} {rgs rgs' : List (RG R)} {data : List R}
    (hp : p.orderedOn = some (.col on)) (hd : p.dupOn = some d) (h : write T p rgs data = .ok rgs') {x : R}
    (hx : (data.filter fun r => T.key (dupCols T.cols on d) r = T.key (dupCols T.cols on d) x).getLast? = some x) :
    x ∈ readRows rgs' := by
  obtain ⟨o, ho, _⟩ := write_cases h
  have hon : on ∈ T.cols := by
    rw [hp] at ho
    simp only [checkOrderedOn] at ho
    split at ho
    · assumption
    · simp at ho
  have hxd : x ∈ data := List.mem_of_mem_filter (List.mem_of_getLast? hx)
  rcases write_parts hd hp h with hr | ⟨a, w, b, _, hperm⟩
  · rw [hr]; exact List.mem_append_right _ hxd
  · rw [hperm.mem_iff]
    refine List.mem_append_right _ (last_kept _ _ (fun _ _ => dupCols_sep hon) ?_)
    rw [List.filter_append, List.getLast?_append, hx]
    rfl

example := C17_newest_recorded (T := exT) (p := { orderedOn := some (.col 0), dupOn := some (.one 0) }) (d := .one 0)
  (rgs := exRgs [[5, 1], [9], [4]]) (data := [(4, 7), (5, 7), (4, 8)]) rfl rfl rfl (x := (4, 8)) (by decide)

/-- **C17** On any dataset, with any frame, a row is removed for a row with the same identifier only. -/
theorem C17_identifier_kept {T : Table R} {p : Params} {on : Col} {d : DupOn} {rgs rgs' : List (RG R)} {data : List R}
    (hp : p.orderedOn = some (.col on)) (hd : p.dupOn = some d) (h : write T p rgs data = .ok rgs') {x : R}
    (hx : x ∈ readRows rgs ∨ x ∈ data) :
    ∃ y ∈ readRows rgs', T.key (dupCols T.cols on d) y = T.key (dupCols T.cols on d) x := by
  obtain ⟨o, ho, _⟩ := write_cases h
  have hon : on ∈ T.cols := by
    rw [hp] at ho
    simp only [checkOrderedOn] at ho
    split at ho
    · assumption
    · simp at ho
  rcases write_parts hd hp h with hr | ⟨a, w, b, hr, hperm⟩
  · exact ⟨x, by rw [hr]; exact List.mem_append.2 hx, rfl⟩
  · by_cases hab : x ∈ a ++ b
    · exact ⟨x, by rw [hperm.mem_iff]; exact List.mem_append_left _ hab, rfl⟩
    · have hwd : x ∈ w ++ data := by
        rw [hr] at hx
        simp only [List.mem_append] at hx hab ⊢
        tauto
      have hne : (w ++ data).filter (fun r => T.key (dupCols T.cols on d) r = T.key (dupCols T.cols on d) x) ≠ [] := by
        intro hn
        have := List.filter_eq_nil_iff.1 hn x hwd
        simp at this
      have hy := List.getLast?_eq_getLast_of_ne_nil hne
      have hmem := List.getLast_mem hne
      generalize List.getLast _ hne = y at hy hmem
      have hk := (List.mem_filter.1 hmem).2
      simp only [decide_eq_true_eq] at hk
      refine ⟨y, ?_, hk⟩
      rw [hperm.mem_iff]
      refine List.mem_append_right _ (last_kept _ _ (fun _ _ => dupCols_sep hon) ?_)
      rw [hk]
      exact hy

/-- On a dataset which is not ordered: the last row of the frame for each value is there, and no value is lost. -/
example : ∃ rgs', write exT { orderedOn := some (.col 0), dupOn := some (.one 0) } (exRgs [[5, 1], [9], [4]])
      [(4, 7), (5, 7), (4, 8)] = .ok rgs' ∧ readRows rgs' = [(1, 0), (4, 8), (5, 7), (9, 0)] := ⟨_, rfl, rfl⟩

/-- **C17** Which rows are duplicates of one another. With the name of a column: the rows equal in this column and in
`ordered_on`. -/
theorem C17_duplicates_one {T : Table R} {on c : Col} {r r' : R} :
    T.key (dupCols T.cols on (.one c)) r = T.key (dupCols T.cols on (.one c)) r' ↔
      T.get c r = T.get c r' ∧ T.get on r = T.get on r' := by
  by_cases h : c = on
  · subst h; simp [dupCols, Table.key]
  · simp [dupCols, Table.key, h]

/-- **C17** With a non-empty list: the rows equal in the columns of the list and in `ordered_on`. -/
theorem C17_duplicates_many {T : Table R} {on : Col} {cs : List Col} {r r' : R} (hcs : cs ≠ []) :
    T.key (dupCols T.cols on (.many cs)) r = T.key (dupCols T.cols on (.many cs)) r' ↔
      (∀ c ∈ cs, T.get c r = T.get c r') ∧ T.get on r = T.get on r' := by
  cases cs with
  | nil => exact absurd rfl hcs
  | cons c cs =>
    simp only [dupCols, Table.key]
    split
    · rename_i h
      rw [List.map_inj_left]
      exact ⟨fun hh => ⟨hh, hh on h⟩, fun hh => hh.1⟩
    · rw [List.map_inj_left]
      constructor
      · intro hh
        exact ⟨fun x hx => hh x (List.mem_append_left _ hx), hh on (List.mem_append_right _ (by simp))⟩
      · rintro ⟨h1, h2⟩ x hx
        rcases List.mem_append.1 hx with hx | hx
        · exact h1 x hx
        · rw [List.mem_singleton] at hx; rw [hx]; exact h2

example := C17_duplicates_many (T := exT) (on := 0) (cs := [1]) (r := (1, 5)) (r' := (2, 5)) (by decide)

/-- **C17** With an empty list: the rows equal in all columns. -/
theorem C17_duplicates_all {T : Table R} {on : Col} {r r' : R} :
    T.key (dupCols T.cols on (.many [])) r = T.key (dupCols T.cols on (.many [])) r' ↔
      ∀ c ∈ T.cols, T.get c r = T.get c r' := by
  simp only [dupCols, Table.key, List.map_inj_left]

/-- Two rows with the same value in the ordering column, the second in both frames: all columns are compared. -/
example : ∃ rgs', write exT { orderedOn := some (.col 0), dupOn := some (.many []) } [⟨0, [(1, 0), (2, 5)]⟩]
      [(2, 5), (2, 6)] = .ok rgs' ∧ readRows rgs' = [(1, 0), (2, 5), (2, 6)] := ⟨_, rfl, rfl⟩

/-- The same with the ordering column only: the last row is kept. -/
example : ∃ rgs', write exT { orderedOn := some (.col 0), dupOn := some (.many [0]) } [⟨0, [(1, 0), (2, 5)]⟩]
      [(2, 5), (2, 6)] = .ok rgs' ∧ readRows rgs' = [(1, 0), (2, 6)] := ⟨_, rfl, rfl⟩

/-- **C17** Duplicates are kept when the dataset is created... -/
theorem C17_creation_keeps_duplicates_fails :
    ∃ rgs', write exT { orderedOn := some (.col 0), dupOn := some (.one 0) } [] [(1, 0), (1, 1)] = .ok rgs' ∧
      readRows rgs' = [(1, 0), (1, 1)] := ⟨_, rfl, rfl⟩

/-- **C17** ... and when rows are appended. -/
theorem C17_append_keeps_duplicates_fails :
    ∃ rgs', write exT { orderedOn := some (.col 0), dupOn := some (.one 0) } (exRgs [[1]]) [(2, 0), (2, 1)] = .ok rgs' ∧
      readRows rgs' = [(1, 0), (2, 0), (2, 1)] := ⟨_, rfl, rfl⟩

/-- **C17** A list given as `duplicates_on` can be used again, as `write` leaves it, for other writes with the same
`ordered_on`: nothing changes. -/
theorem C17_list_reused {T : Table R} {p : Params} {rgs rgs₂ : List (RG R)} {data : List R} :
    write T { p with dupOn := listAfter p rgs } rgs₂ data = write T p rgs₂ data := by
  obtain ⟨maxRg, orderedOn, dupOn, maxNirgs⟩ := p
  match dupOn, orderedOn with
  | none, _ => rfl
  | some (.one c), _ => rfl
  | some (.many []), _ => rfl
  | some (.many (c :: cs)), none => rfl
  | some (.many (c :: cs)), some .tuple => rfl
  | some (.many (c :: cs)), some (.col on) =>
    simp only [listAfter]
    split
    · rfl
    split
    · rfl
    rename_i hin
    have h1 : dupCols T.cols on (.many (c :: cs ++ [on])) = c :: cs ++ [on] := by simp [dupCols]
    have h2 : dupCols T.cols on (.many (c :: cs)) = c :: cs ++ [on] := by simp only [dupCols, hin, if_false]
    have hup : ∀ s stop, writeUpdate T ⟨maxRg, some (.col on), some (.many (c :: cs ++ [on])), maxNirgs⟩ rgs₂ data
        (some on) s stop = writeUpdate T ⟨maxRg, some (.col on), some (.many (c :: cs)), maxNirgs⟩ rgs₂ data (some on)
          s stop := by
      intro s stop
      simp only [writeUpdate, iterDataframe, h1, h2, Option.isSome_some]
    simp only [write, checkOrderedOn]
    by_cases hon : on ∈ T.cols
    · simp only [hon, if_true, bind, Except.bind, hup, Option.isSome_some]
    · simp only [hon, if_false, bind, Except.bind]

/-- The list is changed in place... -/
example : listAfter { orderedOn := some (.col 0), dupOn := some (.many [1]) } (exRgs [[1]]) = some (.many [1, 0]) := rfl

/-- Rows of three columns. -/
def exT3 : Table (Int × Int × Int) := ⟨[0, 1, 2], fun c r => if c = 0 then r.1 else if c = 1 then r.2.1 else r.2.2⟩

/-- A history with several rows at the same time, identified by a second column: the second frame has the same identifier
twice, and overlaps the first one. -/
example : ∃ rgs, OrdHist exT3 0 (some (.many [1])) [[(1, 1, 10), (1, 2, 20), (2, 1, 30)], [(1, 2, 21), (1, 3, 22), (1, 3, 23), (3, 1, 40)]] rgs ∧
    rgs.map RG.rows = [[(1, 1, 10), (1, 2, 21), (1, 3, 23), (2, 1, 30)], [(3, 1, 40)]] := by
  have h1 : OrdHist exT3 0 (some (.many [1])) [[(1, 1, 10), (1, 2, 20), (2, 1, 30)]] [⟨0, [(1, 1, 10), (1, 2, 20), (2, 1, 30)]⟩] := by
    refine .snoc (p := { maxRg := some 3, orderedOn := some (.col 0), dupOn := some (.many [1]) }) .nil rfl rfl (by simp)
      ⟨by decide, fun _ => Or.inr (by decide)⟩ ?_ (Or.inl (by simp [rowsOf])) (Or.inl rfl) rfl
    rintro - d hd
    cases hd
    decide
  refine ⟨_, .snoc (p := { maxRg := some 3, orderedOn := some (.col 0), dupOn := some (.many [1]) }) h1 rfl rfl (by simp)
    ⟨by decide, fun h => ?_⟩ (fun h => ?_) (Or.inr ?_) (Or.inl rfl) rfl, rfl⟩
  · exact absurd (h [(1, 1, 10), (1, 2, 20), (2, 1, 30)] (by simp [rowsOf]) (2, 1, 30) (by simp) (1, 2, 21) (by simp)) (by decide)
  · exact absurd (h [(1, 1, 10), (1, 2, 20), (2, 1, 30)] (by simp [rowsOf]) (2, 1, 30) (by simp) (1, 2, 21) (by simp)) (by decide)
  · exact ⟨[(1, 1, 10), (1, 2, 20), (2, 1, 30)], by simp [rowsOf], ⟨(2, 1, 30), by simp, (1, 2, 21), rfl, by decide⟩,
      ⟨(2, 1, 30), by simp, (3, 1, 40), rfl, by decide⟩⟩

/-- **C17** fails when the list is used again with another `ordered_on`: after a write ordered on column 0 at one key,
the list `[1]` has become `[1, 0]`; a write at another key, ordered on column 2, then keeps both rows instead of the
last one. -/
theorem C17_shared_list_fails :
    let p : Params := { orderedOn := some (.col 0), dupOn := some (.many [1]) }
    let q : Params := { orderedOn := some (.col 2), dupOn := listAfter p [⟨0, [((1, 1, 1) : Int × Int × Int)]⟩] }
    (∃ rgs', write exT3 { q with dupOn := some (.many [1]) } [⟨0, [(1, 1, 1)]⟩] [(2, 1, 1)] = .ok rgs' ∧
      readRows rgs' = [(2, 1, 1)]) ∧
    ∃ rgs', write exT3 q [⟨0, [(1, 1, 1)]⟩] [(2, 1, 1)] = .ok rgs' ∧ readRows rgs' = [(1, 1, 1), (2, 1, 1)] :=
  ⟨⟨_, rfl, rfl⟩, ⟨_, rfl, rfl⟩⟩

/-! ### C18 -/

/-- **C18** `max_nirgs` and `max_row_group_size` do not change the rows nor their order: two writes of the same
frame on the same ordered dataset, with different values of these parameters, give the same rows. -/
theorem C18_grouping_only {T : Table R} {p q : Params} {on : Col} {rgs rgs₁ rgs₂ : List (RG R)} {data : List R}
    (hp : p.orderedOn = some (.col on)) (hq : q.orderedOn = some (.col on)) (hd : p.dupOn = q.dupOn)
    (hl : OrderedLayout (T.get on) (rgs.map RG.rows)) (hne : data ≠ [])
    (hs : TiesKept (T.get on) p.maxRg (rgs.map RG.rows) data) (hs' : TiesKept (T.get on) q.maxRg (rgs.map RG.rows) data)
    (hi : IdsDistinct T on p.dupOn (rgs.map RG.rows) data) (hg : NoGap (T.get on) (rgs.map RG.rows) data)
    (hc : CoalescingSafe (T.get on) p.maxRg p.maxNirgs (rgs.map RG.rows) data)
    (hc' : CoalescingSafe (T.get on) q.maxRg q.maxNirgs (rgs.map RG.rows) data)
    (hk : ∀ d, p.dupOn = some d → ((readRows rgs).map (T.key (dupCols T.cols on d))).Nodup)
    (h₁ : write T p rgs data = .ok rgs₁) (h₂ : write T q rgs data = .ok rgs₂) :
    readRows rgs₁ = readRows rgs₂ := by
  obtain ⟨hon, hm⟩ := write_ordered hp hl hne hs hi hg hc h₁
  obtain ⟨_, hm'⟩ := write_ordered hq hl hne hs' (hd ▸ hi) hg hc' h₂
  have hk' : Keyed T on p.dupOn (readRows rgs) := by
    cases hx : p.dupOn with
    | none => trivial
    | some d => exact hk d hx
  rw [← hd] at hm'
  rw [hm.canonical (before := readRows rgs) hon hl.sorted hk', hm'.canonical (before := readRows rgs) hon hl.sorted hk']

/-- With and without `max_nirgs`. -/
example : ∃ r₁ r₂, write exT { maxRg := some 4, maxNirgs := some 1, orderedOn := some (.col 0) } (exRgs [[1, 2], [3]]) (exRows [4]) = .ok r₁ ∧
    write exT { orderedOn := some (.col 0) } (exRgs [[1, 2], [3]]) (exRows [4]) = .ok r₂ ∧ readRows r₁ = readRows r₂ :=
  ⟨_, _, rfl, rfl, C18_grouping_only (T := exT) (rgs := exRgs [[1, 2], [3]]) (p := { maxRg := some 4, maxNirgs := some 1, orderedOn := some (.col 0) })
    (q := { orderedOn := some (.col 0) }) (data := exRows [4]) rfl rfl rfl ⟨by decide, by decide⟩ (by decide)
    (StrictOn.tied (by decide)) (StrictOn.tied (by decide)) (fun _ _ h => by cases h) (Or.inl (by decide)) (Or.inr (Or.inl (by decide)))
    (Or.inl rfl) (fun _ h => by cases h) rfl rfl⟩

/-- **C18** Without `ordered_on`. -/
theorem C18_grouping_only_append {T : Table R} {p q : Params} {rgs rgs₁ rgs₂ : List (RG R)} {data : List R}
    (hp : p.orderedOn = none) (hq : q.orderedOn = none)
    (h₁ : write T p rgs data = .ok rgs₁) (h₂ : write T q rgs data = .ok rgs₂) :
    readRows rgs₁ = readRows rgs₂ := by
  rw [write_plain hp h₁, write_plain hq h₂]

example : ∃ r₁ r₂, write exT { maxRg := some 4, maxNirgs := some 1, orderedOn := some (.col 0) }
      (exRgs [[1, 2], [3]]) (exRows [4]) = .ok r₁ ∧
    write exT { orderedOn := some (.col 0) } (exRgs [[1, 2], [3]]) (exRows [4]) = .ok r₂ ∧
    r₁.map (·.rows.map Prod.fst) = [[1, 2, 3, 4]] ∧ r₂.map (·.rows.map Prod.fst) = [[1, 2], [3], [4]] :=
  ⟨_, _, rfl, rfl, rfl, rfl⟩

/-- **C18** fails when new rows overlap the first row group only: same frame, same dataset, with and without `max_nirgs`. -/
theorem C18_first_row_group_fails : ∃ r₁ r₂,
    write exT { maxRg := some 2, maxNirgs := some 1, orderedOn := some (.col 0) }
      (exRgs [[1, 2], [3, 4], [5]]) (exRows [1]) = .ok r₁ ∧
    write exT { maxRg := some 2, orderedOn := some (.col 0) } (exRgs [[1, 2], [3, 4], [5]]) (exRows [1]) = .ok r₂ ∧
    (readRows r₁).map Prod.fst = [1, 2, 3, 4, 1, 5] ∧ (readRows r₂).map Prod.fst = [1, 1, 2, 3, 4, 5] :=
  ⟨_, _, rfl, rfl, rfl, rfl⟩

/-! ### C19 -/

/-- **C19** After any sequence of writes, accepted or rejected, with any parameters, from an empty directory: the
dataset opened through its metadata file has the expected row groups, and the vaex view, built from any scan of
the directory, has the same rows in the same order as the pandas view. -/
theorem C19_views_agree {T : Table R} {d : Disk R} {rgs : List (RG R)} (h : DiskHist T d rgs) :
    (rgs ≠ [] → d.view = some rgs) ∧
    ∀ scan : List (RG R), scan.Nodup → (∀ g, g ∈ scan ↔ d.part g.id = some g.rows) → vdfRows scan = pdfRows rgs := by
  obtain ⟨h1, h2, h3⟩ := h.inv
  refine ⟨fun hne => (h3 hne).view, fun scan hn hs => ?_⟩
  have hnd : rgs.Nodup := List.Nodup.of_map _ h2.nodup
  have hp : scan.Perm rgs := (List.perm_ext_iff_of_nodup hn hnd).2 (fun g => (hs g).trans (h1 _ _))
  rw [vdfRows, vdf_sorted h2 hp, pdfRows]

/-- **C19** Part numbers strictly increase along the row groups. -/
theorem C19_part_numbers {T : Table R} {d : Disk R} {rgs : List (RG R)} (h : DiskHist T d rgs) :
    (rgs.map RG.id).Pairwise (· < ·) := h.inv.2.1

/-- The empty directory. -/
def noDisk : Disk R := ⟨fun _ => none, fun _ => none, none⟩

example : ∃ d, DiskHist exT d [⟨0, [(1, 0), (2, 0)]⟩, ⟨1, [(3, 1), (3, 0)]⟩] ∧
    d.view = some [⟨0, [(1, 0), (2, 0)]⟩, ⟨1, [(3, 1), (3, 0)]⟩] := by
  have h1 : DiskHist exT _ [⟨0, [(1, 0), (2, 0)]⟩, ⟨1, [(3, 1)]⟩] :=
    .write { maxRg := some 2 } [(1, 0), (2, 0), (3, 1)] (.empty (d := noDisk) (fun _ => rfl)) rfl
  have h2 : DiskHist exT _ [⟨0, [(1, 0), (2, 0)]⟩, ⟨1, [(3, 1), (3, 0)]⟩] :=
    .write { orderedOn := some (.col 0) } [(3, 0)] h1 rfl
  exact ⟨_, h2, (C19_views_agree h2).1 (by simp)⟩

/-! ### C20 -/

theorem min?_filterMap {T : Table R} {c : Col} {rgs : List (RG R)} (hne : ∀ g ∈ rgs, g.rows ≠ []) (h0 : rgs ≠ []) :
    ∃ x ∈ readRows rgs, (rgs.filterMap (rgMin T c)).min? = some (T.get c x) ∧
      ∀ y ∈ readRows rgs, T.get c x ≤ T.get c y := by
  have hmin : ∀ g ∈ rgs, ∃ x ∈ g.rows, rgMin T c g = some (T.get c x) ∧ ∀ y ∈ g.rows, T.get c x ≤ T.get c y :=
    fun g hg => rgMin_some (hne g hg)
  obtain ⟨g0, hg0⟩ := List.exists_mem_of_ne_nil _ h0
  obtain ⟨x0, _, hx0, _⟩ := hmin g0 hg0
  have hne' : rgs.filterMap (rgMin T c) ≠ [] := by
    intro e
    rw [List.filterMap_eq_nil_iff] at e
    rw [e g0 hg0] at hx0; cases hx0
  obtain ⟨m, hm⟩ : ∃ m, (rgs.filterMap (rgMin T c)).min? = some m := by
    cases hx : (rgs.filterMap (rgMin T c)).min? with
    | none => rw [List.min?_eq_none_iff] at hx; exact absurd hx hne'
    | some m => exact ⟨m, rfl⟩
  obtain ⟨hmem, hle⟩ := List.min?_eq_some_iff.1 hm
  obtain ⟨g, hg, hgm⟩ := List.mem_filterMap.1 hmem
  obtain ⟨x, hx, hxm, _⟩ := hmin g hg
  rw [hgm] at hxm
  cases hxm
  refine ⟨x, List.mem_flatten.2 ⟨g.rows, List.mem_map.2 ⟨g, hg, rfl⟩, hx⟩, hm, ?_⟩
  intro y hy
  obtain ⟨l, hl, hyl⟩ := List.mem_flatten.1 hy
  obtain ⟨g', hg', rfl⟩ := List.mem_map.1 hl
  obtain ⟨x', _, hx', hle'⟩ := hmin g' hg'
  exact le_trans (hle _ (List.mem_filterMap.2 ⟨g', hg', hx'⟩)) (hle' y hyl)

theorem max?_filterMap {T : Table R} {c : Col} {rgs : List (RG R)} (hne : ∀ g ∈ rgs, g.rows ≠ []) (h0 : rgs ≠ []) :
    ∃ x ∈ readRows rgs, (rgs.filterMap (rgMax T c)).max? = some (T.get c x) ∧
      ∀ y ∈ readRows rgs, T.get c y ≤ T.get c x := by
  have hmax : ∀ g ∈ rgs, ∃ x ∈ g.rows, rgMax T c g = some (T.get c x) ∧ ∀ y ∈ g.rows, T.get c y ≤ T.get c x :=
    fun g hg => rgMax_some (hne g hg)
  obtain ⟨g0, hg0⟩ := List.exists_mem_of_ne_nil _ h0
  obtain ⟨x0, _, hx0, _⟩ := hmax g0 hg0
  have hne' : rgs.filterMap (rgMax T c) ≠ [] := by
    intro e
    rw [List.filterMap_eq_nil_iff] at e
    rw [e g0 hg0] at hx0; cases hx0
  obtain ⟨m, hm⟩ : ∃ m, (rgs.filterMap (rgMax T c)).max? = some m := by
    cases hx : (rgs.filterMap (rgMax T c)).max? with
    | none => rw [List.max?_eq_none_iff] at hx; exact absurd hx hne'
    | some m => exact ⟨m, rfl⟩
  obtain ⟨hmem, hle⟩ := List.max?_eq_some_iff.1 hm
  obtain ⟨g, hg, hgm⟩ := List.mem_filterMap.1 hmem
  obtain ⟨x, hx, hxm, _⟩ := hmax g hg
  rw [hgm] at hxm
  cases hxm
  refine ⟨x, List.mem_flatten.2 ⟨g.rows, List.mem_map.2 ⟨g, hg, rfl⟩, hx⟩, hm, ?_⟩
  intro y hy
  obtain ⟨l, hl, hyl⟩ := List.mem_flatten.1 hy
  obtain ⟨g', hg', rfl⟩ := List.mem_map.1 hl
  obtain ⟨x', _, hx', hle'⟩ := hmax g' hg'
  exact le_trans (hle' y hyl) (hle _ (List.mem_filterMap.2 ⟨g', hg', hx'⟩))

/-- **C20** `min_max` gives the smallest and the largest value of the column over all rows. -/
theorem C20_min_max {T : Table R} {c : Col} {rgs : List (RG R)} (hne : ∀ g ∈ rgs, g.rows ≠ []) (h0 : rgs ≠ []) :
    ∃ x ∈ readRows rgs, ∃ y ∈ readRows rgs, minMax T c rgs = some (T.get c x, T.get c y) ∧
      ∀ z ∈ readRows rgs, T.get c x ≤ T.get c z ∧ T.get c z ≤ T.get c y := by
  obtain ⟨x, hx, h1, h2⟩ := min?_filterMap (T := T) (c := c) hne h0
  obtain ⟨y, hy, h3, h4⟩ := max?_filterMap (T := T) (c := c) hne h0
  exact ⟨x, hx, y, hy, by simp [minMax, h1, h3], fun z hz => ⟨h2 z hz, h4 z hz⟩⟩

example := C20_min_max (T := exT) (c := 0) (rgs := exRgs [[5, 3], [9, 1, 2]]) (by decide) (by decide)

/-- **C20** The hypothesis holds for the datasets obtained by any sequence of writes. -/
theorem C20_row_groups_nonempty {T : Table R} {d : Disk R} {rgs : List (RG R)} (h : DiskHist T d rgs) :
    ∀ g ∈ rgs, g.rows ≠ [] := by
  induction h with
  | empty _ => simp
  | write p data _ hw ih => exact write_nonempty ih hw
  | rejected p data _ _ ih => exact ih

example : minMax exT 0 (exRgs [[5, 3], [9, 1, 2]]) = some (1, 9) := rfl

/-! ### C23 -/

/-- **C23** If the process dies at any point of an append (nothing to coalesce, and no `ordered_on` or all new rows
after the recorded ones), the dataset opened through its metadata file is that of before, unless the last step
(writing the metadata file) was done, in which case it is the complete one. -/
theorem C23_append_crash {T : Table R} {p : Params} {d : Disk R} {rgs rgs' : List (RG R)} {data : List R}
    (hh : Holds d rgs) (hi : (rgs.map RG.id).Pairwise (· < ·)) (hne : rgs ≠ [])
    (hn : NotCoalesced p.maxRg p.maxNirgs (rgs.map RG.rows) data)
    (hov : p.orderedOn = none ∨ ∃ on, p.orderedOn = some (.col on) ∧
      ∀ x ∈ readRows rgs, ∀ y ∈ data, T.get on x < T.get on y)
    (h : write T p rgs data = .ok rgs') {pre : List (Step R)} (hp : pre <+: (writeTrace T p rgs data).1) :
    (pre ≠ (writeTrace T p rgs data).1 → (exec d pre).view = some rgs) ∧
    (pre = (writeTrace T p rgs data).1 → (exec d pre).view = some rgs' ∧ readRows rgs' = readRows rgs ++ data) := by
  obtain ⟨new, hr, hrows, hf, htr⟩ := append_trace hne hn hov h
  constructor
  · intro hlt
    rw [htr] at hp hlt
    exact (append_prefix hh hf hp hlt).view
  · rintro rfl
    refine ⟨(write_holds (fun _ => hh) hi h).view, ?_⟩
    rw [hr, readRows_append, hrows]

/-- **C23** Doing the interrupted append again gives the complete dataset, the leftover files being overwritten
or ignored. -/
theorem C23_append_retry {T : Table R} {p : Params} {d : Disk R} {rgs rgs' : List (RG R)} {data : List R}
    (hh : Holds d rgs) (hi : (rgs.map RG.id).Pairwise (· < ·)) (hne : rgs ≠ [])
    (hn : NotCoalesced p.maxRg p.maxNirgs (rgs.map RG.rows) data)
    (hov : p.orderedOn = none ∨ ∃ on, p.orderedOn = some (.col on) ∧
      ∀ x ∈ readRows rgs, ∀ y ∈ data, T.get on x < T.get on y)
    (h : write T p rgs data = .ok rgs') {pre : List (Step R)} (hp : pre <+: (writeTrace T p rgs data).1)
    (hlt : pre ≠ (writeTrace T p rgs data).1) :
    (exec (exec d pre) (writeTrace T p rgs data).1).view = some rgs' := by
  obtain ⟨new, hr, hrows, hf, htr⟩ := append_trace hne hn hov h
  have hpre : Holds (exec d pre) rgs := by
    rw [htr] at hp hlt
    exact append_prefix hh hf hp hlt
  exact (write_holds (fun _ => hpre) hi h).view

/-- A disk with a dataset. -/
def exDisk (rgs : List (RG R)) : Disk R := exec noDisk (putRgs rgs ++ [.putMeta (rgs.map RG.id)])

example := C23_append_crash (T := exT) (p := { maxRg := some 3, maxNirgs := some 3, orderedOn := some (.col 0) }) (d := exDisk (exRgs [[1, 2, 3], [4]]))
  (rgs := exRgs [[1, 2, 3], [4]]) (data := exRows [5]) ⟨rfl, by decide +kernel⟩ (by decide) (by decide)
  (by rintro k m ⟨⟩ ⟨⟩; decide) (Or.inr ⟨0, rfl, by decide⟩) rfl (pre := [.putPart 2 (exRows [5])]) ⟨[.putMeta [0, 1, 2]], rfl⟩

example : ∃ rgs', Holds (exDisk (exRgs [[1, 2], [3]])) (exRgs [[1, 2], [3]]) ∧
    write exT { maxRg := some 1 } (exRgs [[1, 2], [3]]) (exRows [4, 5]) = .ok rgs' ∧
    (writeTrace exT { maxRg := some 1 } (exRgs [[1, 2], [3]]) (exRows [4, 5])).1.length = 3 := by
  refine ⟨_, ⟨rfl, ?_⟩, rfl, rfl⟩
  intro g hg
  simp [exRgs] at hg
  rcases hg with rfl | rfl <;> rfl

/-- **C23** Whatever the write (update and coalescing included) and the point where the process dies, all rows of before, or all
rows of after, are in the files of the directory, possibly under temporary names: nothing recorded is lost. -/
theorem C23_no_loss {T : Table R} {p : Params} {d : Disk R} {rgs rgs' : List (RG R)} {data : List R}
    (hh : rgs ≠ [] → Holds d rgs) (hi : (rgs.map RG.id).Pairwise (· < ·)) (h : write T p rgs data = .ok rgs')
    {pre : List (Step R)} (hp : pre <+: (writeTrace T p rgs data).1) :
    Saved (exec d pre) rgs ∨ Saved (exec d pre) rgs' := write_saved hh hi h hp

example := C23_no_loss (T := exT) (p := { orderedOn := some (.col 0) }) (d := exDisk (exRgs [[1], [2, 3]])) (rgs := exRgs [[1], [2, 3]])
  (data := exRows [3]) (fun _ => ⟨rfl, by decide +kernel⟩) (by decide) rfl
  (pre := [.putPart 2 [(2, 0), (3, 0), (3, 1)], .delPart 1, .toTmp 2 1]) ⟨[.fromTmp 1, .putMeta [0, 1]], rfl⟩

/-- **C23** As long as no file has been removed, the dataset is read as before. -/
theorem C23_before_removal {T : Table R} {p : Params} {d : Disk R} {rgs rgs' : List (RG R)} {data : List R}
    (hh : Holds d rgs) (hne : rgs ≠ []) (h : write T p rgs data = .ok rgs') {pre : List (Step R)}
    (hp : pre <+: (writeTrace T p rgs data).1) (hlt : pre ≠ (writeTrace T p rgs data).1) (hdel : ∀ i, .delPart i ∉ pre) :
    (exec d pre).view = some rgs := (before_removal hh hne h hp hlt hdel).view

/-- In the middle of renaming: the dataset cannot be opened, its rows are in `part.0.parquet` and in a file with a temporary name. -/
example : ∃ rgs' pre, write exT { orderedOn := some (.col 0) } (exRgs [[1], [2, 3]]) (exRows [3]) = .ok rgs' ∧
    pre <+: (writeTrace exT { orderedOn := some (.col 0) } (exRgs [[1], [2, 3]]) (exRows [3])).1 ∧
    (exec (exDisk (exRgs [[1], [2, 3]])) pre).view = none ∧ Saved (exec (exDisk (exRgs [[1], [2, 3]])) pre) rgs' :=
  ⟨[⟨0, [(1, 0)]⟩, ⟨1, [(2, 0), (3, 0), (3, 1)]⟩], [.putPart 2 [(2, 0), (3, 0), (3, 1)], .delPart 1, .toTmp 2 1], rfl,
    ⟨[.fromTmp 1, .putMeta [0, 1]], rfl⟩, rfl, [.part 0, .tmp 1], by simp, .cons rfl (.cons rfl .nil)⟩

/-- **C23** fails for an update: a crash just before the metadata file is written leaves a dataset that cannot
be read, a listed file having been removed. -/
theorem C23_update_crash_fails : ∃ pre rgs', pre <+: (writeTrace exT { orderedOn := some (.col 0) }
        (exRgs [[1], [2, 3]]) (exRows [3])).1 ∧
    write exT { orderedOn := some (.col 0) } (exRgs [[1], [2, 3]]) (exRows [3]) = .ok rgs' ∧
    (exec (exDisk (exRgs [[1], [2, 3]])) pre).view = none :=
  ⟨[.putPart 2 [(2, 0), (3, 0), (3, 1)], .delPart 1], _,
    ⟨[.toTmp 2 1, .fromTmp 1, .putMeta [0, 1]], rfl⟩, rfl, rfl⟩

/-- **C23** fails when an append coalesces: the same append is safe with a larger `max_nirgs`. -/
theorem C23_coalescing_crash_fails : ∃ pre rgs', pre <+: (writeTrace exT { maxRg := some 10, maxNirgs := some 2 }
        (exRgs [[1], [2]]) (exRows [3])).1 ∧
    write exT { maxRg := some 10, maxNirgs := some 2 } (exRgs [[1], [2]]) (exRows [3]) = .ok rgs' ∧
    (exec (exDisk (exRgs [[1], [2]])) pre).view = none ∧
    NotCoalesced (some 10) (some 3) ((exRgs [[1], [2]]).map RG.rows) (exRows [3]) := by
  refine ⟨(writeTrace exT { maxRg := some 10, maxNirgs := some 2 } (exRgs [[1], [2]]) (exRows [3])).1.take 2, _,
    List.take_prefix _ _, rfl, rfl, fun k m hk hm => ?_⟩
  cases hk
  cases hm
  decide

/-- **C23** fails at creation of a dataset of several row groups: the metadata file of the first row group is
written before the other row groups, a crash then leaves a readable dataset with the first row group only. -/
theorem C23_creation_crash_fails : ∃ pre, pre <+: (writeTrace exT { maxRg := some 1 } [] (exRows [1, 2])).1 ∧
    (exec noDisk pre).view = some [⟨0, exRows [1]⟩] :=
  ⟨[.putPart 0 (exRows [1]), .putMeta [0]], ⟨[.putPart 1 (exRows [2]), .putMeta [0, 1]], rfl⟩, rfl⟩

/-- **C23** The vaex view is not protected: after an interrupted append, the leftover file is part of the
directory listing, hence of the vaex view, while the pandas view ignores it. -/
theorem C23_vdf_leftover_fails : ∃ pre scan, pre <+: (writeTrace exT {} (exRgs [[1]]) (exRows [2])).1 ∧
    (exec (exDisk (exRgs [[1]])) pre).view = some (exRgs [[1]]) ∧
    (∀ g, g ∈ scan ↔ (exec (exDisk (exRgs [[1]])) pre).part g.id = some g.rows) ∧
    vdfRows scan = [(1, 0), (2, 1)] := by
  refine ⟨[.putPart 1 (exRows [2])], [⟨0, [(1, 0)]⟩, ⟨1, [(2, 1)]⟩], ⟨[.putMeta [0, 1]], rfl⟩, rfl, ?_, rfl⟩
  rintro ⟨i, rows⟩
  match i with
  | 0 => simp [exec, execStep, exDisk, exRgs, putRgs, setAt, noDisk, exRows, eq_comm]
  | 1 => simp [exec, execStep, exDisk, exRgs, putRgs, setAt, noDisk, exRows, eq_comm]
  | n + 2 => simp [exec, execStep, exDisk, exRgs, putRgs, setAt, noDisk, exRows, eq_comm]

/-! ### C24 -/

/-- **C24** A write that raises has not touched any file. -/
theorem C24_rejected_untouched {T : Table R} {p : Params} {d : Disk R} {rgs : List (RG R)} {data : List R} {e : Err}
    (h : write T p rgs data = .error e) : exec d (writeTrace T p rgs data).1 = d := by
  have h1 := (trace_result (T := T) (p := p) (rgs := rgs) (data := data) e).2 h
  have h2 : (writeTrace T p rgs data).1 = [] :=
    trace_error (e := e) (Prod.ext rfl h1 : writeTrace T p rgs data = (_, some e))
  rw [h2]; rfl

example := C24_rejected_untouched (T := exT) (p := { orderedOn := some (.col 5) }) (d := noDisk) (rgs := exRgs [[1]]) (data := exRows [2]) rfl

/-- **C24** `ordered_on` a tuple is rejected. -/
theorem C24_tuple {T : Table R} {p : Params} {rgs : List (RG R)} {data : List R}
    (h : p.orderedOn = some .tuple) : write T p rgs data = .error .typeError := by
  simp [write, h, checkOrderedOn, bind, Except.bind]

/-- **C24** `ordered_on` not a column is rejected. -/
theorem C24_unknown_column {T : Table R} {p : Params} {rgs : List (RG R)} {data : List R} {c : Col}
    (h : p.orderedOn = some (.col c)) (hc : c ∉ T.cols) : write T p rgs data = .error .valueError := by
  simp [write, h, checkOrderedOn, hc, bind, Except.bind]

example := C24_unknown_column (T := exT) (p := { orderedOn := some (.col 5) }) (rgs := exRgs [[1]]) (data := exRows [2]) rfl (by decide)

/-- **C24** `duplicates_on` without `ordered_on` is rejected on an existing dataset. -/
theorem C24_duplicates_alone {T : Table R} {p : Params} {rgs : List (RG R)} {data : List R} {d : DupOn}
    (h : p.orderedOn = none) (hd : p.dupOn = some d) (hne : rgs ≠ []) :
    write T p rgs data = .error .valueError := by
  have hemp : rgs.isEmpty = false := by cases rgs <;> simp_all
  simp [write, h, checkOrderedOn, hd, hemp, bind, Except.bind, throw, throwThe, MonadExceptOf.throw]

example := C24_duplicates_alone (T := exT) (p := { dupOn := some (.one 0) }) (rgs := exRgs [[1]]) (data := exRows [2]) rfl rfl (by decide)

/-- **C24** A column of `duplicates_on` that does not exist is rejected as soon as a row group overlaps the new data. -/
theorem C24_unknown_duplicates {T : Table R} {p : Params} {rgs : List (RG R)} {data : List R} {on : Col} {a b : R}
    (h : p.orderedOn = some (.col on)) (hd : ¬ DupKnown T p.dupOn) (ha : data.head? = some a)
    (hb : data.getLast? = some b) {g : RG R} (hg : g ∈ rgs) (h1 : ∃ x ∈ g.rows, T.get on a ≤ T.get on x)
    (h2 : ∃ x ∈ g.rows, T.get on x ≤ T.get on b) : ∃ e, write T p rgs data = .error e := by
  cases hw : write T p rgs data with
  | error e => exact ⟨e, rfl⟩
  | ok rgs' =>
    exfalso
    obtain ⟨on', hon, hcase⟩ := write_cases hw
    have hon' : on' = some on := by
      rw [h] at hon
      simp only [checkOrderedOn] at hon
      split at hon <;> simp at hon
      exact hon.symm
    subst hon'
    have hfil : filterRowGroups T on (T.get on a) (T.get on b) rgs ≠ [] := by
      have hrow : g.rows ≠ [] := by obtain ⟨x, hx, _⟩ := h1; exact List.ne_nil_of_mem hx
      obtain ⟨i, hi, hgi⟩ := List.getElem_of_mem hg
      refine List.ne_nil_of_mem (a := i) (List.mem_map.2 ⟨(g, i), List.mem_filter.2 ⟨?_, (overlaps_iff hrow).2 ⟨h1, h2⟩⟩, rfl⟩)
      rw [List.mem_zipIdx_iff_getElem?]
      simp [hi, hgi]
    rcases hcase with ⟨he, _⟩ | ⟨_, _, w, hwin, hcase⟩
    · rw [he] at hg; simp at hg
    · have hw1 : ∃ i, w.1 = some i := by
        simp only [overlapWindow, ha, hb, Except.ok.injEq] at hwin
        rw [← hwin]
        match hf : filterRowGroups T on (T.get on a) (T.get on b) rgs with
        | [] => exact absurd hf hfil
        | [i] => exact ⟨i, rfl⟩
        | i :: _ :: _ => exact ⟨i, rfl⟩
      obtain ⟨i, hw1⟩ := hw1
      rcases hcase with ⟨hn, _⟩ | ⟨s, hup, _⟩
      · rw [hw1] at hn; simp at hn
      · simp only [writeUpdate] at hup
        by_cases hem : ((rgs.take (w.2.getD rgs.length)).drop s).isEmpty = true
        · simp [hem, bind, Except.bind, throw, throwThe, MonadExceptOf.throw] at hup
        simp only [hem, Bool.false_eq_true, if_false, bind, Except.bind, pure, Except.pure] at hup
        split at hup
        · simp at hup
        · rename_i v hit
          cases hdup : p.dupOn with
          | none => rw [hdup] at hd; exact hd trivial
          | some d => rw [hdup] at hit hd; exact hd (iter_sharp_known hit)

example : ¬ DupKnown exT (some (.one 7)) ∧
    write exT { orderedOn := some (.col 0), dupOn := some (.one 7) } [⟨0, [(1, 0), (3, 5)]⟩] [(2, 5)] = .error .keyError :=
  ⟨by simp [DupKnown, exT], rfl⟩

/-- **C24** fails otherwise: when rows are appended, or when the dataset is created, unknown columns in
`duplicates_on` are not noticed. -/
theorem C24_unknown_duplicates_fails :
    (∃ rgs', write exT { orderedOn := some (.col 0), dupOn := some (.one 7) } [⟨0, [(1, 0), (3, 5)]⟩] [(4, 5)] = .ok rgs') ∧
    ∃ rgs', write exT { orderedOn := some (.col 0), dupOn := some (.one 7) } [] [(4, 5)] = .ok rgs' :=
  ⟨⟨_, rfl⟩, ⟨_, rfl⟩⟩

/-- **C24** A zero `max_row_group_size` is rejected. -/
theorem C24_zero_size {T : Table R} {p : Params} {rgs : List (RG R)} {data : List R}
    (h : p.maxRg = some 0) (hne : data ≠ []) : ∃ e, write T p rgs data = .error e := by
  cases hw : write T p rgs data with
  | error e => exact ⟨e, rfl⟩
  | ok rgs' =>
    exfalso
    have hz : ∀ chunks, iterDataframe T data false p.maxRg none none ≠ .ok chunks := by
      intro chunks hit
      exact (iter_plain_ok hit).1 hne (by rw [h]; rfl)
    obtain ⟨on, _, hcase⟩ := write_cases hw
    rcases hcase with ⟨_, chunks, hit, _⟩ | ⟨_, _, w, _, ⟨_, _, chunks, hit, _⟩ | ⟨s, hup, _⟩⟩
    · exact hz _ hit
    · exact hz _ hit
    · simp only [writeUpdate] at hup
      by_cases hem : ((rgs.take (w.2.getD rgs.length)).drop s).isEmpty = true
      · simp [hem, bind, Except.bind, throw, throwThe, MonadExceptOf.throw] at hup
      simp only [hem, Bool.false_eq_true, if_false, bind, Except.bind, pure, Except.pure] at hup
      cases on with
      | none =>
        have hd : p.dupOn = none := by
          have := (write_cases hw)
          cases hx : p.dupOn with
          | none => rfl
          | some d =>
            exfalso
            simp only [iterDataframe, hx] at hup
            simp [bind, Except.bind, throw, throwThe, MonadExceptOf.throw] at hup
        simp only [hd] at hup
        split at hup
        · simp at hup
        · rename_i v hit
          exact (iter_plain_ok hit).1 (by simp [hne]) (by rw [h]; rfl)
      | some c =>
        simp only at hup
        split at hup
        · simp at hup
        · rename_i v hit
          exact (iter_sharp_ok hit).2.1 (by rw [h]; rfl)

example := C24_zero_size (T := exT) (p := { maxRg := some 0 }) (rgs := exRgs [[1]]) (data := exRows [2]) rfl (by decide)

/-- **C24** The splitting of a pandas frame is refused if row groups are to be split on a column, or if duplicates are
given as a list. -/
theorem C24_split_pandas {T : Table R} {data : List R} {m : Option Nat} {sharp : Option Col} {d : Option DupOn}
    (h : sharp ≠ none ∨ ∃ cs, d = some (.many cs)) :
    iterDataframe T data false m sharp d = .error .typeError := by
  rcases h with h | ⟨cs, rfl⟩
  · obtain ⟨c, rfl⟩ := Option.ne_none_iff_exists'.1 h
    simp [iterDataframe, bind, Except.bind, throw, throwThe, MonadExceptOf.throw]
  · simp [iterDataframe, bind, Except.bind, throw, throwThe, MonadExceptOf.throw]

/-- **C24** The dropping of duplicates is refused if row groups are not split on a column. -/
theorem C24_split_duplicates {T : Table R} {data : List R} {m : Option Nat} {d : DupOn} :
    iterDataframe T data true m none (some d) = .error .valueError := by
  simp [iterDataframe, bind, Except.bind, throw, throwThe, MonadExceptOf.throw]

/-- **C24** An empty frame cannot be written with `ordered_on` on an existing dataset. -/
theorem C24_empty_ordered {T : Table R} {p : Params} {rgs : List (RG R)} {c : Col}
    (h : p.orderedOn = some (.col c)) (hc : c ∈ T.cols) (hne : rgs ≠ []) :
    write T p rgs [] = .error .indexError := by
  have hemp : rgs.isEmpty = false := by cases rgs <;> simp_all
  simp [write, h, checkOrderedOn, hc, hemp, bind, Except.bind, throw, throwThe, MonadExceptOf.throw, overlapWindow]

example : write exT { orderedOn := some (.col 5) } (exRgs [[1]]) (exRows [2]) = .error .valueError := rfl

end Oups.Writer
