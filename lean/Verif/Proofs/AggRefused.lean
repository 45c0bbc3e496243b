import Verif.Proofs.AggDict
import Verif.Proofs.Calendar
import Verif.Spec.AggRefused
/-! Calls refused by the segmentation. -/
set_option linter.unusedSimpArgs false
namespace Oups.Segment
open Spec
variable {R B : Type}

/-! ### Bins that cannot resume from another bin unnoticed -/

/-- From two of its dicts, a `bin_by` gives the same bins, or bins of which the first has another label. `valid`: what its dict is,
after a call. -/
structure Resumes (fn : BinFn R B) (valid : B → Prop) : Prop where
  both : ∀ p b b', p ≠ [] → valid b → valid b' → ∃ r b1 r' b1', fn p (some b) = .ok (r, some b1) ∧
    fn p (some b') = .ok (r', some b1') ∧ valid b1 ∧ valid b1' ∧
    (r = r' ∨ r.starts = [] ∨ r'.starts = [] ∨ r.labels.head? ≠ r'.labels.head?)

theorem chunkLoop_length (right : Bool) (data : List Int) (ends : List Int) : ∀ d prev,
    (chunkLoop right data ends d prev).1.length ≤ ends.length ∧
    ((chunkLoop right data ends d prev).2.2 = false → (chunkLoop right data ends d prev).1.length = ends.length) := by
  induction ends with
  | nil => intro d prev; simp [chunkLoop]
  | cons e ends ih =>
    intro d prev
    unfold chunkLoop
    simp only
    split
    · simp
    · have h := ih (d + (scan (beyond right e) 0 (data.drop d)).1)
        (if prev = d + (scan (beyond right e) 0 (data.drop d)).1 then prev else d + (scan (beyond right e) 0 (data.drop d)).1)
      simp only [List.length_cons]
      exact ⟨by omega, fun h' => by have := h.2 h'; omega⟩

/-- What the common end of `by_scale` gives does not depend on the dict; a key is left in it. -/
theorem scaleFinish_facts (isG : Bool) (on labels ends : List Int) (closed : Closed) (b : ScaleBuf) :
    (∀ b' : Option ScaleBuf, (scaleFinish isG on labels ends closed b').1 = (scaleFinish isG on labels ends closed (some b)).1) ∧
    (∃ b1, (scaleFinish isG on labels ends closed (some b)).2 = some b1 ∧ b1.restart.isSome) ∧
    (scaleFinish isG on labels ends closed (some b)).1.starts.length =
      (scaleFinish isG on labels ends closed (some b)).1.ends.length ∧
    ((scaleFinish isG on labels ends closed (some b)).1.starts = [] ∨
      (ends ≠ [] ∧ (scaleFinish isG on labels ends closed (some b)).1.labels.head? = labels.head?)) := by
  have h := chunkLoop_length (closed == .right) on ends 0 0
  unfold scaleFinish nextChunkStarts
  generalize chunkLoop (closed == .right) on ends 0 0 = x at h
  obtain ⟨starts, nn, tr⟩ := x
  simp only at h ⊢
  have hne : starts = [] ∨ (starts.length ≠ 0 ∧ ends ≠ []) := by
    cases starts with
    | nil => left; rfl
    | cons s l =>
      right
      refine ⟨by simp, ?_⟩
      rintro rfl
      simp at h
  cases tr with
  | true =>
    simp only [if_true]
    refine ⟨fun _ => trivial, ?_, ?_, ?_⟩
    · simp only [Option.map_some]
      refine ⟨_, rfl, ?_⟩
      split
      · split <;> rfl
      · rfl
    · simp only [List.length_take]; omega
    · rcases hne with h' | h'
      · left; exact h'
      · right; exact ⟨h'.2, by rw [List.head?_take, if_neg h'.1]⟩
  | false =>
    simp only [Bool.false_eq_true, if_false]
    refine ⟨fun _ => trivial, ⟨_, rfl, rfl⟩, h.2 rfl, ?_⟩
    rcases hne with h' | h'
    · left; exact h'
    · right; exact ⟨h'.2, trivial⟩

/-- Labels of edges: the first one tells the first edge. -/
theorem labels_head (lr : Bool) (l : List Int) (x y : Int) (rest : List Int) (h : l = x :: y :: rest) :
    (if lr then l.tail else l.dropLast).head? = some (if lr then y else x) := by
  subst h
  cases lr <;> rfl

theorem dateRange_two (s e f : Int) (h : (dateRange s e f).tail ≠ []) : ∃ rest, dateRange s e f = s :: (s + f) :: rest := by
  unfold dateRange at *
  generalize ((e - s) / f + 1).toNat = n at *
  match n with
  | 0 => simp at h
  | 1 => simp at h
  | n + 2 =>
    refine ⟨((List.range n).map fun i => i + 2).map fun (i : Nat) => s + (i : Int) * f, ?_⟩
    rw [List.range_succ_eq_map, List.range_succ_eq_map]
    simp [Function.comp_def]
    intro i _; left; omega

/-- What the edges of a grouper are, by the cell of the key. -/
theorem byGrouper_key (g : Grouper) (a : Int) (ha : Anchored g a) (on : List Int) (b : ScaleBuf) (k : Int) (hk : b.restart = some k) :
    byGrouper g none on (some b) =
      (fun c => scaleFinish true on
        (if g.labelRight then (dateRange (a + g.freq * c) (a + g.freq * (cellOf (g.closed == .right) a g.freq (on.getLastD 0) + 1))
            g.freq).tail
          else (dateRange (a + g.freq * c) (a + g.freq * (cellOf (g.closed == .right) a g.freq (on.getLastD 0) + 1)) g.freq).dropLast)
        (dateRange (a + g.freq * c) (a + g.freq * (cellOf (g.closed == .right) a g.freq (on.getLastD 0) + 1)) g.freq).tail
        g.closed (some b)) (cellOf (g.closed == .right) a g.freq k) := by
  have hf := ha.1
  obtain ⟨t, ht⟩ := ha.2.1 k
  unfold byGrouper
  simp only [Option.bind_some, hk, Option.getD_none, ha.2.2]
  rw [gtreStart_eq _ _ _ _ hf, gtreEnd_eq _ _ _ _ hf, ht, cellOf_shift _ _ _ _ _ hf, cellOf_shift _ _ _ _ _ hf]
  rw [show ∀ c, a + g.freq * t + g.freq * (c - t) = a + g.freq * c from fun c => by rw [Int.mul_sub]; omega,
    show ∀ c, a + g.freq * t + g.freq * (c - t + 1) = a + g.freq * (c + 1) from fun c => by
      rw [show c - t + 1 = (c + 1) - t by omega, Int.mul_sub]; omega]

/-- Calls of `by_scale` with a grouper, from two keys. -/
theorem grouper_resumes (g : Grouper) (a : Int) (ha : Anchored g a) (pos : R → Int) :
    Resumes (grouperFn g pos) (fun b => b.restart.isSome) where
  both := by
    intro p b b' hp hb hb'
    obtain ⟨k, hk⟩ := Option.isSome_iff_exists.1 hb
    obtain ⟨k', hk'⟩ := Option.isSome_iff_exists.1 hb'
    have hf := ha.1
    have h1 := byGrouper_key g a ha (p.map pos) b k hk
    have h2 := byGrouper_key g a ha (p.map pos) b' k' hk'
    simp only at h1 h2
    generalize cellOf (g.closed == .right) a g.freq k = c at h1
    generalize cellOf (g.closed == .right) a g.freq k' = c' at h2
    generalize a + g.freq * (cellOf (g.closed == .right) a g.freq ((p.map pos).getLastD 0) + 1) = stop at h1 h2
    obtain ⟨x1, ⟨b1, x2, x3⟩, _, x4⟩ := scaleFinish_facts true (p.map pos)
      (if g.labelRight then (dateRange (a + g.freq * c) stop g.freq).tail else (dateRange (a + g.freq * c) stop g.freq).dropLast)
      (dateRange (a + g.freq * c) stop g.freq).tail g.closed b
    obtain ⟨y1, ⟨b1', y2, y3⟩, _, y4⟩ := scaleFinish_facts true (p.map pos)
      (if g.labelRight then (dateRange (a + g.freq * c') stop g.freq).tail else (dateRange (a + g.freq * c') stop g.freq).dropLast)
      (dateRange (a + g.freq * c') stop g.freq).tail g.closed b'
    rw [← h1] at x1 x2 x4
    rw [← h2] at y1 y2 y4
    refine ⟨(byGrouper g none (p.map pos) (some b)).1.toRes, b1, (byGrouper g none (p.map pos) (some b')).1.toRes, b1',
      by rw [grouperFn, x2], by rw [grouperFn, y2], x3, y3, ?_⟩
    by_cases hc : c = c'
    · left
      subst hc
      rw [← x1 (some b'), h2]
    · right
      rcases x4 with h | ⟨h, h'⟩
      · left; exact h
      · right
        rcases y4 with i | ⟨i, i'⟩
        · left; exact i
        · right
          obtain ⟨l, hl⟩ := dateRange_two _ _ _ h
          obtain ⟨m, hm⟩ := dateRange_two _ _ _ i
          rw [labels_head g.labelRight _ _ _ l hl] at h'
          rw [labels_head g.labelRight _ _ _ m hm] at i'
          simp only [Seg.toRes]
          rw [h', i']
          intro hh
          apply hc
          have : g.freq * c = g.freq * c' := by
            simp only [Option.some.injEq] at hh
            split at hh <;> omega
          exact Int.eq_of_mul_eq_mul_left (by omega) this

theorem scaleFinish_restart (isG : Bool) (on labels ends : List Int) (closed : Closed) (b b' : ScaleBuf) :
    ((scaleFinish isG on labels ends closed (some b)).2.bind ScaleBuf.restart) =
      ((scaleFinish isG on labels ends closed (some b')).2.bind ScaleBuf.restart) := by
  unfold scaleFinish
  simp only
  split
  · simp only [Option.map_some, Option.bind_some]
    split
    · split <;> rfl
    · rfl
  · rfl

/-- From two of its dicts related by `T`, a `bin_by` gives the same bins. -/
def Twins (fn : BinFn R B) (T : B → B → Prop) : Prop :=
  ∀ p b b', p ≠ [] → T b b' → ∃ r b1 b1', fn p (some b) = .ok (r, some b1) ∧ fn p (some b') = .ok (r, some b1') ∧ T b1 b1'

/-- Keys in one cell. -/
def SameCell (right : Bool) (a f : Int) (b b' : ScaleBuf) : Prop :=
  ∃ k k', b.restart = some k ∧ b'.restart = some k' ∧ cellOf right a f k = cellOf right a f k'

theorem grouper_twins (g : Grouper) (a : Int) (ha : Anchored g a) (pos : R → Int) :
    Twins (grouperFn g pos) (SameCell (g.closed == .right) a g.freq) := by
  rintro p b b' hp ⟨k, k', hk, hk', hc⟩
  have h1 := byGrouper_key g a ha (p.map pos) b k hk
  have h2 := byGrouper_key g a ha (p.map pos) b' k' hk'
  rw [hc] at h1
  simp only at h1 h2
  generalize cellOf (g.closed == .right) a g.freq k' = c at h1 h2
  generalize a + g.freq * (cellOf (g.closed == .right) a g.freq ((p.map pos).getLastD 0) + 1) = stop at h1 h2
  obtain ⟨x1, ⟨b1, x2, x3⟩, _, _⟩ := scaleFinish_facts true (p.map pos)
    (if g.labelRight then (dateRange (a + g.freq * c) stop g.freq).tail else (dateRange (a + g.freq * c) stop g.freq).dropLast)
    (dateRange (a + g.freq * c) stop g.freq).tail g.closed b
  obtain ⟨_, ⟨b1', y2, _⟩, _, _⟩ := scaleFinish_facts true (p.map pos)
    (if g.labelRight then (dateRange (a + g.freq * c) stop g.freq).tail else (dateRange (a + g.freq * c) stop g.freq).dropLast)
    (dateRange (a + g.freq * c) stop g.freq).tail g.closed b'
  have hre := scaleFinish_restart true (p.map pos)
    (if g.labelRight then (dateRange (a + g.freq * c) stop g.freq).tail else (dateRange (a + g.freq * c) stop g.freq).dropLast)
    (dateRange (a + g.freq * c) stop g.freq).tail g.closed b b'
  have x1' := x1 (some b')
  rw [← h1] at x1' x2
  rw [← h2] at x1' y2
  rw [← h1, ← h2, x2, y2] at hre
  simp only [Option.bind_some] at hre
  obtain ⟨k1, hk1⟩ := Option.isSome_iff_exists.1 x3
  refine ⟨(byGrouper g none (p.map pos) (some b)).1.toRes, b1, b1', by rw [grouperFn, x2], by rw [grouperFn, y2, x1'], ?_⟩
  exact ⟨k1, k1, hk1, by rw [← hre, hk1], rfl⟩

theorem calRange_two (o : Offset) (n stop : Int) (k : Nat) (x : Int) (h : (calRange o n stop k x).tail ≠ []) :
    ∃ rest, calRange o n stop k x = x :: o.plus n x :: rest := by
  match k with
  | 0 => simp [calRange] at h
  | 1 =>
    unfold calRange at h ⊢
    split at h <;> simp [calRange] at h
  | k + 2 =>
    unfold calRange at h ⊢
    split at h
    · rename_i hx
      rw [if_pos hx]
      unfold calRange at h ⊢
      split at h
      · rename_i hy
        exact ⟨_, by rw [if_pos hy]⟩
      · simp at h
    · simp at h

/-- The same with a calendar frequency. -/
theorem calendar_resumes (c : Calendar) (hc : c.Ok) (pos : R → Int) :
    Resumes (calendarFn c pos) (fun b => b.restart.isSome) where
  both := by
    intro p b b' hp hb hb'
    obtain ⟨k, hk⟩ := Option.isSome_iff_exists.1 hb
    obtain ⟨k', hk'⟩ := Option.isSome_iff_exists.1 hb'
    have key : ∀ (b : ScaleBuf) k, b.restart = some k → byCalendar c none (p.map pos) (some b) =
        (fun i => scaleFinish true (p.map pos)
          (if c.labelRight then (calRange c.off c.n (calStop c ((p.map pos).getLastD 0))
              ((calStop c ((p.map pos).getLastD 0) - c.off.date i).toNat + 1) (c.off.date i)).tail
            else (calRange c.off c.n (calStop c ((p.map pos).getLastD 0))
              ((calStop c ((p.map pos).getLastD 0) - c.off.date i).toNat + 1) (c.off.date i)).dropLast)
          (calRange c.off c.n (calStop c ((p.map pos).getLastD 0))
              ((calStop c ((p.map pos).getLastD 0) - c.off.date i).toNat + 1) (c.off.date i)).tail
          c.closed (some b)) (c.startIdx c.closed k) := by
      intro b k hk
      unfold byCalendar
      simp only [Option.bind_some, hk, Option.getD_none]
      rw [calStart_eq hc]
    have h1 := key b k hk
    have h2 := key b' k' hk'
    simp only at h1 h2
    generalize c.startIdx c.closed k = i at h1
    generalize c.startIdx c.closed k' = i' at h2
    generalize calStop c ((p.map pos).getLastD 0) = stop at h1 h2
    obtain ⟨x1, ⟨b1, x2, x3⟩, _, x4⟩ := scaleFinish_facts true (p.map pos)
      (if c.labelRight then (calRange c.off c.n stop ((stop - c.off.date i).toNat + 1) (c.off.date i)).tail
        else (calRange c.off c.n stop ((stop - c.off.date i).toNat + 1) (c.off.date i)).dropLast)
      (calRange c.off c.n stop ((stop - c.off.date i).toNat + 1) (c.off.date i)).tail c.closed b
    obtain ⟨y1, ⟨b1', y2, y3⟩, _, y4⟩ := scaleFinish_facts true (p.map pos)
      (if c.labelRight then (calRange c.off c.n stop ((stop - c.off.date i').toNat + 1) (c.off.date i')).tail
        else (calRange c.off c.n stop ((stop - c.off.date i').toNat + 1) (c.off.date i')).dropLast)
      (calRange c.off c.n stop ((stop - c.off.date i').toNat + 1) (c.off.date i')).tail c.closed b'
    rw [← h1] at x1 x2 x4
    rw [← h2] at y1 y2 y4
    refine ⟨(byCalendar c none (p.map pos) (some b)).1.toRes, b1, (byCalendar c none (p.map pos) (some b')).1.toRes, b1',
      by rw [calendarFn, x2], by rw [calendarFn, y2], x3, y3, ?_⟩
    by_cases hi : i = i'
    · left
      subst hi
      rw [← x1 (some b'), h2]
    · right
      rcases x4 with h | ⟨h, h'⟩
      · left; exact h
      · right
        rcases y4 with j | ⟨j, j'⟩
        · left; exact j
        · right
          obtain ⟨l, hl⟩ := calRange_two _ _ _ _ _ h
          obtain ⟨m, hm⟩ := calRange_two _ _ _ _ _ j
          rw [labels_head c.labelRight _ _ _ l hl] at h'
          rw [labels_head c.labelRight _ _ _ m hm] at j'
          simp only [Seg.toRes]
          rw [h', j']
          intro hh
          apply hi
          simp only [Option.some.injEq, Offset.plus, Offset.rank_date hc.off] at hh
          have inj : ∀ {u v}, c.off.date u = c.off.date v → u = v := by
            intro u v huv
            have := congrArg c.off.rank huv
            rwa [Offset.rank_date hc.off, Offset.rank_date hc.off] at this
          split at hh
          · have := inj hh; omega
          · exact inj hh

/-- Sizes of snapshots. -/
theorem runSnaps_sizes (s : Snaps) (closed : Closed) (on : List Int) (b : ScaleBuf) {ss : Seg} {sb : Option ScaleBuf}
    (h : runSnaps s closed on (some b) = .ok (ss, sb)) : ss.starts.length = ss.ends.length := by
  cases s with
  | grouper g =>
    simp only [runSnaps, Except.ok.injEq] at h
    have h' := congrArg Prod.fst h
    simp only at h'
    rw [← h']
    exact (scaleFinish_facts _ _ _ _ _ _).2.2.1
  | calendar c =>
    simp only [runSnaps, Except.ok.injEq] at h
    have h' := congrArg Prod.fst h
    simp only at h'
    rw [← h']
    exact (scaleFinish_facts _ _ _ _ _ _).2.2.1
  | values l e =>
    have fin : ∀ l e (b : ScaleBuf), (seriesFinish l e closed on (some b)).1.starts.length =
        (seriesFinish l e closed on (some b)).1.ends.length := by
      intro l e b
      unfold seriesFinish
      split
      · rename_i he; simp only [List.isEmpty_iff] at he; simp [he]
      · exact (scaleFinish_facts _ _ _ _ _ _).2.2.1
    simp only [runSnaps, bySeries] at h
    split at h
    · cases h
    · split at h
      · split at h
        · cases h
        · have h' := congrArg Prod.fst (Except.ok.inj h)
          simp only at h'
          rw [← h']; exact fin _ _ _
      · have h' := congrArg Prod.fst (Except.ok.inj h)
        simp only at h'
        rw [← h']; exact fin _ _ _

theorem mergesort_ok (l1 l2 : List Nat) (k1 k2 : List Int) (force : Bool) (h1 : k1.length = l1.length)
    (h2 : k2.length = l2.length) : ∃ x, mergesort (l1, l2) (k1, k2) force = .ok x := by
  unfold mergesort
  simp only [h1, h2, ne_eq, not_true_eq_false, if_false]
  exact ⟨_, rfl⟩

end Oups.Segment

namespace Oups.Agg
open Oups.Segment Spec

section
variable {R B V D : Type} [DecidableEq D] (O : D → Ops V) (get : R → Nat → V)
variable {dtype : Nat → Option D}

/-- Two dicts that differ in what `bin_by` keeps. -/
structure Alike (valid : B → Prop) (d' d : DictBuf B V) : Prop where
  snap : d'.snap = d.snap
  label : d'.label = d.label
  chunk : d'.chunk = d.chunk
  bin : ∃ b, d'.bin = some b ∧ valid b

variable {fn : BinFn R B} {pos : R → Int} {c : Closed} {b0 : B} {spec : List R → List (Bin R)}
variable {ok : List R → B → Prop} {valid : B → Prop}

/-- What a dict with bins holds when the segmentation raises. -/
theorem seg_left (left : List R → B → B) (ordered : Option (R → Int)) (sn : Option Snaps)
    {p : List R} {d : DictBuf B V} {b : B} (hb : d.bin = some b) {e : Err} {d1 : DictBuf B V}
    (h : segmentbyD b0 fn left ordered sn p d = (.error e, d1)) :
    (d1 = d ∧ ((sn.isSome ∧ d.snap = none ∧ e = .keyError) ∨ (unordered ordered p = true ∧ e = .notOrdered))) ∨
    ((sn.isSome → d.snap.isSome) ∧ unordered ordered p = false ∧
      ((fn p (some b) = .error e ∧ d1 = { d with bin := some (left p b) }) ∨
        ∃ r b1, fn p (some b) = .ok (r, b1) ∧ d1 = { d with bin := some (b1.getD b) })) := by
  have h0 : setupMainbuffer b0 sn.isSome d = d := by unfold setupMainbuffer; rw [hb]
  unfold segmentbyD at h
  simp only [h0, hb, Option.getD_some] at h
  split at h
  · rename_i hno
    simp only [Prod.mk.injEq, Except.error.injEq] at h
    simp only [Bool.and_eq_true, Option.isNone_iff_eq_none] at hno
    exact Or.inl ⟨h.2.symm, Or.inl ⟨hno.1, hno.2, h.1.symm⟩⟩
  rename_i hno
  have hsome : sn.isSome → d.snap.isSome := by
    intro h1
    cases hx : d.snap with
    | some x => rfl
    | none => rw [hx, h1] at hno; simp at hno
  split at h
  · rename_i hu
    simp only [Prod.mk.injEq, Except.error.injEq] at h
    exact Or.inl ⟨h.2.symm, Or.inr ⟨hu, h.1.symm⟩⟩
  rename_i hu
  refine Or.inr ⟨hsome, by simpa using hu, ?_⟩
  cases hf : fn p (some b) with
  | error x =>
    rw [hf] at h
    simp only [Prod.mk.injEq, Except.error.injEq] at h
    exact Or.inl ⟨by rw [h.1], h.2.symm⟩
  | ok o =>
    obtain ⟨r, b1⟩ := o
    rw [hf] at h
    simp only at h
    refine Or.inr ⟨r, b1, rfl, ?_⟩
    split at h
    · cases h; rfl
    rename_i cl hcl
    cases sn with
    | none => cases h
    | some s =>
    simp only at h
    split at h
    · cases h; rfl
    split at h
    · cases h; rfl
    rename_i ss sb hrs
    exfalso
    have hlen : r.ends.length = r.starts.length := by
      unfold checkBins at hcl
      split at hcl
      · cases hcl
      · simp only at hcl
        split at hcl
        · cases hcl
        · split at hcl
          · cases hcl
          · rename_i h'; simp only [ne_eq, not_not] at h'; exact h'.symm
    obtain ⟨x, hx⟩ := Option.isSome_iff_exists.1 (hsome rfl)
    rw [hx] at hrs
    obtain ⟨m, hm⟩ := mergesort_ok ss.starts r.starts ss.ends r.ends r.unknownLast (runSnaps_sizes s cl _ x hrs).symm hlen
    obtain ⟨m1, m2⟩ := m
    rw [hm] at h
    cases h

/-- The segmentation, refused: only what `bin_by` keeps has changed. -/
theorem seg_refused (hR : Resumes fn valid) (left : List R → B → B) (ordered : Option (R → Int)) (sn : Option Snaps)
    {p : List R} (hp : p ≠ []) {d' d : DictBuf B V} (hA : Alike valid d' d) {e : Err} {d1 : DictBuf B V}
    (h : segmentbyD b0 fn left ordered sn p d' = (.error e, d1)) : Alike valid d1 d := by
  obtain ⟨b, hb, hv⟩ := hA.bin
  obtain ⟨r, b1, _, _, hr, _, hv1, _, _⟩ := hR.both p b b hp hv hv
  rcases seg_left left ordered sn hb h with ⟨rfl, _⟩ | ⟨_, _, ⟨h1, _⟩ | ⟨r', b1', h1, rfl⟩⟩
  · exact hA
  · rw [hr] at h1; cases h1
  · rw [hr] at h1
    simp only [Except.ok.injEq, Prod.mk.injEq] at h1
    obtain ⟨rfl, rfl⟩ := h1
    exact ⟨hA.snap, hA.label, hA.chunk, b1, rfl, hv1⟩

/-- Dicts from which all calls give the same. -/
structure Same (T : B → B → Prop) (d' d : DictBuf B V) : Prop where
  snap : d'.snap = d.snap
  label : d'.label = d.label
  chunk : d'.chunk = d.chunk
  bin : ∃ b b', d.bin = some b ∧ d'.bin = some b' ∧ T b b'

theorem seg_same {T : B → B → Prop} (hT : Twins fn T) (left : List R → B → B) (ordered : Option (R → Int)) (sn : Option Snaps)
    {p : List R} (hp : p ≠ []) {d' d : DictBuf B V} (hS : Same T d' d) :
    (segmentbyD b0 fn left ordered sn p d').1 = (segmentbyD b0 fn left ordered sn p d).1 ∧
    Same T (segmentbyD b0 fn left ordered sn p d').2 (segmentbyD b0 fn left ordered sn p d).2 := by
  obtain ⟨b, b', hb, hb', hT0⟩ := hS.bin
  obtain ⟨r, b1, b1', hr, hr', hT1⟩ := hT p b b' hp hT0
  have h0 : setupMainbuffer b0 sn.isSome d = d := by unfold setupMainbuffer; rw [hb]
  have h0' : setupMainbuffer b0 sn.isSome d' = d' := by unfold setupMainbuffer; rw [hb']
  unfold segmentbyD
  simp only [h0, h0', hb, hb', Option.getD_some, hr, hr', hS.snap, hS.label]
  split
  · exact ⟨rfl, hS⟩
  split
  · exact ⟨rfl, hS⟩
  split
  · exact ⟨rfl, ⟨rfl, rfl, hS.chunk, _, _, rfl, rfl, hT1⟩⟩
  split
  · exact ⟨rfl, ⟨rfl, rfl, hS.chunk, _, _, rfl, rfl, hT1⟩⟩
  split
  · exact ⟨rfl, ⟨rfl, rfl, hS.chunk, _, _, rfl, rfl, hT1⟩⟩
  split
  · exact ⟨rfl, ⟨rfl, rfl, hS.chunk, _, _, rfl, rfl, hT1⟩⟩
  split
  · exact ⟨rfl, ⟨rfl, rfl, hS.chunk, _, _, rfl, rfl, hT1⟩⟩
  · exact ⟨rfl, ⟨rfl, rfl, hS.chunk, _, _, rfl, rfl, hT1⟩⟩

theorem call_same {T : B → B → Prop} (hT : Twins fn T) (k : DCall D R) (z : List (D × Group) → List (List V) → Bool)
    (left : List R → B → B) (ordered : Option (R → Int)) {d' d : DictBuf B V} (hS : Same T d' d) :
    (k.call O get z b0 fn left ordered d').1 = (k.call O get z b0 fn left ordered d).1 ∧
    Same T (k.call O get z b0 fn left ordered d').2 (k.call O get z b0 fn left ordered d).2 := by
  by_cases hp : k.rows = []
  · rw [call_nil O get k hp, call_nil O get k hp]; exact ⟨rfl, hS⟩
  obtain ⟨h1, h2⟩ := seg_same (b0 := b0) hT left ordered k.snapBy hp hS
  unfold DCall.call cumsegaggD
  rw [show k.rows.isEmpty = false by simpa using hp]
  simp only [Bool.false_eq_true, if_false]
  generalize segmentbyD b0 fn left ordered k.snapBy k.rows d' = x' at h1 h2
  generalize segmentbyD b0 fn left ordered k.snapBy k.rows d = x at h1 h2
  obtain ⟨o', e'⟩ := x'
  obtain ⟨o, e⟩ := x
  simp only at h1 h2
  subst h1
  cases o' with
  | error y => exact ⟨rfl, h2⟩
  | ok s =>
    simp only
    have hpc : prevChunk O k.cfg e' = prevChunk O k.cfg e := by unfold prevChunk; rw [h2.chunk]
    rw [hpc, hS.label]
    cases prevChunk O k.cfg e with
    | none => exact ⟨rfl, h2⟩
    | some res =>
      simp only
      repeat' split
      all_goals exact ⟨rfl, h2.snap, h2.label, rfl, h2.bin⟩

theorem try_same {T : B → B → Prop} (hT : Twins fn T) (z : List (D × Group) → List (List V) → Bool)
    (left : List R → B → B) (ordered : Option (R → Int)) (ks : List (DCall D R)) : ∀ {d' d : DictBuf B V}, Same T d' d →
    (dictTry O get z b0 fn left ordered ks d').1 = (dictTry O get z b0 fn left ordered ks d).1 := by
  induction ks with
  | nil => intro d' d _; rfl
  | cons k ks ih =>
    intro d' d hS
    obtain ⟨h1, h2⟩ := call_same O get hT k z left ordered (b0 := b0) hS
    simp only [dictTry]
    rw [h1, ih h2]

variable (L : Lawful fn pos c b0 spec ok)

include L in
/-- The segmentation, accepted: it is also from the dict that had no refused call. -/
theorem seg_accepted (hR : Resumes fn valid) (hok : ∀ h b, h ≠ [] → ok h b → valid b) (left : List R → B → B)
    (ordered : Option (R → Int)) (sn : Option Snaps) {h p : List R} (hh : h ≠ []) (hp : p ≠ []) (hs : AscOn pos (h ++ p))
    {d' d : DictBuf B V} (hA : Alike valid d' d) {bi : B} (hbi : d.bin = some bi) (hoki : ok h bi)
    (hlab : d.label = (spec h).getLast?.map Bin.label) {s : SegRes} {d1 : DictBuf B V}
    (he : segmentbyD b0 fn left ordered sn p d' = (.ok s, d1)) :
    ∃ d2, segmentbyD b0 fn left ordered sn p d = (.ok s, d2) ∧ Alike valid d1 d2 := by
  obtain ⟨b, hb, hv⟩ := hA.bin
  obtain ⟨r, b1, r', b1', hr, hr', hv1, hv1', hcase⟩ := hR.both p bi b hp (hok h bi hh hoki) hv
  obtain ⟨r0, b2, e1, e2, e3, hst⟩ := L.step h p bi hp hs hoki
  rw [hr] at e1
  simp only [Except.ok.injEq, Prod.mk.injEq, Option.some.injEq] at e1
  obtain ⟨rfl, rfl⟩ := e1
  have h0 : setupMainbuffer b0 sn.isSome d' = d' := by unfold setupMainbuffer; rw [hb]
  have h0' : setupMainbuffer b0 sn.isSome d = d := by unfold setupMainbuffer; rw [hbi]
  have heq : r = r' := by
    have hchk : ∃ cl, checkBins p.length true d'.label r' = .ok cl := by
      unfold segmentbyD at he
      simp only [h0, hb, Option.getD_some, hr'] at he
      split at he
      · cases he
      split at he
      · cases he
      split at he
      · cases he
      · rename_i cl h'; exact ⟨cl, h'⟩
    obtain ⟨cl, hchk⟩ := hchk
    have hl := hst.last
    have hf := hst.first_label hh
    rcases hcase with h' | h' | h' | h'
    · exact h'
    · rw [h'] at hl; simp at hl
    · exfalso
      unfold checkBins at hchk
      rw [h'] at hchk
      split at hchk
      · cases hchk
      · simp only [List.length_nil, List.getLast?_nil] at hchk
        split at hchk
        · cases hchk
        · split at hchk
          · cases hchk
          · simp at hchk
    · exfalso
      rw [hf, ← hlab, ← hA.label] at h'
      have hsome : d'.label.isSome := by
        rw [hA.label, hlab, ← hf]
        have hlen := hst.labels_len
        cases hlb : r.labels with
        | nil =>
          have : r.starts = [] := List.length_eq_zero_iff.1 (by rw [← hlen, hlb]; rfl)
          rw [this] at hl; simp at hl
        | cons x l => rfl
      unfold checkBins at hchk
      split at hchk
      · cases hchk
      · simp only at hchk
        split at hchk
        · cases hchk
        split at hchk
        · cases hchk
        split at hchk
        · cases hchk
        split at hchk
        · cases hchk
        split at hchk
        · cases hchk
        · rename_i hn
          apply hn
          simp only [Bool.true_and, hsome, decide_eq_true_eq, ne_eq, h', not_false_eq_true, decide_true, Bool.and_self]
  subst heq
  unfold segmentbyD at he ⊢
  simp only [h0, h0', hb, hbi, Option.getD_some, hr, hr', hA.snap, hA.label] at he ⊢
  split at he
  · cases he
  rename_i hns
  rw [if_neg hns]
  split at he
  · cases he
  rename_i hord
  rw [if_neg hord]
  split at he
  · cases he
  rename_i cl hcl
  cases sn with
  | none =>
    simp only at he ⊢
    simp only [Prod.mk.injEq, Except.ok.injEq] at he
    obtain ⟨rfl, rfl⟩ := he
    exact ⟨_, rfl, ⟨rfl, rfl, hA.chunk, _, rfl, hv1'⟩⟩
  | some x =>
    cases ordered with
    | none => cases he
    | some o =>
      simp only at he ⊢
      split at he
      · cases he
      rename_i ss sb hrs
      try simp only [hrs]
      split at he
      · cases he
      rename_i st bi' hms
      try simp only [hms]
      simp only [Prod.mk.injEq, Except.ok.injEq] at he
      obtain ⟨rfl, rfl⟩ := he
      exact ⟨_, rfl, ⟨rfl, rfl, hA.chunk, _, rfl, hv1'⟩⟩

/-- Calls with the columns of the last results. -/
theorem readable_of {ks : List (DCall D R)} {k : DCall D R} (hk : k.Ok dtype) {d : DictBuf B V} (hI : DictInv b0 spec ok ks d)
    (hw : withRows ks ≠ []) (hcols : ∀ k1, (withRows ks).getLast? = some k1 → ∀ n ∈ k.outs, n ∈ k1.outs) :
    ∃ c a, d.chunk = some c ∧ readChunk c k.cfg = some a := by
  obtain ⟨c, hc, hn⟩ := hI.chunk _ (List.getLast?_eq_some_getLast hw)
  have : (readChunk c k.cfg).isSome := by
    rw [readChunk_iff]
    intro n hn'
    rw [lookup_isSome_iff]
    exact (hn n).2 (hcols _ (List.getLast?_eq_some_getLast hw) n ((mem_names hk.cfg n).1 hn'))
  obtain ⟨a, ha⟩ := Option.isSome_iff_exists.1 this
  exact ⟨c, a, hc, ha⟩

/-- A call that is refused. -/
theorem call_refused (hR : Resumes fn valid) {ks : List (DCall D R)} {k : DCall D R} (hk : k.Ok dtype) {d' d : DictBuf B V}
    (hI : DictInv b0 spec ok ks d) (hw : withRows ks ≠ [])
    (hcols : ∀ k1, (withRows ks).getLast? = some k1 → ∀ n ∈ k.outs, n ∈ k1.outs) (hc : k.check = false)
    (hA : Alike valid d' d) (z : List (D × Group) → List (List V) → Bool) (left : List R → B → B) (ordered : Option (R → Int))
    {e : AggErr} {d1 : DictBuf B V} (h : k.call O get z b0 fn left ordered d' = (.error e, d1)) : Alike valid d1 d := by
  by_cases hp : k.rows = []
  · rw [call_nil O get k hp] at h; cases h
  obtain ⟨c, a, hch, hra⟩ := readable_of hk hI hw hcols
  have hsc := segmentbyD_chunk b0 fn left ordered k.snapBy k.rows d'
  unfold DCall.call cumsegaggD at h
  rw [show k.rows.isEmpty = false by simpa using hp, hc] at h
  simp only [Bool.false_eq_true, if_false, Bool.false_and] at h
  cases hx : segmentbyD b0 fn left ordered k.snapBy k.rows d' with
  | mk o d2 =>
    rw [hx] at h hsc
    cases o with
    | error e' =>
      simp only [Prod.mk.injEq] at h
      rw [← h.2]
      exact seg_refused hR left ordered k.snapBy hp hA hx
    | ok s =>
      exfalso
      simp only at h hsc
      have : prevChunk O k.cfg d2 = some a := by unfold prevChunk; rw [hsc, hA.chunk, hch]; exact hra
      rw [this] at h
      simp only at h
      cases h

include L in
/-- A call that returns. -/
theorem call_accepted (hR : Resumes fn valid) (hok : ∀ h b, h ≠ [] → ok h b → valid b) {ks : List (DCall D R)}
    {k : DCall D R} {d' d : DictBuf B V} (hI : DictInv b0 spec ok ks d) (hw : withRows ks ≠ [])
    (hs : AscOn pos (callRows (ks ++ [k]))) (hc : k.check = false)
    (hA : Alike valid d' d) (z : List (D × Group) → List (List V) → Bool) (left : List R → B → B) (ordered : Option (R → Int))
    {r : Option (Res (List (List V)))} {d1 : DictBuf B V} (h : k.call O get z b0 fn left ordered d' = (.ok r, d1)) :
    ∃ d2, k.call O get z b0 fn left ordered d = (.ok r, d2) ∧ Alike valid d1 d2 := by
  by_cases hp : k.rows = []
  · rw [call_nil O get k hp] at h ⊢
    simp only [Prod.mk.injEq] at h
    obtain ⟨h1, rfl⟩ := h
    exact ⟨d, by rw [h1], hA⟩
  have hcr : callRows (ks ++ [k]) = callRows ks ++ k.rows := by simp [callRows]
  rw [hcr] at hs
  have hne : callRows ks ≠ [] := by
    rw [← callRows_withRows]
    intro h0
    cases hwk : withRows ks with
    | nil => exact hw hwk
    | cons k0 l =>
      have : k0 ∈ withRows ks := by rw [hwk]; simp
      rw [hwk] at h0
      simp only [callRows, List.flatMap_cons, List.append_eq_nil_iff] at h0
      simp only [withRows, List.mem_filter, h0.1, List.isEmpty_nil, Bool.not_true, Bool.false_eq_true, and_false] at this
  obtain ⟨bi, hbi⟩ := Option.isSome_iff_exists.1 (hI.bin hw)
  have hoki : ok (callRows ks) bi := by
    have := hI.unit.bin
    simpa [unitBuf, segOf, hbi] using this
  have hlab : d.label = (spec (callRows ks)).getLast?.map Bin.label := hI.unit.label
  unfold DCall.call cumsegaggD at h ⊢
  rw [show k.rows.isEmpty = false by simpa using hp, hc] at h ⊢
  simp only [Bool.false_eq_true, if_false, Bool.false_and] at h ⊢
  cases hx : segmentbyD b0 fn left ordered k.snapBy k.rows d' with
  | mk o d2 =>
    rw [hx] at h
    cases o with
    | error e' => cases h
    | ok s =>
      obtain ⟨d3, hy, hA3⟩ := seg_accepted L hR hok left ordered k.snapBy hne hp hs hA hbi hoki hlab hx
      rw [hy]
      simp only at h ⊢
      have hpc : prevChunk O k.cfg d2 = prevChunk O k.cfg d3 := by unfold prevChunk; rw [hA3.chunk]
      rw [hpc, hA.label] at h
      cases hq : prevChunk O k.cfg d3 with
      | none => rw [hq] at h; cases h
      | some res =>
        rw [hq] at h
        simp only [Prod.mk.injEq, Except.ok.injEq] at h ⊢
        obtain ⟨rfl, rfl⟩ := h
        exact ⟨_, ⟨rfl, rfl⟩, ⟨hA3.snap, hA3.label, rfl, hA3.bin⟩⟩

/-- Calls put one after the other. -/
theorem dictRun_append (z : List (D × Group) → List (List V) → Bool) (left : List R → B → B) (ordered : Option (R → Int))
    (ks ks' : List (DCall D R)) : ∀ (d d1 d2 : DictBuf B V) (rs rs' : List (Option (Res (List (List V))))),
    dictRun O get z b0 fn left ordered ks d = .ok (rs, d1) → dictRun O get z b0 fn left ordered ks' d1 = .ok (rs', d2) →
    dictRun O get z b0 fn left ordered (ks ++ ks') d = .ok (rs ++ rs', d2) := by
  induction ks with
  | nil =>
    intro d d1 d2 rs rs' h h'
    simp only [dictRun, Except.ok.injEq, Prod.mk.injEq] at h
    obtain ⟨rfl, rfl⟩ := h
    exact h'
  | cons k ks ih =>
    intro d d1 d2 rs rs' h h'
    simp only [dictRun, List.cons_append] at h ⊢
    cases hk : k.call O get z b0 fn left ordered d with
    | mk o dd =>
      rw [hk] at h
      cases o with
      | error e => cases h
      | ok r =>
        simp only at h ⊢
        cases hd : dictRun O get z b0 fn left ordered ks dd with
        | error e => rw [hd] at h; cases h
        | ok x =>
          obtain ⟨rs1, d3⟩ := x
          rw [hd] at h
          simp only [Except.ok.injEq, Prod.mk.injEq] at h
          obtain ⟨rfl, rfl⟩ := h
          rw [ih dd d3 d2 rs1 rs' hd h']
          rfl

include L in
/-- Calls, some of which are refused: those that return give what they give without the others. -/
theorem try_run (hR : Resumes fn valid) (hok : ∀ h b, h ≠ [] → ok h b → valid b) (z : List (D × Group) → List (List V) → Bool)
    (left : List R → B → B) (outs : List Nat) (ks : List (DCall D R)) :
    ∀ (ks0 : List (DCall D R)) (d' d : DictBuf B V),
    (∀ k ∈ ks, k.Ok dtype ∧ k.check = false ∧ k.outs = outs) → DictInv b0 spec ok ks0 d → withRows ks0 ≠ [] →
    (∀ k1, (withRows ks0).getLast? = some k1 → k1.outs = outs) → Alike valid d' d →
    (∀ q, LabelsOk (spec q)) → (∀ q, AscOn pos q → Separated (c == .right) pos (spec q)) →
    AscOn pos (callRows (ks0 ++ (returned ks (dictTry O get z b0 fn left (some pos) ks d').1).map Prod.fst)) →
    ∃ d'', dictRun O get z b0 fn left (some pos) ((returned ks (dictTry O get z b0 fn left (some pos) ks d').1).map Prod.fst) d =
      .ok ((returned ks (dictTry O get z b0 fn left (some pos) ks d').1).map Prod.snd, d'') ∧
      Alike valid (dictTry O get z b0 fn left (some pos) ks d').2 d'' := by
  induction ks with
  | nil => intro ks0 d' d _ _ _ _ hA _ _ _; exact ⟨d, rfl, hA⟩
  | cons k ks ih =>
    intro ks0 d' d hk hI hw hlast hA hlab hsep hs
    obtain ⟨hk1, hk2, hk3⟩ := hk k (by simp)
    simp only [dictTry] at hs ⊢
    cases hx : k.call O get z b0 fn left (some pos) d' with
    | mk o d1 =>
      simp only [hx] at hs ⊢
      cases o with
      | error e =>
        simp only [returned] at hs ⊢
        have hA1 := call_refused O get hR hk1 hI hw (fun k1 h1 n hn => by rw [hlast k1 h1, ← hk3]; exact hn) hk2 hA z left
          (some pos) hx
        exact ih ks0 d1 d (fun x hx => hk x (by simp [hx])) hI hw hlast hA1 hlab hsep hs
      | ok r =>
        simp only [returned, List.map_cons] at hs ⊢
        have hpre : callRows (ks0 ++ [k]) <+: callRows (ks0 ++ k ::
            (returned ks (dictTry O get z b0 fn left (some pos) ks d1).1).map Prod.fst) := by
          simp [callRows]
        have hs1 : AscOn pos (callRows (ks0 ++ [k])) := hs.sublist hpre.sublist
        obtain ⟨d2, hc2, hA2⟩ := call_accepted O get L hR hok hI hw hs1 hk2 hA z left (some pos) hx
        obtain ⟨hI2, _⟩ := dict_step O get L hk1 hs1 (hlab _) (fun _ => hsep _ hs1) hI z left hc2
        have hwapp : withRows (ks0 ++ [k]) = withRows ks0 ++ withRows [k] := by simp [withRows]
        obtain ⟨d3, hr3, hA3⟩ := ih (ks0 ++ [k]) d1 d2 (fun x hx => hk x (by simp [hx])) hI2
          (by rw [hwapp]; simp [hw])
          (by
            intro k1 h1
            rw [hwapp, List.getLast?_append] at h1
            cases hl : (withRows [k]).getLast? with
            | none => rw [hl] at h1; exact hlast k1 (by simpa using h1)
            | some x =>
              rw [hl] at h1
              simp only [Option.some_or, Option.some.injEq] at h1
              subst h1
              have := List.mem_of_getLast? hl
              simp only [withRows, List.mem_filter, List.mem_singleton] at this
              rw [this.1, hk3])
          hA2 hlab hsep (by simpa using hs)
        refine ⟨d3, ?_, hA3⟩
        simp only [dictRun, hc2, hr3]

theorem returned_sub (ks : List (DCall D R)) : ∀ (os : List (Outcome V)) (k : DCall D R),
    k ∈ (returned ks os).map Prod.fst → k ∈ ks := by
  induction ks with
  | nil => intro os k hk; simp [returned] at hk
  | cons k0 ks ih =>
    intro os k hk
    cases os with
    | nil => simp [returned] at hk
    | cons o os =>
      cases o with
      | error e => exact List.mem_cons_of_mem _ (ih os k hk)
      | ok r =>
        simp only [returned, List.map_cons, List.mem_cons] at hk
        rcases hk with h | h
        · rw [h]; exact List.mem_cons_self
        · exact List.mem_cons_of_mem _ (ih os k h)

include L in
/-- From an empty dict, the first calls returning. -/
theorem try_history (hR : Resumes fn valid) (hok : ∀ h b, h ≠ [] → ok h b → valid b)
    (hlab : ∀ q, LabelsOk (spec q)) (hsep : ∀ q, AscOn pos q → Separated (c == .right) pos (spec q))
    (z : List (D × Group) → List (List V) → Bool) (left : List R → B → B) {outs : List Nat} {ks0 ks : List (DCall D R)}
    (hk : ∀ k ∈ ks0 ++ ks, k.Ok dtype ∧ k.outs = outs) (hc : ∀ k ∈ ks, k.check = false) (hw : withRows ks0 ≠ [])
    {rs : List (Option (Res (List (List V))))} {db : DictBuf B V}
    (h : dictRun O get z b0 fn left (some pos) ks0 {} = .ok (rs, db))
    (hs : AscOn pos (callRows (ks0 ++ (returned ks (dictTry O get z b0 fn left (some pos) ks db).1).map Prod.fst))) :
    (∃ db', dictRun O get z b0 fn left (some pos)
        (ks0 ++ (returned ks (dictTry O get z b0 fn left (some pos) ks db).1).map Prod.fst) {} =
      .ok (rs ++ (returned ks (dictTry O get z b0 fn left (some pos) ks db).1).map Prod.snd, db')) ∧
    ∀ out i f d, (∀ k ∈ ks0 ++ ks, (out, i, some f) ∈ k.agg) → dtype i = some d →
      glueCol out (ks0 ++ (returned ks (dictTry O get z b0 fn left (some pos) ks db).1).map Prod.fst)
          (rs ++ (returned ks (dictTry O get z b0 fn left (some pos) ks db).1).map Prod.snd) [] =
        colBins (O d) f (fun r => get r i)
          (spec (callRows (ks0 ++ (returned ks (dictTry O get z b0 fn left (some pos) ks db).1).map Prod.fst))) := by
  have hsub := returned_sub ks (dictTry O get z b0 fn left (some pos) ks db).1
  have hs0 : AscOn pos (callRows ks0) := by
    refine hs.sublist ?_
    simp only [callRows, List.flatMap_append]
    exact List.sublist_append_left _ _
  have hasc : ∀ {w q : List R}, q <+: w → AscOn pos w → AscOn pos q := fun hq hw => hw.sublist hq.sublist
  obtain ⟨hI, _⟩ := dict_history O get L z left ks0 (fun k h => (hk k (List.mem_append_left _ h)).1) hs0 (fun q _ => hlab q)
    (fun _ q hq => hsep q (hasc hq hs0)) h
  have hA : Alike valid db db := by
    refine ⟨rfl, rfl, rfl, ?_⟩
    obtain ⟨bi, hbi⟩ := Option.isSome_iff_exists.1 (hI.bin hw)
    refine ⟨bi, hbi, hok (callRows ks0) bi ?_ ?_⟩
    · intro h0
      rw [← callRows_withRows] at h0
      cases hwk : withRows ks0 with
      | nil => exact hw hwk
      | cons k0 l =>
        have hm : k0 ∈ withRows ks0 := by rw [hwk]; simp
        rw [hwk] at h0
        simp only [callRows, List.flatMap_cons, List.append_eq_nil_iff] at h0
        simp only [withRows, List.mem_filter, h0.1, List.isEmpty_nil, Bool.not_true, Bool.false_eq_true, and_false] at hm
    · have := hI.unit.bin
      simpa [unitBuf, segOf, hbi] using this
  obtain ⟨d3, hr3, _⟩ := try_run O get L hR hok z left outs ks ks0 db db
    (fun k h => ⟨(hk k (List.mem_append_right _ h)).1, hc k h, (hk k (List.mem_append_right _ h)).2⟩) hI hw
    (by
      intro k1 h1
      have hm := List.mem_of_getLast? h1
      simp only [withRows, List.mem_filter] at hm
      exact (hk k1 (List.mem_append_left _ hm.1)).2) hA hlab hsep hs
  have hall := dictRun_append O get z left (some pos) _ _ _ _ _ _ _ h hr3
  refine ⟨⟨d3, hall⟩, fun out i f d he hd => ?_⟩
  refine (dict_history O get L z left _ (fun k h => ?_) hs (fun q _ => hlab q) (fun _ q hq => hsep q (hasc hq hs)) hall).2
    out i f d (fun k h => ?_) hd
  · rcases List.mem_append.1 h with h' | h'
    · exact (hk k (List.mem_append_left _ h')).1
    · exact (hk k (List.mem_append_right _ (hsub k h'))).1
  · rcases List.mem_append.1 h with h' | h'
    · exact he k (List.mem_append_left _ h')
    · exact he k (List.mem_append_right _ (hsub k h'))

end
end Oups.Agg
