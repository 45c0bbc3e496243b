import Verif.Proofs.SegmentSeries
/-! Property C56: snapshots given as explicit points. -/
set_option linter.unusedSimpArgs false
namespace Oups.Segment
open Spec

/-! ### Specification

`last` is the last point observed so far, `prev` the position of the last row so far. -/

/-- The points `P` (label, position) allow to go on: there is one, the last observed point is among them, and when
that one is already passed, no later point but it has been passed too. -/
def MayContinue (right : Bool) (last prev : Option Int) (P : List (Int × Int)) : Prop :=
  match prev with
  | none => True
  | some y => P ≠ [] ∧ (∀ k, last = some k → k ∈ P.map Prod.snd) ∧
      ((∀ k, last = some k → within right k y = false) →
        ∀ e ∈ ((P.map Prod.snd).filter (fun e => decide (∀ k, last = some k → k ≤ e))).tail, within right e y = true)

instance (right : Bool) (last prev : Option Int) (P : List (Int × Int)) : Decidable (MayContinue right last prev P) := by
  unfold MayContinue; cases prev <;> infer_instance

/-- Points still to observe: not before the last observed one and not yet passed. -/
def due (right : Bool) (last prev : Option Int) (P : List (Int × Int)) : List (Int × Int) :=
  P.filter (fun p => decide ((∀ k, last = some k → k ≤ p.2) ∧ (∀ y, prev = some y → within right p.2 y = true)))

/-- Points observed by rows ending at `y`: up to the first one not passed. -/
def observed (right : Bool) (y : Int) (O : List (Int × Int)) : List (Int × Int) :=
  O.take ((O.takeWhile (fun p => !within right p.2 y)).length + 1)

/-- Successive calls with their points and rows: for each call, the points observed and for each of them the number
of rows of the call before it; or `none` when a call does not allow to continue. -/
def specCalls (right : Bool) : Option Int → Option Int → List (List (Int × Int) × List Int) →
    Option (List (List Int × List Nat))
  | _, _, [] => some []
  | last, prev, (P, on) :: calls =>
    if MayContinue right last prev P then
      let y := on.getLastD 0
      let o := observed right y (due right last prev P)
      (specCalls right (o.getLast?.map Prod.snd <|> last) (some y) calls).map fun r =>
        (o.map Prod.fst, o.map fun p => on.countP (within right p.2)) :: r
    else none

/-- The calls as made by the code, with their shared buffer. -/
def runCalls (closed : Closed) : ScaleBuf → List (List (Int × Int) × List Int) →
    Except Err (List (List Int × List Nat))
  | _, [] => .ok []
  | b, (P, on) :: calls =>
    match bySeries (P.map Prod.fst) (P.map Prod.snd) (some closed) on (some b) with
    | .error e => .error e
    | .ok (s, b') =>
      match runCalls closed (b'.getD b) calls with
      | .error e => .error e
      | .ok r => .ok ((s.labels, s.starts) :: r)

/-! ### Proofs -/

theorem upTo_map_rank {α : Type} (n : Nat) (rank : α → Nat) (cover : α → Bool) (O : List α)
    (h : ∀ p ∈ O, rank p = n ↔ cover p = true) :
    upTo n (O.map rank) = (O.take ((O.takeWhile (fun p => !cover p)).length + 1)).map rank := by
  induction O with
  | nil => rfl
  | cons a O ih =>
    have ha := h a (by simp)
    simp only [List.map_cons, upTo]
    by_cases hc : cover a = true
    · rw [if_pos (ha.2 hc), List.takeWhile_cons_of_neg (by simp [hc])]; simp
    · rw [if_neg (fun hx => hc (ha.1 hx)), List.takeWhile_cons_of_pos (by simpa using hc),
        ih (fun p hp => h p (by simp [hp]))]
      simp

/-- Buffer and state of the specification. -/
def Matches (right : Bool) (last prev : Option Int) (b : ScaleBuf) : Prop :=
  serOk right prev b ∧ b.restart = last

theorem restartable_iff {right : Bool} {last prev : Option Int} {b : ScaleBuf} {P : List (Int × Int)}
    (h : Matches right last prev b) : Restartable right prev b P ↔ MayContinue right last prev P := by
  obtain ⟨h1, rfl⟩ := h
  cases prev with
  | none => exact Iff.rfl
  | some y =>
    have : b.lastOn.isSome = true ↔ ∀ k, b.restart = some k → within right k y = false := by
      obtain ⟨k, l⟩ := b
      cases k <;> cases l <;> simp_all [serOk]
    simp only [Restartable, MayContinue, this]

theorem nextChunkStarts_ne (on : List Int) (e : Int) (es : List Int) (right : Bool) :
    (nextChunkStarts on (e :: es) right).1 ≠ [] := by
  unfold nextChunkStarts chunkLoop
  simp only
  split <;> simp

theorem getLast?_orElse (l : List Int) (o : Option Int) (h : l ≠ []) :
    some (l.getD (l.length - 1) 0) = (l.getLast? <|> o) := by
  rw [List.getLast?_eq_getElem?, List.getD_eq_getElem?_getD,
    List.getElem?_eq_getElem (by have := List.length_pos_iff.2 h; omega)]
  rfl

/-- Restart key after a call: the last point observed, if any. -/
theorem bySeries_restart (labels ends : List Int) (closed : Closed) (on : List Int) (b b' : ScaleBuf) (s : Seg)
    (h : bySeries labels ends (some closed) on (some b) = .ok (s, some b')) (hl : s.ends.length = s.starts.length) :
    b'.restart = (s.ends.getLast? <|> b.restart) := by
  have hfin : ∀ l e (c : ScaleBuf), (s, some b') = seriesFinish l e closed on (some c) → c.restart = b.restart →
      b'.restart = (s.ends.getLast? <|> b.restart) := by
    intro l e c hx hc
    unfold seriesFinish at hx
    split at hx
    · rename_i hemp
      simp only [Option.map_some, Prod.mk.injEq, Option.some.injEq] at hx
      obtain ⟨rfl, rfl⟩ := hx
      have : e = [] := by simpa using hemp
      simp [this, hc]
    · simp only [scaleFinish, Bool.and_false, Bool.false_eq_true, if_false] at hx
      rename_i hemp
      have hne : (nextChunkStarts on e (closed == .right)).1 ≠ [] := by
        cases e with
        | nil => simp at hemp
        | cons e0 es => exact nextChunkStarts_ne on e0 es _
      have hpos := List.length_pos_iff.2 hne
      split at hx
      all_goals
        simp only [Option.map_some, Prod.mk.injEq, Option.some.injEq] at hx
        obtain ⟨rfl, rfl⟩ := hx
        simp only at hl ⊢
        rw [← getLast?_orElse _ _ (List.length_pos_iff.1 (by rw [hl]; exact hpos)), hl]
  unfold bySeries at h
  simp only at h
  split at h; · cases h
  split at h
  · split at h; · cases h
    rename_i l e hr
    simp only [Except.ok.injEq] at h
    exact hfin l e _ h.symm rfl
  · simp only [Except.ok.injEq] at h
    exact hfin _ _ _ h.symm rfl

theorem matches_step (closed : Closed) (last prev : Option Int) (P : List (Int × Int)) (on : List Int)
    (hP : Points P) (hs : Asc on) (hne : on ≠ []) (hle : ∀ z, prev = some z → ∀ v ∈ on, z ≤ v) (b : ScaleBuf)
    (hb : Matches (closed == .right) last prev b) :
    (MayContinue (closed == .right) last prev P →
      ∃ s b', bySeries (P.map Prod.fst) (P.map Prod.snd) (some closed) on (some b) = .ok (s, some b') ∧
        s.labels = (observed (closed == .right) (on.getLastD 0) (due (closed == .right) last prev P)).map Prod.fst ∧
        s.ends = (observed (closed == .right) (on.getLastD 0) (due (closed == .right) last prev P)).map Prod.snd ∧
        s.starts = (observed (closed == .right) (on.getLastD 0) (due (closed == .right) last prev P)).map
          (fun p => on.countP (within (closed == .right) p.2)) ∧
        Matches (closed == .right)
          ((observed (closed == .right) (on.getLastD 0) (due (closed == .right) last prev P)).getLast?.map Prod.snd <|> last)
          (some (on.getLastD 0)) b') ∧
    (¬ MayContinue (closed == .right) last prev P →
      ∃ e, bySeries (P.map Prod.fst) (P.map Prod.snd) (some closed) on (some b) = .error e) := by
  obtain ⟨y, hy⟩ := Option.ne_none_iff_exists'.1 (by simpa using hne : on.getLast? ≠ none)
  have hyl : on.getLastD 0 = y := getLastD_eq hy
  rw [hyl]
  obtain ⟨s1, s2⟩ := bySeries_step closed P hP prev b hb.1 on hs y hy
    (fun z hz => hle z hz y (List.mem_of_getLast? hy))
  rw [restartable_iff hb] at s1 s2
  refine ⟨fun h => ?_, s2⟩
  obtain ⟨b', e1, e2⟩ := s1 h
  have hdue : toObserve (closed == .right) prev b P = due (closed == .right) last prev P := by
    rw [toObserve, due, hb.2]
  rw [hdue] at e1
  set O := due (closed == .right) last prev P with hO
  have hup : upTo on.length (ranksOf (closed == .right) on O) =
      (observed (closed == .right) y O).map (fun p => on.countP (within (closed == .right) p.2)) :=
    upTo_map_rank on.length (fun p : Int × Int => on.countP (within (closed == .right) p.2)) (fun p : Int × Int => within (closed == .right) p.2 y) O (fun p _ => rank_eq_length hs hy)
  have htake : O.take (upTo on.length (ranksOf (closed == .right) on O)).length = observed (closed == .right) y O := by
    rw [hup, List.length_map, observed, List.length_take]
    rcases Nat.le_total ((O.takeWhile (fun p => !within (closed == .right) p.2 y)).length + 1) O.length with h' | h'
    · rw [Nat.min_eq_left h']
    · rw [Nat.min_eq_right h', List.take_length, List.take_of_length_le h']
  simp only [htake] at e1
  refine ⟨_, b', e1, rfl, rfl, hup, e2, ?_⟩
  rw [bySeries_restart _ _ _ _ _ _ _ e1 (by simp [hup]), List.getLast?_map, hb.2]

/-- Whatever the points given at each call: if every call allows to continue, each one observes exactly the points
still due, up to the first one not yet passed by the rows, with the number of rows before each; otherwise an
exception is raised. (Positional access, as for a `DatetimeIndex`.) -/
theorem C56_calls (closed : Closed) (calls : List (List (Int × Int) × List Int))
    (hP : ∀ c ∈ calls, Points c.1) (hne : ∀ c ∈ calls, c.2 ≠ []) (hs : Asc (calls.map Prod.snd).flatten) :
    (runCalls closed {} calls).toOption = specCalls (closed == .right) none none calls := by
  have gen : ∀ (calls : List (List (Int × Int) × List Int)) (last prev : Option Int) (b : ScaleBuf),
      (∀ c ∈ calls, Points c.1) → (∀ c ∈ calls, c.2 ≠ []) → Asc (calls.map Prod.snd).flatten →
      (∀ z, prev = some z → ∀ v ∈ (calls.map Prod.snd).flatten, z ≤ v) →
      Matches (closed == .right) last prev b →
      (runCalls closed b calls).toOption = specCalls (closed == .right) last prev calls := by
    intro calls
    induction calls with
    | nil => intro last prev b _ _ _ _ _; rfl
    | cons c calls ih =>
      intro last prev b hP hne hs hle hb
      obtain ⟨P, on⟩ := c
      simp only [List.map_cons, List.flatten_cons] at hs hle
      have hs' := List.pairwise_append.1 hs
      obtain ⟨m1, m2⟩ := matches_step closed last prev P on (hP (P, on) (by simp)) hs'.1 (hne (P, on) (by simp))
        (fun z hz v hv => hle z hz v (by simp [hv])) b hb
      unfold runCalls specCalls
      by_cases hc : MayContinue (closed == .right) last prev P
      · rw [if_pos hc]
        obtain ⟨s, b', e1, e2, _, e3, e4⟩ := m1 hc
        rw [e1]
        simp only [Option.getD_some]
        have hon : on ≠ [] := hne (P, on) (by simp)
        have := ih _ (some (on.getLastD 0)) b' (fun c h => hP c (by simp [h])) (fun c h => hne c (by simp [h]))
          hs'.2.1 (by
            rintro z hz v hv
            injection hz with hz
            subst hz
            obtain ⟨y, hy⟩ := Option.ne_none_iff_exists'.1 (by simpa using hon : on.getLast? ≠ none)
            rw [getLastD_eq hy]
            exact hs'.2.2 y (List.mem_of_getLast? hy) v hv) e4
        rw [← this]
        cases hr : runCalls closed b' calls with
        | error e => rfl
        | ok r =>
          simp only [Except.toOption, Option.map_some, e2, e3]
      · rw [if_neg hc]
        obtain ⟨e, he⟩ := m2 hc
        rw [he]; rfl
  exact gen calls none none {} hP hne hs (by simp) ⟨rfl, rfl⟩

/-- **C56** Explicit ends are refused without a closure, or with another number of labels. -/
theorem C56_rejected (labels ends : List Int) (closed : Option Closed) (on : List Int) (buf : Option ScaleBuf)
    (h : closed = none ∨ labels.length ≠ ends.length) :
    bySeries labels ends closed on buf = .error (if closed = none then .closedUnset else .tupleSizes) := by
  cases closed with
  | none => rfl
  | some c =>
    rcases h with h | h
    · cases h
    · simp [bySeries, h]

example : bySeries [1, 2] [3] (some .left) [0] none = .error .tupleSizes := C56_rejected _ _ _ _ _ (Or.inr (by decide))

/-- With one and the same non-empty list of points at each call, no call is refused. -/
theorem C56_fixed_points (right : Bool) (P : List (Int × Int)) (hP : Points P) (h0 : P ≠ []) (rows : List (List Int)) :
    ∃ r, specCalls right none none (rows.map fun on => (P, on)) = some r := by
  have gen : ∀ (rows : List (List Int)) (last prev : Option Int),
      (∀ k, last = some k → k ∈ P.map Prod.snd) →
      (∀ y, prev = some y → (∃ k, last = some k ∧ (within right k y = false → ∀ e ∈ P.map Prod.snd, e ≤ k))) →
      (prev = none → last = none) →
      ∃ r, specCalls right last prev (rows.map fun on => (P, on)) = some r := by
    intro rows
    induction rows with
    | nil => intro _ _ _ _ _; exact ⟨_, rfl⟩
    | cons on rows ih =>
      intro last prev hl hp hn
      have hmay : MayContinue right last prev P := by
        unfold MayContinue
        cases prev with
        | none => trivial
        | some y =>
          obtain ⟨k, hk, hk'⟩ := hp y rfl
          refine ⟨h0, hl, fun hpass e he => ?_⟩
          have hle := hk' (hpass k hk)
          have hsorted : ((P.map Prod.snd).filter (fun e => decide (∀ k, last = some k → k ≤ e))).Pairwise (· < ·) := by
            refine List.Pairwise.sublist List.filter_sublist ?_
            rw [List.pairwise_map]; exact hP
          generalize hF : (P.map Prod.snd).filter (fun e => decide (∀ k, last = some k → k ≤ e)) = F at he hsorted
          have hFm : ∀ x ∈ F, k ≤ x ∧ x ≤ k := by
            intro x hx
            rw [← hF, List.mem_filter] at hx
            exact ⟨by simpa [hk] using hx.2, hle x hx.1⟩
          cases F with
          | nil => cases he
          | cons f F =>
            have h1 := (List.pairwise_cons.1 hsorted).1 e he
            have h2 := hFm f (by simp)
            have h3 := hFm e (by simp only [List.tail_cons] at he; simp [he])
            omega
      simp only [List.map_cons, specCalls, if_pos hmay]
      set y := on.getLastD 0
      set O := due right last prev P with hO
      have hOP : Points O := hP.sublist List.filter_sublist
      have hup : ∀ x ∈ O, ∀ z ∈ P, z ∉ O → z.2 < x.2 := by
        intro x hx z hz hzO
        by_contra hlt
        apply hzO
        rw [hO, due, List.mem_filter] at hx ⊢
        simp only [decide_eq_true_eq] at hx ⊢
        refine ⟨hz, fun k hk => ?_, fun w hw => within_mono_edge (by omega) (hx.2.2 w hw)⟩
        have := hx.2.1 k hk; omega
      have hrec : ∃ r, specCalls right ((observed right y O).getLast?.map Prod.snd <|> last) (some y)
          (rows.map fun on => (P, on)) = some r := by
        by_cases hOe : O = []
        · rw [hOe]
          simp only [observed, List.take_nil, List.getLast?_nil, Option.map_none]
          cases prev with
          | none =>
            exfalso
            rw [hO, due, hn rfl] at hOe
            have : P = [] := by simpa using hOe
            exact h0 this
          | some y0 =>
            obtain ⟨k, hk, hk'⟩ := hp y0 rfl
            refine ih last (some y) hl ?_ (by simp)
            rintro y' -
            refine ⟨k, hk, fun _ => hk' ?_⟩
            by_contra hw
            have hw : within right k y0 = true := by simpa using hw
            obtain ⟨p, hpm, hpk⟩ := List.mem_map.1 (hl k hk)
            have : p ∈ O := by
              rw [hO, due, List.mem_filter]
              refine ⟨hpm, ?_⟩
              simp [hk, hpk, hw]
            rw [hOe] at this; cases this
        · have hone : observed right y O ≠ [] := by
            have := List.length_pos_iff.2 hOe
            intro hx
            have := congrArg List.length hx
            rw [observed, List.length_take, List.length_nil] at this
            omega
          obtain ⟨p, hpl⟩ := Option.ne_none_iff_exists'.1 (by simpa using hone : (observed right y O).getLast? ≠ none)
          have hpO : p ∈ O := (List.take_sublist _ _).subset (List.mem_of_getLast? hpl)
          have hpP : p ∈ P := (List.filter_sublist).subset hpO
          rw [hpl]
          refine ih _ (some y) (by rintro k hk; simp at hk; exact hk ▸ List.mem_map.2 ⟨p, hpP, rfl⟩) ?_ (by simp)
          rintro y' hy'
          injection hy' with hy'
          refine ⟨p.2, rfl, fun hw e he => ?_⟩
          rw [← hy'] at hw
          -- the last observed point is the last of all
          have hall : observed right y O = O := by
            unfold observed at hpl ⊢
            apply List.take_of_length_le
            by_contra hlt
            have hlt : (O.takeWhile (fun p => !within right p.2 y)).length + 1 ≤ O.length - 1 + 1 := by omega
            have hlt2 : (O.takeWhile (fun p => !within right p.2 y)).length < O.length := by omega
            have hg : p = O[(O.takeWhile (fun p => !within right p.2 y)).length] := by
              rw [List.getLast?_eq_getElem?, List.length_take, Nat.min_eq_left (by omega), Nat.add_sub_cancel,
                List.getElem?_take_of_lt (by omega), List.getElem?_eq_getElem hlt2] at hpl
              exact (Option.some.inj hpl).symm
            have hdw : O.dropWhile (fun p => !within right p.2 y) =
                O.drop (O.takeWhile (fun p => !within right p.2 y)).length := by
              conv_rhs => rw [← List.takeWhile_append_dropWhile (p := fun p : Int × Int => !within right p.2 y) (l := O)]
              rw [List.drop_append_of_le_length (by simp [List.takeWhile_append_dropWhile]),
                List.takeWhile_append_dropWhile, List.drop_of_length_le (Nat.le_refl _), List.nil_append]
            have hhead : (O.dropWhile (fun p => !within right p.2 y)).head? = some p := by
              rw [hdw, List.head?_drop, List.getElem?_eq_getElem hlt2, hg]
            have := List.head?_dropWhile_not (fun p : Int × Int => !within right p.2 y) O
            rw [hhead] at this
            simp [hw] at this
          rw [hall] at hpl
          obtain ⟨z, hz, rfl⟩ := List.mem_map.1 he
          by_cases hzO : z ∈ O
          · obtain ⟨l, hl'⟩ := List.getLast?_eq_some_iff.1 hpl
            rw [hl'] at hzO hOP
            rcases List.mem_append.1 hzO with h | h
            · exact Int.le_of_lt ((List.pairwise_append.1 hOP).2.2 z h p (by simp))
            · simp at h; rw [h]
          · exact Int.le_of_lt (hup p hpO z hz hzO)
      obtain ⟨r, hr⟩ := hrec
      exact ⟨_, by rw [hr]; rfl⟩
  exact gen rows none none (by simp) (by simp) (by simp)

/-- Three calls over five points: the points passed are not observed again, the one in progress is. -/
example : runCalls .left {} [([(1, 1), (5, 5), (9, 9)], [2, 6]), ([(1, 1), (5, 5), (9, 9)], [7, 8]),
      ([(9, 9), (20, 20), (30, 30)], [11, 25])] =
    .ok [([1, 5, 9], [0, 1, 2]), ([9], [2]), ([9, 20, 30], [0, 1, 2])] := by decide

/-- The restart is refused when the last observed point is missing. -/
example : runCalls .left {} [([(1, 1), (5, 5)], [2]), ([(7, 7)], [6])] = .error .restartKeyMissing := by decide

/-- Points given as a pandas `Series`: `chunk_ends[0]` is a look-up by index label, which is lost by trimming. The
same list at the second call raises `KeyError`. -/
theorem C56_series_same_list_fails : ∃ (by_ on on' : List Int) (r : List Nat × List Int) (b : ScaleBuf),
    by_.Pairwise (· < ·) ∧ Asc (on ++ on') ∧ bySer by_ .left on {} = .ok (r.1, r.2, b) ∧
    bySer by_ .left on' b = .error .keyError ∧
    (∃ r', runCalls .left {} [(by_.map (fun e => (e, e)), on), (by_.map (fun e => (e, e)), on')] = .ok r') :=
  ⟨[1, 5, 9], [2], [3], ([0, 1], [1, 5]), ⟨some 5, none⟩, by decide, by decide, by decide, by decide, ⟨_, rfl⟩⟩

/-- And after the removal of a completed point, `chunk_ends[n_chunks - 1]` is the last but one end: the restart key
recorded is not that of the point in progress (here 5 instead of 9). -/
theorem C56_series_restart_key_fails : ∃ (first second on on' : List Int) (b : ScaleBuf) (r r' : List Nat × List Int) (b' : ScaleBuf),
    first.Pairwise (· < ·) ∧ second.Pairwise (· < ·) ∧ Asc (on ++ on') ∧
    bySer first .left on {} = .ok (r.1, r.2, b) ∧ bySer second .left on' b = .ok (r'.1, r'.2, b') ∧
    r'.2.getLast? ≠ b'.restart :=
  ⟨[1], [1, 5, 9], [2], [3, 6], ⟨some 1, some 2⟩, ([0], [1]), ([1, 2], [5, 9]), ⟨some 5, none⟩,
    by decide, by decide, by decide, by decide, by decide, by decide⟩

/-- Points given as a pandas `Series`, restarts: with a first point other than the last observed one, the call is refused, be it
because points are missing or, as above, because earlier points are given again. -/
theorem C56_series_refused (x : Int) (l : List Int) (closed : Closed) (on : List Int) (b : ScaleBuf) {k : Int}
    (hb : b.restart = some k) (hx : x ≠ k) :
    bySer (x :: l) closed on b = .error (if x < k then .keyError else .restartKeyMissing) := by
  have ht : b.truthy = true := by simp [ScaleBuf.truthy, hb]
  have h0 : Ser.ofList (x :: l) = (0, x) :: (l.zipIdx 1).map (fun p => (p.2, p.1)) := by simp [Ser.ofList]
  have hg : Ser.get (Ser.ofList (x :: l)) 0 = .ok x := by rw [h0]; rfl
  have hrest : ∀ f : Nat × Int → Bool, Ser.get (((l.zipIdx 1).map (fun p => (p.2, p.1))).filter f) 0 = .error .keyError := by
    intro f
    have : (((l.zipIdx 1).map (fun p => (p.2, p.1))).filter f).find? (fun p => p.1 == 0) = none := by
      rw [List.find?_eq_none]
      rintro ⟨n, v⟩ h
      have h1 := (List.mem_filter.1 h).1
      obtain ⟨⟨v', n'⟩, h2, h3⟩ := List.mem_map.1 h1
      have h4 := List.le_snd_of_mem_zipIdx h2
      cases h3
      simp only [beq_iff_eq] at *
      omega
    rw [Ser.get, this]
  have hr : serRestart (Ser.ofList (x :: l)) closed b = .error (if x < k then .keyError else .restartKeyMissing) := by
    simp only [serRestart, hb, bind, Except.bind, hg, hx, if_false]
    rw [h0, List.filter_cons]
    by_cases hlt : x < k
    · have : decide (k ≤ x) = false := by simp [hlt]
      simp only [this, Bool.false_eq_true, if_false, hrest, hlt, if_true]
    · have : decide (k ≤ x) = true := by simp; omega
      simp only [this, if_true, hlt, if_false]
      have : Ser.get ((0, x) :: ((l.zipIdx 1).map (fun p => (p.2, p.1))).filter fun p => decide (k ≤ p.2)) 0 = .ok x := rfl
      simp only [this, ne_eq, hx, not_false_eq_true, if_true]
      rfl
  simp only [bySer, ht, if_true, bind, Except.bind, hr]

example : bySer [7, 9] .left [6] ⟨some 5, none⟩ = .error .restartKeyMissing ∧
    bySer [1, 5, 9] .left [6] ⟨some 5, none⟩ = .error .keyError ∧
    bySer [5, 9] .left [6] ⟨some 5, none⟩ = .ok ([0, 1], [5, 9], ⟨some 9, none⟩) := by decide

/-! ### Points given as a pandas `Series` -/

/-- Index labels from `m` on. -/
def serAt (m : Nat) (l : List Int) : Ser := (l.zipIdx m).map fun p => (p.2, p.1)

theorem serAt_get (m : Nat) (l : List Int) (i : Nat) : (serAt m l).get i =
    match (if m ≤ i then l[i - m]? else none) with
    | some v => .ok v
    | none => .error .keyError := by
  have key : (serAt m l).find? (fun p => p.1 == i) = (if m ≤ i then l[i - m]? else none).map fun v => (i, v) := by
    induction l generalizing m with
    | nil => simp [serAt]
    | cons x l ih =>
      have hc : serAt m (x :: l) = (m, x) :: serAt (m + 1) l := by simp [serAt]
      rw [hc, List.find?_cons]
      by_cases h : m = i
      · subst h; simp
      · have : ((m, x).1 == i) = false := by simpa using h
        simp only [this, ih]
        by_cases hle : m ≤ i
        · rw [if_pos hle, if_pos (by omega), show i - m = (i - (m + 1)) + 1 by omega, List.getElem?_cons_succ]
        · rw [if_neg hle, if_neg (by omega)]
  rw [Ser.get, key]
  cases (if m ≤ i then l[i - m]? else none) <;> rfl

theorem serAt_snd (m : Nat) (l : List Int) : (serAt m l).map Prod.snd = l := by
  induction l generalizing m with
  | nil => rfl
  | cons x l ih =>
    have hc : serAt m (x :: l) = (m, x) :: serAt (m + 1) l := by simp [serAt]
    rw [hc, List.map_cons, ih]

theorem serAt_take (m : Nat) (l : List Int) (n : Nat) : (serAt m l).take n = serAt m (l.take n) := by
  induction l generalizing m n with
  | nil => simp [serAt]
  | cons x l ih =>
    have hc : ∀ m l, serAt m (x :: l) = (m, x) :: serAt (m + 1) l := by simp [serAt]
    cases n with
    | zero => rfl
    | succ n => rw [hc, List.take_succ_cons, List.take_succ_cons, ih, hc]

theorem serAt_isEmpty (m : Nat) (l : List Int) : (serAt m l).isEmpty = l.isEmpty := by
  cases l <;> simp [serAt]

theorem chunkLoop_count (right : Bool) (data : List Int) : ∀ (edges : List Int) (d prev : Nat),
    let r := chunkLoop right data edges d prev
    r.1.length ≤ edges.length ∧ (edges ≠ [] → 0 < r.1.length) ∧ (r.2.2 = false → r.1.length = edges.length) := by
  intro edges
  induction edges with
  | nil => intro d prev; simp [chunkLoop]
  | cons e edges ih =>
    intro d prev
    simp only [chunkLoop]
    split
    · simp
    · have := ih (d + (scan (beyond right e) 0 (data.drop d)).1)
        (if prev = d + (scan (beyond right e) 0 (data.drop d)).1 then prev else d + (scan (beyond right e) 0 (data.drop d)).1)
      simp only [List.length_cons] at this ⊢
      refine ⟨by omega, fun _ => by omega, fun h => ?_⟩
      rw [this.2.2 h]

/-- End of `by_scale` with a `Series` of which the first label is `m`, compared with points accessed by position. -/
theorem serFinish_eq (m : Nat) (l : List Int) (hl : l ≠ []) (closed : Closed) (on : List Int) (b : ScaleBuf) :
    let r := scaleFinish false on l l closed (some b)
    serFinish (serAt m l) closed on b =
      match (if m ≤ r.1.starts.length - 1 then r.1.ends[r.1.starts.length - 1 - m]? else none) with
      | none => .error .keyError
      | some v => .ok (r.1.starts, r.1.ends, { (r.2.getD {}) with restart := some v }) := by
  have he : (serAt m l).isEmpty = false := by rw [serAt_isEmpty]; cases l <;> simp_all
  simp only [serFinish, he, Bool.false_eq_true, if_false, serAt_snd, scaleFinish]
  obtain ⟨h1, h2, h3⟩ := chunkLoop_count (closed == .right) on l 0 0
  simp only [nextChunkStarts]
  obtain ⟨starts, nn, tr, hq⟩ : ∃ a b c, chunkLoop (closed == .right) on l 0 0 = (a, b, c) := ⟨_, _, _, rfl⟩
  simp only [hq] at h1 h2 h3 ⊢
  cases tr with
  | true =>
    simp only [if_true, Bool.and_false, Bool.false_eq_true, if_false, serAt_take, serAt_snd, serAt_get, Option.map_some, Option.getD_some,
      Bool.and_eq_true, and_false]
    cases (if m ≤ starts.length - 1 then (l.take starts.length)[starts.length - 1 - m]? else none) <;> rfl
  | false =>
    simp only [Bool.false_eq_true, if_false, serAt_get, serAt_snd, Option.map_some, Option.getD_some]
    cases (if m ≤ starts.length - 1 then l[starts.length - 1 - m]? else none) <;> rfl

theorem scaleFinish_last (l : List Int) (hl : l ≠ []) (closed : Closed) (on : List Int) (b : ScaleBuf) :
    let r := scaleFinish false on l l closed (some b)
    ∃ b', r.2 = some b' ∧ b'.restart = r.1.ends[r.1.starts.length - 1]? ∧ r.1.starts ≠ [] ∧ r.1.starts.length = r.1.ends.length ∧
      r.1.ends <+: l := by
  simp only [scaleFinish]
  obtain ⟨h1, h2, h3⟩ := chunkLoop_count (closed == .right) on l 0 0
  simp only [nextChunkStarts]
  obtain ⟨starts, nn, tr, hq⟩ : ∃ a b c, chunkLoop (closed == .right) on l 0 0 = (a, b, c) := ⟨_, _, _, rfl⟩
  simp only [hq] at h1 h2 h3 ⊢
  have h2 := h2 hl
  cases tr with
  | true =>
    simp only [if_true, Bool.and_false, Bool.false_eq_true, if_false, Option.map_some]
    refine ⟨_, rfl, ?_, List.length_pos_iff.1 h2, by simp; omega, List.take_prefix _ _⟩
    rw [List.getD_eq_getElem?_getD]
    have : starts.length - 1 < (l.take starts.length).length := by simp; omega
    rw [List.getElem?_eq_getElem this]; rfl
  | false =>
    simp only [Bool.false_eq_true, if_false, Option.map_some]
    have h3 := h3 rfl
    refine ⟨_, rfl, ?_, List.length_pos_iff.1 h2, h3, List.prefix_rfl⟩
    rw [List.getD_eq_getElem?_getD]
    have : starts.length - 1 < l.length := by omega
    rw [List.getElem?_eq_getElem this]; rfl

theorem ofList_serAt (l : List Int) : Ser.ofList l = serAt 0 l := rfl

theorem bySer_restart (x : Int) (r : List Int) (closed : Closed) (b : ScaleBuf) (hb : b.restart = none ∨ b.restart = some x) :
    serRestart (Ser.ofList (x :: r)) closed b =
      match b.lastOn with
      | none => .ok (serAt 0 (x :: r), b)
      | some l =>
        if (match r with | [] => false | y :: _ => endBefore closed l y) then .error .secondEnd
        else if endBefore closed l x then .ok (serAt 1 r, { b with lastOn := none })
        else .ok (serAt 0 (x :: r), { b with lastOn := none }) := by
  have hg : (serAt 0 (x :: r)).get 0 = .ok x := by rw [serAt_get]; rfl
  have h1 : serRestart (Ser.ofList (x :: r)) closed b = (match b.lastOn with
      | none => pure (serAt 0 (x :: r), b)
      | some l => do
        if (serAt 0 (x :: r)).length > 1 then
          if endBefore closed l (← (serAt 0 (x :: r)).get 1) then throw .secondEnd
        let b := { b with lastOn := none }
        if endBefore closed l (← (serAt 0 (x :: r)).get 0) then pure ((serAt 0 (x :: r)).drop 1, b) else pure (serAt 0 (x :: r), b)) := by
    rw [ofList_serAt]
    unfold serRestart
    rcases hb with hb | hb
    · rw [hb]; rfl
    · rw [hb]
      simp only [bind, Except.bind, hg, if_true]
      rfl
  rw [h1]
  cases b.lastOn with
  | none => rfl
  | some l =>
    cases r with
    | nil =>
      have hlen : ¬ (serAt 0 [x]).length > 1 := by simp [serAt]
      simp only [hlen, if_false, hg, bind, Except.bind, pure, Except.pure, Bool.false_eq_true]
      split <;> rfl
    | cons y r =>
      have hlen : (serAt 0 (x :: y :: r)).length > 1 := by simp [serAt]
      have hg1 : (serAt 0 (x :: y :: r)).get 1 = .ok y := by rw [serAt_get]; rfl
      simp only [hlen, if_true, hg, hg1, bind, Except.bind, pure, Except.pure]
      have hd : (serAt 0 (x :: y :: r)).drop 1 = serAt 1 (y :: r) := by simp [serAt]
      by_cases hy : endBefore closed l y = true
      · simp only [hy, if_true]; rfl
      · simp only [hy, Bool.false_eq_true, if_false, hd]

/-- **C56** Points given as a pandas `Series`, at the first call or at one that begins with the point in progress and still has it:
the result is that of points accessed by position. -/
theorem C56_series_kept (x : Int) (r : List Int) (closed : Closed) (on : List Int) (b : ScaleBuf)
    (hb : b.restart = none ∨ b.restart = some x) (hk : ∀ l, b.lastOn = some l → endBefore closed l x = false) :
    bySer (x :: r) closed on b =
      match bySeries (x :: r) (x :: r) (some closed) on (some b) with
      | .error e => .error e
      | .ok (seg, b') => .ok (seg.starts, seg.ends, b'.getD {}) := by
  have hfin : ∀ b0 : ScaleBuf, serFinish (serAt 0 (x :: r)) closed on b0 =
      .ok ((seriesFinish (x :: r) (x :: r) closed on (some b0)).1.starts, (seriesFinish (x :: r) (x :: r) closed on (some b0)).1.ends,
        (seriesFinish (x :: r) (x :: r) closed on (some b0)).2.getD {}) := by
    intro b0
    rw [serFinish_eq 0 (x :: r) (by simp)]
    obtain ⟨b', h1, h2, h3, h4, _⟩ := scaleFinish_last (x :: r) (by simp) closed on b0
    simp only [seriesFinish, List.isEmpty_cons, Bool.false_eq_true, if_false]
    generalize scaleFinish false on (x :: r) (x :: r) closed (some b0) = q at *
    simp only [Nat.zero_le, if_true, Nat.sub_zero, ← h2, h1, Option.getD_some]
    have : b'.restart.isSome := by
      rw [h2, List.getElem?_eq_getElem]
      · rfl
      · have := List.length_pos_iff.2 h3; omega
    obtain ⟨v, hv⟩ := Option.isSome_iff_exists.1 this
    rw [hv]
    cases b'; simp_all
  simp only [bySer, bySeries, ne_eq, not_true_eq_false, if_false]
  by_cases ht : b.truthy = true
  · simp only [ht, if_true, bySer_restart x r closed b hb, seriesRestart]
    have htrim : trimTo (x :: r) (x :: r) b.restart = .ok (x :: r, x :: r) := by
      rcases hb with hb | hb <;> simp [trimTo, hb]
    simp only [htrim, dropDone]
    cases hl : b.lastOn with
    | none =>
      simp only [bind, Except.bind, hfin]
      have : b = { b with lastOn := none } := by cases b; simp_all
      rw [← this]
    | some l =>
      have hx := hk l hl
      cases r with
      | nil => simp [bind, Except.bind, hfin, hx]
      | cons y r =>
        cases hy : endBefore closed l y with
        | true => simp [bind, Except.bind, hy]
        | false => simp [bind, Except.bind, hfin, hx, hy]
  · simp only [ht, Bool.false_eq_true, if_false, bind, Except.bind, pure, Except.pure, ofList_serAt, hfin]

/-- **C56** At a call that removes the first point, observed before, there is an exception if data does not go beyond the next point
observed, or the point recorded for the next restart is the one before the last observed. -/
theorem C56_series_removed (x : Int) (r : List Int) (closed : Closed) (on : List Int) (b : ScaleBuf)
    (hb : b.restart = none ∨ b.restart = some x) {l : Int} (hl : b.lastOn = some l) (hk : endBefore closed l x = true) (hr : r ≠ []) :
    bySer (x :: r) closed on b =
      match bySeries (x :: r) (x :: r) (some closed) on (some b) with
      | .error e => .error e
      | .ok (seg, b') =>
        if seg.starts.length = 1 then .error .keyError
        else .ok (seg.starts, seg.ends, { b'.getD {} with restart := seg.ends[seg.starts.length - 2]? }) := by
  have ht : b.truthy = true := by simp [ScaleBuf.truthy, hl]
  simp only [bySer, bySeries, ne_eq, not_true_eq_false, if_false, ht, if_true, bySer_restart x r closed b hb, seriesRestart]
  have htrim : trimTo (x :: r) (x :: r) b.restart = .ok (x :: r, x :: r) := by
    rcases hb with hb | hb <;> simp [trimTo, hb]
  simp only [htrim, dropDone, hl]
  cases r with
  | nil => exact absurd rfl hr
  | cons y r =>
    cases hy : endBefore closed l y with
    | true => simp [bind, Except.bind, hy]
    | false =>
      simp only [bind, Except.bind, hy, hk, if_true, Bool.false_eq_true, if_false, Bool.and_false, List.length_cons,
        List.getD_cons_zero, List.getD_cons_succ, List.isEmpty_cons, List.drop_one, List.tail_cons]
      rw [serFinish_eq 1 (y :: r) (by simp)]
      obtain ⟨b', h1, h2, h3, h4, _⟩ := scaleFinish_last (y :: r) (by simp) closed on { b with lastOn := none }
      simp only [seriesFinish, List.isEmpty_cons, Bool.false_eq_true, if_false]
      generalize scaleFinish false on (y :: r) (y :: r) closed (some { b with lastOn := none }) = q at *
      have h3 := List.length_pos_iff.2 h3
      by_cases h5 : q.1.starts.length = 1
      · rw [if_pos h5, if_neg (by omega)]
      · rw [if_neg h5, if_pos (by omega), show q.1.starts.length - 1 - 1 = q.1.starts.length - 2 by omega,
          List.getElem?_eq_getElem (by omega)]

/-- **C56** When the only point is removed, or no point is given at the first call: as with points accessed by position. -/
theorem C56_series_emptied (closed : Closed) (on : List Int) (b : ScaleBuf) (p : List Int)
    (hp : p = [] ∧ b.truthy = false ∨
      ∃ x l, p = [x] ∧ (b.restart = none ∨ b.restart = some x) ∧ b.lastOn = some l ∧ endBefore closed l x = true) :
    bySer p closed on b =
      match bySeries p p (some closed) on (some b) with
      | .error e => .error e
      | .ok (seg, b') => .ok (seg.starts, seg.ends, b'.getD {}) := by
  rcases hp with ⟨rfl, hp⟩ | ⟨x, l, rfl, hb, hl, hk⟩
  · simp [bySer, bySeries, hp, bind, Except.bind, pure, Except.pure, serFinish, seriesFinish, Ser.ofList]
  · have ht : b.truthy = true := by simp [ScaleBuf.truthy, hl]
    have htrim : trimTo [x] [x] b.restart = .ok ([x], [x]) := by
      rcases hb with hb | hb <;> simp [trimTo, hb]
    simp only [bySer, bySeries, ne_eq, not_true_eq_false, if_false, ht, if_true, bySer_restart x [] closed b hb, seriesRestart,
      htrim, dropDone, hl]
    simp [bind, Except.bind, hk, serFinish, seriesFinish, serAt, pure, Except.pure]

example : bySeries [1, 5, 9] [1, 5, 9] (some .left) [3, 6] (some ⟨some 1, some 2⟩) =
      .ok (⟨[1, 2], [5, 9], 0, .left, [5, 9], false⟩, some ⟨some 9, none⟩) ∧
    bySer [1, 5, 9] .left [3, 6] ⟨some 1, some 2⟩ = .ok ([1, 2], [5, 9], ⟨some 5, none⟩) ∧
    bySer [1, 5, 9] .left [3] ⟨some 1, some 2⟩ = .error .keyError ∧
    bySer [5, 9] .left [3] ⟨some 5, some 2⟩ = .ok ([1], [5], ⟨some 5, none⟩) ∧
    bySer [1] .left [3, 6] ⟨some 1, some 2⟩ = .ok ([], [], ⟨some 1, some 6⟩) := by decide

/-! ### Reasons of refusals -/

/-- Why points given for a restart are refused; `b` is what is kept of the previous call. -/
inductive RestartReason (closed : Closed) (ends : List Int) (b : ScaleBuf) : Err → Prop
  | passed {k : Int} : b.restart = some k → (∀ e ∈ ends, e < k) → RestartReason closed ends b .keyError
  | missing {k : Int} : b.restart = some k → k ∉ ends → (∃ e ∈ ends, k < e) →
      RestartReason closed ends b .restartKeyMissing
  | none_left {l : Int} : b.restart = none → b.lastOn = some l → ends = [] → RestartReason closed ends b .keyError
  | second {done rest : List Int} {k e l : Int} : ends = done ++ k :: e :: rest →
      (b.restart = some k ∨ (b.restart = none ∧ done = [])) → b.lastOn = some l →
      (if closed = .right then e < l else e ≤ l) → RestartReason closed ends b .secondEnd

theorem endBefore_iff (closed : Closed) (l e : Int) :
    endBefore closed l e = true ↔ if closed = .right then e < l else e ≤ l := by
  cases closed <;> simp [endBefore]

theorem filter_split {k : Int} {ends : List Int} (h : ends.Pairwise (· < ·)) :
    ∃ done, ends = done ++ ends.filter (fun e => decide (k ≤ e)) ∧ ∀ e ∈ done, e < k := by
  induction ends with
  | nil => exact ⟨[], rfl, by simp⟩
  | cons x l ih =>
    obtain ⟨hx, hl⟩ := List.pairwise_cons.1 h
    by_cases hk : k ≤ x
    · refine ⟨[], ?_, by simp⟩
      rw [List.nil_append, List.filter_eq_self.2]
      intro e he
      rcases List.mem_cons.1 he with rfl | he
      · simpa using hk
      · have := hx e he; simp; omega
    · obtain ⟨done, h1, h2⟩ := ih hl
      refine ⟨x :: done, ?_, ?_⟩
      · rw [List.filter_cons_of_neg (by simpa using hk), List.cons_append, ← h1]
      · intro e he
        rcases List.mem_cons.1 he with rfl | he
        · omega
        · exact h2 e he

/-- What is left by trimming. -/
theorem trimTo_spec {labels ends : List Int} (h : ends.Pairwise (· < ·)) (k : Int) :
    ((∀ e ∈ ends, e < k) ∧ trimTo labels ends (some k) = .error .keyError) ∨
    ((k ∉ ends ∧ ∃ e ∈ ends, k < e) ∧ trimTo labels ends (some k) = .error .restartKeyMissing) ∨
    ∃ done rest, ends = done ++ k :: rest ∧ ∃ ls, trimTo labels ends (some k) = .ok (ls, k :: rest) := by
  cases ends with
  | nil => exact Or.inl ⟨by simp, rfl⟩
  | cons x l =>
    by_cases hx : x = k
    · subst hx
      exact Or.inr (Or.inr ⟨[], l, rfl, labels, by simp [trimTo]⟩)
    · obtain ⟨done, h1, h2⟩ := filter_split (k := k) h
      have hmem : ∀ e ∈ (x :: l).filter (fun e => decide (k ≤ e)), k ≤ e := fun e he => by
        simpa using (List.mem_filter.1 he).2
      simp only [trimTo, List.isEmpty_cons, Bool.false_eq_true, if_false, List.getD_cons_zero, if_neg hx]
      cases hf : (x :: l).filter (fun e => decide (k ≤ e)) with
      | nil =>
        left
        refine ⟨fun e he => ?_, by simp⟩
        by_contra hc
        have : e ∈ (x :: l).filter (fun e => decide (k ≤ e)) := List.mem_filter.2 ⟨he, by simp; omega⟩
        rw [hf] at this; simp at this
      | cons y r =>
        right
        rw [hf] at h1 hmem
        by_cases hy : y = k
        · subst hy
          exact Or.inr ⟨done, r, h1, _, by simp; rfl⟩
        · left
          have hky : k < y := lt_of_le_of_ne (hmem y (by simp)) (Ne.symm hy)
          refine ⟨⟨fun hk => ?_, y, by rw [h1]; simp, hky⟩, by simp [hy]⟩
          rw [h1] at hk h
          rcases List.mem_append.1 hk with hk | hk
          · exact absurd (h2 k hk) (by omega)
          · rcases List.mem_cons.1 hk with hk | hk
            · exact hy hk.symm
            · have := (List.pairwise_cons.1 (List.pairwise_append.1 h).2.1).1 k hk
              omega

/-- Removal of the completed point. -/
theorem dropDone_error {labels ends : List Int} {closed : Closed} {l? : Option Int} {err : Err} :
    dropDone labels ends closed l? = .error err ↔
      (∃ l, l? = some l ∧ ends = [] ∧ err = .keyError) ∨
      ∃ l k e rest, l? = some l ∧ ends = k :: e :: rest ∧ (if closed = .right then e < l else e ≤ l) ∧ err = .secondEnd := by
  cases l? with
  | none => simp [dropDone]
  | some l =>
    match ends with
    | [] => simp [dropDone, eq_comm]
    | [k] => simp only [dropDone]; simp; split <;> simp
    | k :: e :: rest =>
      have hi := endBefore_iff closed l e
      simp only [dropDone]
      by_cases hb : endBefore closed l e = true
      · have := hi.1 hb
        simp [hb, eq_comm]
        intro _; exact this
      · have hn := fun h => hb (hi.2 h)
        simp [hb]
        split
        · simp; intro h; exact absurd h hn
        · simp; intro h; exact absurd h hn

/-- **C56** A call with points to which data was observed before is refused exactly for one of these reasons, with the
exception that goes with it. -/
theorem C56_raises (labels ends : List Int) (closed : Closed) (on : List Int) (b : ScaleBuf) (err : Err)
    (hl : labels.length = ends.length) (h : ends.Pairwise (· < ·)) :
    bySeries labels ends (some closed) on (some b) = .error err ↔ RestartReason closed ends b err := by
  have h0 : bySeries labels ends (some closed) on (some b) = .error err ↔ b.truthy = true ∧
      seriesRestart labels ends closed b = .error err := by
    simp only [bySeries, hl, ne_eq, not_true_eq_false, if_false]
    cases b.truthy with
    | false => simp
    | true =>
      simp only [if_true, true_and]
      split <;> simp_all
  rw [h0, seriesRestart]
  have hnd : ends.Nodup := h.imp (fun h => by omega)
  constructor
  · rintro ⟨-, hs⟩
    cases hr : b.restart with
    | none =>
      rw [hr] at hs
      simp only [trimTo] at hs
      rcases dropDone_error.1 hs with ⟨l, h1, h2, rfl⟩ | ⟨l, k, e, rest, h1, h2, h3, rfl⟩
      · exact .none_left hr h1 h2
      · exact .second (done := []) h2 (Or.inr ⟨hr, rfl⟩) h1 h3
    | some k =>
      rw [hr] at hs
      rcases trimTo_spec (labels := labels) h k with ⟨h1, h2⟩ | ⟨⟨h1, h1'⟩, h2⟩ | ⟨done, rest, h1, ls, h2⟩
      · rw [h2] at hs; cases hs; exact .passed hr h1
      · rw [h2] at hs; cases hs; exact .missing hr h1 h1'
      · rw [h2] at hs
        simp only at hs
        rcases dropDone_error.1 hs with ⟨l, h1, h2, rfl⟩ | ⟨l, k', e, rest', g1, g2, g3, rfl⟩
        · cases h2
        · cases g2; exact .second h1 (Or.inl hr) g1 g3
  · intro hs
    cases hs with
    | @passed k h1 h2 =>
      refine ⟨by simp [ScaleBuf.truthy, h1], ?_⟩
      rw [h1]
      rcases trimTo_spec (labels := labels) h k with ⟨_, g⟩ | ⟨⟨_, e, he, hk⟩, _⟩ | ⟨done, rest, g, _⟩
      · rw [g]
      · exact absurd (h2 e he) (by omega)
      · exact absurd (h2 k (by rw [g]; simp)) (by omega)
    | @missing k h1 h2 h3 =>
      refine ⟨by simp [ScaleBuf.truthy, h1], ?_⟩
      rw [h1]
      obtain ⟨e, he, hk⟩ := h3
      rcases trimTo_spec (labels := labels) h k with ⟨g, _⟩ | ⟨_, g⟩ | ⟨done, rest, g, _⟩
      · exact absurd (g e he) (by omega)
      · rw [g]
      · exact absurd (by rw [g]; simp) h2
    | @none_left l h1 h2 h3 =>
      refine ⟨by simp [ScaleBuf.truthy, h2], ?_⟩
      subst h3
      rw [h1, h2]; rfl
    | @second done rest k e l h1 h2 h3 h4 =>
      refine ⟨by simp [ScaleBuf.truthy, h3], ?_⟩
      have hd : ∀ ls, dropDone ls (k :: e :: rest) closed b.lastOn = .error .secondEnd := fun ls =>
        dropDone_error.2 (Or.inr ⟨l, k, e, rest, h3, rfl, h4, rfl⟩)
      rcases h2 with h2 | ⟨h2, rfl⟩
      · rw [h2]
        rcases trimTo_spec (labels := labels) h k with ⟨g, _⟩ | ⟨⟨g, _⟩, _⟩ | ⟨done', rest', g, ls, g'⟩
        · exact absurd (g k (by rw [h1]; simp)) (by omega)
        · exact absurd (by rw [h1]; simp) g
        · rw [g']
          have : e :: rest = rest' := by
            rw [h1] at g hnd
            have h5 : (done ++ k :: e :: rest).drop ((done ++ k :: e :: rest).idxOf k) = k :: e :: rest := by
              have : k ∉ done := fun hk => (List.nodup_append.1 hnd).2.2 k hk k (by simp) rfl
              rw [List.idxOf_append_of_notMem this]; simp
            have h6 : (done' ++ k :: rest').drop ((done' ++ k :: rest').idxOf k) = k :: rest' := by
              rw [g] at hnd
              have : k ∉ done' := fun hk => (List.nodup_append.1 hnd).2.2 k hk k (by simp) rfl
              rw [List.idxOf_append_of_notMem this]; simp
            rw [← g, h5] at h6
            simpa using h6
          subst this
          exact hd ls
      · rw [h2]
        simp only [trimTo]
        rw [h1]; exact hd labels

/-- Points 5 and 9 when 3 was the last one observed; when 12 was; points 5, 7 and 9 after 5, all data up to 8 being
observed. -/
example : bySeries [5, 9] [5, 9] (some .left) [8] (some ⟨some 3, none⟩) = .error .restartKeyMissing :=
  (C56_raises _ _ _ _ _ _ rfl (by decide)).2 (.missing rfl (by decide) ⟨5, by decide, by decide⟩)
example : bySeries [5, 9] [5, 9] (some .left) [8] (some ⟨some 12, none⟩) = .error .keyError :=
  (C56_raises _ _ _ _ _ _ rfl (by decide)).2 (.passed rfl (by decide))
example : bySeries [5, 7, 9] [5, 7, 9] (some .left) [8] (some ⟨some 5, some 8⟩) = .error .secondEnd :=
  (C56_raises _ _ _ _ _ _ rfl (by decide)).2 (.second (done := []) rfl (Or.inl rfl) rfl (by decide))

theorem nullLabels_ok {s : Ser} {l : List Nat} {vs : List Int} (h : nullLabels s l = .ok vs) :
    ∀ v, v ∈ vs ↔ ∃ i ∈ l, s.get i = .ok v := by
  induction l generalizing vs with
  | nil => cases h; simp
  | cons i l ih =>
    rw [nullLabels] at h
    cases hi : s.get i with
    | error e => simp [hi] at h
    | ok v0 =>
      cases hl : nullLabels s l with
      | error e => simp [hi, hl] at h
      | ok vs0 =>
        simp only [hi, hl, Except.ok.injEq] at h
        subst h
        intro v
        rw [List.mem_cons, ih hl]
        constructor
        · rintro (rfl | ⟨j, hj, hv⟩)
          · exact ⟨i, by simp, hi⟩
          · exact ⟨j, by simp [hj], hv⟩
        · rintro ⟨j, hj, hv⟩
          rcases List.mem_cons.1 hj with rfl | hj
          · rw [hi] at hv
            cases hv
            exact Or.inl rfl
          · exact Or.inr ⟨j, hj, hv⟩

theorem nullLabels_error {s : Ser} {l : List Nat} : (∃ i ∈ l, ∀ v, s.get i ≠ .ok v) ↔ nullLabels s l = .error .keyError := by
  induction l with
  | nil => simp [nullLabels]
  | cons i l ih =>
    rw [nullLabels]
    cases hi : s.get i with
    | error e => simp [hi]
    | ok v =>
      cases hl : nullLabels s l with
      | error e =>
        simp only [iff_true]
        have : ∃ i ∈ l, ∀ v, s.get i ≠ .ok v := by
          rw [ih, hl]
          clear ih hi
          induction l generalizing e with
          | nil => cases hl
          | cons j l ih =>
            rw [nullLabels] at hl
            split at hl
            · cases hl
            · cases hl; rfl
        obtain ⟨j, hj, hv⟩ := this
        exact ⟨j, by simp [hj], hv⟩
      | ok vs =>
        simp only [reduceCtorEq, iff_false, not_exists, not_and]
        intro j hj hv
        rcases List.mem_cons.1 hj with rfl | hj
        · exact hv v hi
        · rw [ih.1 ⟨j, hj, hv⟩] at hl
          cases hl

theorem mem_nulls {A : Type} (rows : List (Option A)) (i : Nat) :
    i ∈ (rows.zipIdx.filter fun p => p.1.isNone).map Prod.snd ↔ rows[i]? = some none := by
  constructor
  · intro h
    obtain ⟨⟨v, j⟩, hp, rfl⟩ := List.mem_map.1 h
    obtain ⟨h1, h2⟩ := List.mem_filter.1 hp
    rw [List.mem_zipIdx_iff_getElem?] at h1
    cases v with
    | none => exact h1
    | some a => cases h2
  · intro h
    exact List.mem_map.2 ⟨(none, i), List.mem_filter.2 ⟨List.mem_zipIdx_iff_getElem?.2 h, rfl⟩, rfl⟩

/-- **C56** Rows of snapshots at points given as a pandas `Series`, whose first `m` points (0 or 1) have been removed at a restart: row `i` is
set to null when there is no result for row `i + m`, instead of row `i`, and `KeyError` is raised if there is none for one of the first `m`.
A row without result is then left with zeros, and a result is lost. -/
theorem C56_series_nulls {A : Type} (zero : A) (m : Nat) (l : List Int) (hl : l.Nodup) (rows : List (Option A))
    (hlen : rows.length = l.length) :
    ((∃ i < m, rows[i]? = some none) → serRows zero (serAt m l) rows = .error .keyError) ∧
    ((¬ ∃ i < m, rows[i]? = some none) → serRows zero (serAt m l) rows =
      .ok ((l.zip rows).zipIdx.map fun p => (p.1.1, if rows[p.2 + m]?.any Option.isNone then none else some (p.1.2.getD zero)))) := by
  have hlt : ∀ i, rows[i]? = some none → i < l.length := fun i h => by
    rw [← hlen]
    exact (List.getElem?_eq_some_iff.1 h).1
  constructor
  · rintro ⟨i, hi, hr⟩
    have : nullLabels (serAt m l) ((rows.zipIdx.filter fun p => p.1.isNone).map Prod.snd) = .error .keyError := by
      rw [← nullLabels_error]
      refine ⟨i, (mem_nulls rows i).2 hr, fun v => ?_⟩
      rw [serAt_get, if_neg (by omega)]
      simp
    rw [serRows, this]
  · intro hno
    have hget : ∀ i, rows[i]? = some none → m ≤ i ∧ (serAt m l).get i = .ok (l[i - m]?.getD 0) := by
      intro i hi
      have h1 : m ≤ i := by
        by_contra h
        exact hno ⟨i, by omega, hi⟩
      have h2 := hlt i hi
      refine ⟨h1, ?_⟩
      rw [serAt_get, if_pos h1, List.getElem?_eq_getElem (by omega)]
      rfl
    cases hn : nullLabels (serAt m l) ((rows.zipIdx.filter fun p => p.1.isNone).map Prod.snd) with
    | error e =>
      exfalso
      have hk : nullLabels (serAt m l) ((rows.zipIdx.filter fun p => p.1.isNone).map Prod.snd) = .error .keyError := by
        rw [hn]
        generalize (rows.zipIdx.filter fun p => p.1.isNone).map Prod.snd = ns at hn
        cases ns with
        | nil => cases hn
        | cons j ns =>
          rw [nullLabels] at hn
          split at hn
          · cases hn
          · cases hn; rfl
      rw [← nullLabels_error] at hk
      obtain ⟨i, hi, hv⟩ := hk
      exact hv _ (hget i ((mem_nulls rows i).1 hi)).2
    | ok vs =>
      simp only [serRows, hn]
      have hmem := nullLabels_ok hn
      congr 1
      refine List.ext_getElem (by simp [serAt, hlen]) fun i h1 h2 => ?_
      have hi : i < l.length := by simp [serAt] at h1; omega
      simp only [List.getElem_map, List.getElem_zip, List.getElem_zipIdx, serAt, Nat.zero_add, Prod.mk.injEq, true_and]
      have hiff : l[i] ∈ vs ↔ rows[i + m]?.any Option.isNone = true := by
        rw [hmem]
        constructor
        · rintro ⟨j, hj, hv⟩
          have hj := (mem_nulls rows j).1 hj
          obtain ⟨hm, hg⟩ := hget j hj
          have hjl := hlt j hj
          rw [hg, List.getElem?_eq_getElem (by omega : j - m < l.length), Except.ok.injEq, Option.getD_some] at hv
          have : j - m = i := (List.Nodup.getElem_inj_iff hl).1 hv
          rw [show i + m = j by omega, hj]
          rfl
        · intro h
          cases hr : rows[i + m]? with
          | none => rw [hr] at h; cases h
          | some o =>
            rw [hr] at h
            cases o with
            | some a => cases h
            | none =>
              refine ⟨i + m, (mem_nulls rows _).2 hr, ?_⟩
              rw [(hget _ hr).2, Nat.add_sub_cancel, List.getElem?_eq_getElem hi]
              rfl
      by_cases h : l[i] ∈ vs
      · rw [if_pos h, if_pos (hiff.1 h)]
      · rw [if_neg h, if_neg (fun hc => h (hiff.2 hc))]

/-- As long as no point has been removed, rows without result are those set to null. -/
example : serRows 0 (serAt 0 [10, 20, 30]) [some 5, none, some 7] = .ok [(10, some 5), (20, none), (30, some 7)] := by decide

/-- **C56** (finding) Once a point has been removed, the result of another snapshot is lost, zeros are returned for the one without rows, or
`KeyError` is raised. -/
theorem C56_series_nulls_fails : serRows 0 (serAt 1 [20, 30, 40]) [some 5, none, some 7] = .ok [(20, none), (30, some 0), (40, some 7)] ∧
    serRows 0 (serAt 1 [20, 30, 40]) [none, some 5, some 7] = .error .keyError := by decide

end Oups.Segment
