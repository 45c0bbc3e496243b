import Verif.Proofs.SegmentFacts
import Verif.Model.SeriesLabels
/-! `by_scale` with explicit points (positional access): one call. -/
set_option linter.unusedSimpArgs false
namespace Oups.Segment
open Spec

/-- Points, with labels, in strictly ascending order. -/
abbrev Points (P : List (Int × Int)) : Prop := P.Pairwise (fun a b => a.2 < b.2)

/-- The buffer after rows whose last position is `prev`. -/
def serOk (right : Bool) (prev : Option Int) (b : ScaleBuf) : Prop :=
  match prev with
  | none => b = {}
  | some y =>
    match b.restart, b.lastOn with
    | none, none => False
    | none, some l => l = y
    | some k, none => within right k y = true
    | some k, some l => l = y ∧ within right k y = false

/-- The new list of points allows to restart. -/
def Restartable (right : Bool) (prev : Option Int) (b : ScaleBuf) (P : List (Int × Int)) : Prop :=
  match prev with
  | none => True
  | some y => P ≠ [] ∧ (∀ k, b.restart = some k → k ∈ P.map Prod.snd) ∧
      (b.lastOn.isSome → ∀ e ∈ ((P.map Prod.snd).filter (fun e => decide (∀ k, b.restart = some k → k ≤ e))).tail,
        within right e y = true)

/-- The points to observe: neither before the restart point, nor already passed by the previous rows. -/
def toObserve (right : Bool) (prev : Option Int) (b : ScaleBuf) (P : List (Int × Int)) : List (Int × Int) :=
  P.filter (fun p => decide ((∀ k, b.restart = some k → k ≤ p.2) ∧ (∀ y, prev = some y → within right p.2 y = true)))

theorem endBefore_eq (closed : Closed) (e l : Int) : endBefore closed l e = !within (closed == .right) e l := by
  rw [Bool.eq_iff_iff]
  cases closed <;> simp [endBefore, within]

theorem asc_map_snd {P : List (Int × Int)} (h : Points P) : Asc (P.map Prod.snd) := by
  rw [Asc, List.pairwise_map]; exact h.imp (fun h => Int.le_of_lt h)

theorem filter_ge_split (P : List (Int × Int)) (h : Points P) (k : Int) :
    ∃ l, P = l ++ P.filter (fun p => decide (k ≤ p.2)) := by
  induction P with
  | nil => exact ⟨[], rfl⟩
  | cons a P ih =>
    have h' := List.pairwise_cons.1 h
    by_cases hk : k ≤ a.2
    · refine ⟨[], ?_⟩
      rw [List.nil_append, eq_comm, List.filter_eq_self]
      intro x hx
      rcases List.mem_cons.1 hx with rfl | hx
      · simpa using hk
      · have := h'.1 x hx; simp; omega
    · obtain ⟨l, hl⟩ := ih h'.2
      refine ⟨a :: l, ?_⟩
      rw [List.filter_cons_of_neg (by simpa using hk), List.cons_append, ← hl]

theorem filter_all {P : List (Int × Int)} {p : Int × Int → Bool} (h : ∀ x ∈ P, p x = true) : P.filter p = P :=
  List.filter_eq_self.2 h

/-- Trimming to the restart key. -/
theorem trimTo_eq (P : List (Int × Int)) (hP : Points P) (restart : Option Int) (hne : P ≠ []) :
    ((∀ k, restart = some k → k ∈ P.map Prod.snd) →
      trimTo (P.map Prod.fst) (P.map Prod.snd) restart =
        .ok ((P.filter (fun p => decide (∀ k, restart = some k → k ≤ p.2))).map Prod.fst,
          (P.filter (fun p => decide (∀ k, restart = some k → k ≤ p.2))).map Prod.snd)) ∧
    (¬ (∀ k, restart = some k → k ∈ P.map Prod.snd) →
      ∃ e, trimTo (P.map Prod.fst) (P.map Prod.snd) restart = .error e) := by
  cases restart with
  | none => simp [trimTo]
  | some k =>
    simp only [Option.some.injEq, forall_eq']
    cases P with
    | nil => exact absurd rfl hne
    | cons a P =>
      have h' := List.pairwise_cons.1 hP
      simp only [trimTo, List.map_cons, List.isEmpty_cons, Bool.false_eq_true, if_false, List.getD_cons_zero]
      by_cases hk : a.2 = k
      · rw [if_pos hk]
        refine ⟨fun _ => ?_, fun h => absurd (by simp [hk]) h⟩
        rw [filter_all]
        · simp
        · intro x hx
          rcases List.mem_cons.1 hx with rfl | hx
          · simp; omega
          · have := h'.1 x hx; simp; omega
      · rw [if_neg hk]
        obtain ⟨l, hl⟩ := filter_ge_split (a :: P) hP k
        have hfm : (a.2 :: P.map Prod.snd).filter (fun e => decide (k ≤ e)) =
            ((a :: P).filter (fun p => decide (k ≤ p.2))).map Prod.snd := by
          rw [← List.map_cons, List.filter_map]; rfl
        rw [hfm]
        set T := (a :: P).filter (fun p => decide (k ≤ p.2)) with hT
        have hmem : k ∈ a.2 :: P.map Prod.snd ↔ ∃ p ∈ T, p.2 = k := by
          rw [← List.map_cons, List.mem_map]
          constructor
          · rintro ⟨p, hp, rfl⟩
            exact ⟨p, by rw [hT, List.mem_filter]; exact ⟨hp, by simp⟩, rfl⟩
          · rintro ⟨p, hp, rfl⟩
            exact ⟨p, (List.mem_filter.1 hp).1, rfl⟩
        rw [hmem]
        have hTP : Points T := hP.sublist List.filter_sublist
        have hge : ∀ p ∈ T, k ≤ p.2 := fun p hp => by simpa using (List.mem_filter.1 hp).2
        cases hTc : T with
        | nil => simp
        | cons t T' =>
          rw [hTc] at hTP hge
          have ht' := List.pairwise_cons.1 hTP
          simp only [List.map_cons, List.isEmpty_cons, Bool.false_eq_true, if_false, List.getD_cons_zero]
          by_cases htk : t.2 = k
          · refine ⟨fun _ => ?_, fun h => absurd ⟨t, by simp, htk⟩ h⟩
            rw [if_neg (by simp [htk])]
            have hlen : (a.2 :: P.map Prod.snd).length - (t.2 :: T'.map Prod.snd).length = l.length := by
              have h1 := congrArg List.length hl
              rw [hTc, List.length_append] at h1
              simp at h1 ⊢; omega
            rw [hlen]
            have h2 : a.1 :: P.map Prod.fst = l.map Prod.fst ++ (t :: T').map Prod.fst := by
              rw [← List.map_cons, ← List.map_append, ← hTc, ← hl]
            rw [h2, List.drop_append_of_le_length (by simp), List.drop_of_length_le (by simp)]
            simp
          · refine ⟨?_, fun _ => ⟨_, by rw [if_pos htk]⟩⟩
            rintro ⟨p, hp, hpk⟩
            rcases List.mem_cons.1 hp with rfl | hp
            · exact absurd hpk htk
            · have h1 := ht'.1 p hp
              have h2 := hge t (by simp)
              omega

/-- Removal of the completed point. -/
theorem dropDone_eq (closed : Closed) (P : List (Int × Int)) (hP : Points P) (l : Int) (hne : P ≠ []) :
    ((∀ e ∈ (P.map Prod.snd).tail, within (closed == .right) e l = true) →
      dropDone (P.map Prod.fst) (P.map Prod.snd) closed (some l) =
        .ok ((P.filter (fun p => within (closed == .right) p.2 l)).map Prod.fst,
          (P.filter (fun p => within (closed == .right) p.2 l)).map Prod.snd)) ∧
    (¬ (∀ e ∈ (P.map Prod.snd).tail, within (closed == .right) e l = true) →
      dropDone (P.map Prod.fst) (P.map Prod.snd) closed (some l) = .error .secondEnd) := by
  cases P with
  | nil => exact absurd rfl hne
  | cons a P =>
    simp only [dropDone, List.map_cons, List.isEmpty_cons, Bool.false_eq_true, if_false, List.getD_cons_zero,
      List.length_cons, List.length_map, endBefore_eq, List.tail_cons, List.drop_succ_cons, List.drop_zero]
    have h' := List.pairwise_cons.1 hP
    have hall : (∀ e ∈ P.map Prod.snd, within (closed == .right) e l = true) →
        (a :: P).filter (fun p => within (closed == .right) p.2 l) =
          if within (closed == .right) a.2 l = true then a :: P else P := by
      intro h
      have : P.filter (fun p => within (closed == .right) p.2 l) = P :=
        filter_all (fun x hx => h x.2 (List.mem_map.2 ⟨x, hx, rfl⟩))
      rw [List.filter_cons, this]
    cases P with
    | nil =>
      rw [if_neg (by simp)]
      refine ⟨fun h => ?_, fun h => absurd (by simp) h⟩
      rw [hall (by simp)]
      cases within (closed == .right) a.2 l <;> simp
    | cons c P =>
      have h'' := List.pairwise_cons.1 h'.2
      have hiff : (∀ e ∈ (c :: P).map Prod.snd, within (closed == .right) e l = true) ↔
          within (closed == .right) c.2 l = true := by
        constructor
        · intro h; exact h c.2 (by simp)
        · intro h e he
          obtain ⟨p, hp, rfl⟩ := List.mem_map.1 he
          rcases List.mem_cons.1 hp with rfl | hp
          · exact h
          · exact within_mono_edge (Int.le_of_lt (h''.1 p hp)) h
      rw [hiff] at hall ⊢
      simp only [List.map_cons, List.getD_cons_succ, List.getD_cons_zero, List.length_cons, List.length_map]
      by_cases hc : within (closed == .right) c.2 l = true
      · refine ⟨fun _ => ?_, fun h => absurd hc h⟩
        rw [if_neg (by simp [hc]), hall hc]
        cases within (closed == .right) a.2 l <;> simp
      · refine ⟨fun h => absurd h hc, fun _ => ?_⟩
        rw [if_pos (by simp [hc])]

/-- Restart part. -/
theorem seriesRestart_eq (closed : Closed) (P : List (Int × Int)) (hP : Points P) (y : Int) (b : ScaleBuf)
    (hb : serOk (closed == .right) (some y) b) :
    (Restartable (closed == .right) (some y) b P →
      seriesRestart (P.map Prod.fst) (P.map Prod.snd) closed b =
        .ok ((toObserve (closed == .right) (some y) b P).map Prod.fst,
          (toObserve (closed == .right) (some y) b P).map Prod.snd)) ∧
    (¬ Restartable (closed == .right) (some y) b P →
      ∃ e, seriesRestart (P.map Prod.fst) (P.map Prod.snd) closed b = .error e) := by
  obtain ⟨k, l⟩ := b
  by_cases hne : P = []
  · subst hne
    refine ⟨fun h => absurd rfl h.1, fun _ => ?_⟩
    cases k <;> cases l <;> simp_all [serOk, seriesRestart, trimTo, dropDone]
  obtain ⟨t1, t2⟩ := trimTo_eq P hP k hne
  simp only [Restartable, seriesRestart, toObserve, Option.some.injEq, forall_eq']
  set Q := P.filter (fun p => decide (∀ k', k = some k' → k' ≤ p.2)) with hQ
  have hQP : Points Q := hP.sublist List.filter_sublist
  have hfil : P.filter (fun p => decide ((∀ k', k = some k' → k' ≤ p.2) ∧ within (closed == .right) p.2 y = true)) =
      Q.filter (fun p => within (closed == .right) p.2 y) := by
    rw [hQ, List.filter_filter]
    congr 1; funext p
    rw [Bool.eq_iff_iff]; simp [and_comm]
  have hmapfil : (P.map Prod.snd).filter (fun e => decide (∀ k', k = some k' → k' ≤ e)) = Q.map Prod.snd := by
    rw [hQ, List.filter_map]; rfl
  rw [hfil, hmapfil]
  by_cases hk : ∀ k', k = some k' → k' ∈ P.map Prod.snd
  · rw [t1 hk]
    simp only
    have hQne : Q ≠ [] := by
      cases k with
      | none => rw [hQ, filter_all (by simp)]; exact hne
      | some k =>
        obtain ⟨p, hp, hpk⟩ := List.mem_map.1 (hk k rfl)
        have : p ∈ Q := by rw [hQ, List.mem_filter]; exact ⟨hp, by simp [hpk]⟩
        exact List.ne_nil_of_mem this
    cases l with
    | none =>
      refine ⟨fun _ => ?_, fun h => absurd ⟨hne, hk, by simp⟩ h⟩
      rw [filter_all]
      · simp [dropDone]
      · intro x hx
        cases k with
        | none => exact absurd hb (by simp [serOk])
        | some k =>
          simp only [serOk] at hb
          have hx' := (List.mem_filter.1 hx).2
          simp only [Option.some.injEq, forall_eq', decide_eq_true_eq] at hx'
          exact within_mono_edge hx' hb
    | some l =>
      obtain rfl : l = y := by cases k <;> simp_all [serOk]
      obtain ⟨d1, d2⟩ := dropDone_eq closed Q hQP l hQne
      refine ⟨fun h => d1 (h.2.2 rfl), fun h => ⟨_, d2 (fun h' => h ⟨hne, hk, fun _ => h'⟩)⟩⟩
  · obtain ⟨e, he⟩ := t2 hk
    exact ⟨fun h => absurd h.2.1 hk, fun _ => ⟨e, by rw [he]⟩⟩

/-- Ranks of the points among the positions of the rows. -/
def ranksOf (right : Bool) (on : List Int) (O : List (Int × Int)) : List Nat :=
  O.map fun p => on.countP (within right p.2)

theorem rank_eq_length {right : Bool} {e y : Int} {on : List Int} (hs : Asc on) (hy : on.getLast? = some y) :
    on.countP (within right e) = on.length ↔ within right e y = true := by
  rw [List.countP_eq_length]
  obtain ⟨l, rfl⟩ := List.getLast?_eq_some_iff.1 hy
  constructor
  · intro h; exact h y (by simp)
  · intro h x hx
    rcases List.mem_append.1 hx with hx | hx
    · exact within_mono ((List.pairwise_append.1 hs).2.2 x hx y (by simp)) h
    · simp at hx; rw [hx]; exact h

theorem seriesFinish_eq (closed : Closed) (O : List (Int × Int)) (hO : Points O) (on : List Int) (hs : Asc on)
    (y : Int) (hy : on.getLast? = some y) (buf : Option ScaleBuf) :
    let starts := upTo on.length (ranksOf (closed == .right) on O)
    (seriesFinish (O.map Prod.fst) (O.map Prod.snd) closed on buf).1 =
        ⟨starts, (O.take starts.length).map Prod.fst, repeats 0 starts, closed,
          (O.take starts.length).map Prod.snd, false⟩ ∧
      ∀ b, buf = some b → (∀ k, O = [] → b.restart = some k → within (closed == .right) k y = false) →
        b.lastOn = none →
        ∃ b', (seriesFinish (O.map Prod.fst) (O.map Prod.snd) closed on buf).2 = some b' ∧
          serOk (closed == .right) (some y) b' := by
  intro starts
  have hne : on ≠ [] := by rintro rfl; simp at hy
  have hlast : on.getLastD 0 = y := getLastD_eq hy
  by_cases hO0 : O = []
  · subst hO0
    refine ⟨by simp [seriesFinish, starts, ranksOf, upTo, repeats], ?_⟩
    rintro b rfl h1 h2
    refine ⟨_, rfl, ?_⟩
    obtain ⟨k, l⟩ := b
    cases k with
    | none => simpa [serOk] using hlast
    | some k => exact ⟨hlast, h1 k rfl rfl⟩
  · have hemp : ((O.map Prod.snd).isEmpty) = false := by simpa using hO0
    have hmm : (O.map Prod.snd).map (fun e => on.countP (within (closed == .right) e)) =
        ranksOf (closed == .right) on O := by rw [List.map_map]; rfl
    have hnc := nextChunkStarts_eq on (O.map Prod.snd) (closed == .right) hs (asc_map_snd hO) hne
    rw [hmm] at hnc
    have hpre := upTo_prefix on.length (ranksOf (closed == .right) on O)
    have hlen0 : starts ≠ [] := by
      cases O with
      | nil => exact absurd rfl hO0
      | cons a O => simp only [starts, ranksOf, List.map_cons, upTo]; split <;> simp
    have hpos := List.length_pos_iff.2 hlen0
    have hle : starts.length ≤ O.length := by
      have := hpre.length_le
      rw [show (ranksOf (closed == .right) on O).length = O.length by simp [ranksOf]] at this
      exact this
    unfold seriesFinish
    rw [hemp]
    simp only [Bool.false_eq_true, if_false, scaleFinish]
    rw [hnc]
    simp only [Bool.and_false]
    by_cases htr : on.length ∈ ranksOf (closed == .right) on O
    · simp only [htr, decide_true, if_true, Bool.false_eq_true, if_false]
      refine ⟨by rw [List.map_take, List.map_take], ?_⟩
      rintro b rfl h1 h2
      refine ⟨_, rfl, ?_⟩
      simp only [serOk, h2]
      -- the last end taken covers all rows
      have hget : ((O.map Prod.snd).take starts.length).getD (starts.length - 1) 0 = (O[starts.length - 1]'(by omega)).2 := by
        rw [List.getD_eq_getElem?_getD, List.getElem?_take_of_lt (by omega), List.getElem?_map,
          List.getElem?_eq_getElem (by omega)]
        rfl
      rw [hget, ← rank_eq_length hs hy]
      have hgl := upTo_getLast htr
      rw [List.getLast?_eq_getElem?] at hgl
      have h3 : starts[starts.length - 1]? = (ranksOf (closed == .right) on O)[starts.length - 1]? := by
        obtain ⟨t, ht⟩ := hpre
        rw [← ht, List.getElem?_append_left (by simp [starts] at hpos ⊢; omega)]
      rw [h3, ranksOf, List.getElem?_map, List.getElem?_eq_getElem (by omega)] at hgl
      simpa using hgl
    · simp only [htr, decide_false, Bool.false_eq_true, if_false]
      have hup : starts = ranksOf (closed == .right) on O := upTo_of_not_mem htr
      have hl : starts.length = O.length := by rw [hup, ranksOf, List.length_map]
      refine ⟨by rw [hl, List.take_length], ?_⟩
      rintro b rfl h1 h2
      refine ⟨_, rfl, ?_⟩
      simp only [serOk]
      refine ⟨hlast, ?_⟩
      have hget : (O.map Prod.snd).getD (starts.length - 1) 0 = (O[starts.length - 1]'(by omega)).2 := by
        rw [List.getD_eq_getElem?_getD, List.getElem?_map, List.getElem?_eq_getElem (by omega)]
        rfl
      rw [hget]
      by_contra hw
      have hw : within (closed == .right) (O[starts.length - 1]'(by omega)).2 y = true := by simpa using hw
      exact htr (List.mem_map.2 ⟨_, List.getElem_mem (by omega), (rank_eq_length hs hy).2 hw⟩)

theorem toObserve_points {right : Bool} {prev : Option Int} {b : ScaleBuf} {P : List (Int × Int)} (h : Points P) :
    Points (toObserve right prev b P) := h.sublist List.filter_sublist

/-- One call with explicit points. -/
theorem bySeries_step (closed : Closed) (P : List (Int × Int)) (hP : Points P) (prev : Option Int) (b : ScaleBuf)
    (hb : serOk (closed == .right) prev b) (on : List Int) (hs : Asc on) (y : Int) (hy : on.getLast? = some y)
    (hle : ∀ z, prev = some z → z ≤ y) :
    (Restartable (closed == .right) prev b P →
      ∃ b', bySeries (P.map Prod.fst) (P.map Prod.snd) (some closed) on (some b) =
          .ok (let O := toObserve (closed == .right) prev b P
            let starts := upTo on.length (ranksOf (closed == .right) on O)
            (⟨starts, (O.take starts.length).map Prod.fst, repeats 0 starts, closed,
              (O.take starts.length).map Prod.snd, false⟩, some b')) ∧
        serOk (closed == .right) (some y) b') ∧
    (¬ Restartable (closed == .right) prev b P →
      ∃ e, bySeries (P.map Prod.fst) (P.map Prod.snd) (some closed) on (some b) = .error e) := by
  have hlen : ¬ (P.map Prod.fst).length ≠ (P.map Prod.snd).length := by simp
  unfold bySeries
  simp only [hlen, if_false]
  cases prev with
  | none =>
    obtain rfl : b = {} := hb
    refine ⟨fun _ => ?_, fun h => absurd trivial h⟩
    have hO : toObserve (closed == .right) none {} P = P := by rw [toObserve, filter_all]; simp
    rw [hO]
    obtain ⟨e1, e2⟩ := seriesFinish_eq closed P hP on hs y hy (some {})
    obtain ⟨b', e3, e4⟩ := e2 {} rfl (by simp) rfl
    refine ⟨b', ?_, e4⟩
    simp only [ScaleBuf.truthy, Option.isSome_none, Bool.or_self, Bool.false_eq_true, if_false]
    rw [← e1, ← e3]
  | some z =>
    have ht : b.truthy = true := by
      obtain ⟨k, l⟩ := b
      cases k <;> cases l <;> simp_all [serOk, ScaleBuf.truthy]
    rw [if_pos ht]
    obtain ⟨r1, r2⟩ := seriesRestart_eq closed P hP z b hb
    constructor
    · intro h
      rw [r1 h]
      obtain ⟨e1, e2⟩ := seriesFinish_eq closed _ (toObserve_points hP) on hs y hy (some { b with lastOn := none })
      obtain ⟨b', e3, e4⟩ := e2 _ rfl (by
        intro k hO hk
        obtain ⟨p, hp, hpk⟩ := List.mem_map.1 (h.2.1 k hk)
        by_contra hw
        have hw : within (closed == .right) k y = true := by simpa using hw
        have hmem : p ∈ toObserve (closed == .right) (some z) b P := by
          rw [toObserve, List.mem_filter]
          refine ⟨hp, ?_⟩
          simp only [Option.some.injEq, forall_eq', decide_eq_true_eq]
          refine ⟨fun k' hk' => ?_, by rw [hpk]; exact within_mono (hle z rfl) hw⟩
          simp only at hk
          rw [hk] at hk'; injection hk' with hk'; omega
        rw [hO] at hmem; cases hmem) rfl
      refine ⟨b', ?_, e4⟩
      simp only
      rw [← e1, ← e3]
    · intro h
      obtain ⟨e, he⟩ := r2 h
      exact ⟨e, by rw [he]⟩

end Oups.Segment
