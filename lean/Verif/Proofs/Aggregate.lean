import Verif.Model.Aggregate
import Verif.Proofs.SegmentMerge
/-! `j*` functions and `jcsagg`. -/
set_option linter.unusedSimpArgs false
namespace Oups.Agg
open Oups.Segment Spec

theorem getLast?_of_ne {α : Type} {l : List α} (h : l ≠ []) : ∃ z, l.getLast? = some z :=
  ⟨l.getLast h, List.getLast?_eq_getLast_of_ne_nil h⟩

section
variable {V : Type} (O : Ops V)

theorem jfold_append (step : V → V → V) (xs ys : List V) (a : V) (p : Bool) (hx : xs ≠ []) :
    jfold O step ys (jfold O step xs a p) true = jfold O step (xs ++ ys) a p := by
  cases xs with
  | nil => exact absurd rfl hx
  | cons x xs =>
    cases p <;> cases ys <;> simp [jfold, List.foldl_append]

/-- Aggregating some rows on top of the result of previous ones is aggregating all of them. -/
theorem jagg_append (f : Fn) (xs ys : List V) (a : V) (p : Bool) (hx : xs ≠ []) :
    jagg O f ys (jagg O f xs a p) true = jagg O f (xs ++ ys) a p := by
  cases f with
  | first =>
    cases xs with
    | nil => exact absurd rfl hx
    | cons x xs => cases p <;> simp [jagg, jfirst]
  | last =>
    simp only [jagg, jlast, List.getLast?_append]
    obtain ⟨z, hz⟩ := getLast?_of_ne hx
    cases hy : ys.getLast? <;> simp [hz]
  | min => exact jfold_append O _ xs ys a p hx
  | max => exact jfold_append O _ xs ys a p hx
  | sum => exact jfold_append O _ xs ys a p hx

/-- From scratch, the function is the aggregate of the column. -/
theorem jagg_fresh (f : Fn) (xs : List V) (a : V) (hx : xs ≠ []) : some (jagg O f xs a false) = aggCol O f xs := by
  cases xs with
  | nil => exact absurd rfl hx
  | cons x xs =>
    cases f with
    | last =>
      obtain ⟨z, hz⟩ := getLast?_of_ne hx
      simp only [jagg, jlast, aggCol, hz]
    | _ => simp [jagg, jfirst, jmin, jmax, jsum, jfold, aggCol, reduce]

end

/-! ### `jcsagg` -/

section
variable {R A : Type} (upd : List R → A → Bool → A)

/-- The update of the accumulator is consistent: it can be split, and does not read the accumulator when starting
from scratch. -/
structure Hom : Prop where
  split : ∀ xs ys a p, xs ≠ [] → ys ≠ [] → upd ys (upd xs a p) true = upd (xs ++ ys) a p
  fresh : ∀ xs a b, xs ≠ [] → upd xs a false = upd xs b false

/-- Aggregate of `rows` continuing `prev`. -/
def value (a0 : A) (prev : Option A) (rows : List R) : Option A :=
  if rows = [] then prev else some (match prev with
    | none => upd rows a0 false
    | some a => upd rows a true)

theorem value_append {upd : List R → A → Bool → A} (H : Hom upd) (a0 : A) (prev : Option A) (xs ys : List R) :
    value upd a0 (value upd a0 prev xs) ys = value upd a0 prev (xs ++ ys) := by
  by_cases hx : xs = []
  · subst hx; simp [value]
  by_cases hy : ys = []
  · subst hy; simp [value, hx]
  simp only [value, hx, hy, if_false, List.append_eq_nil_iff, and_self, Option.some.injEq]
  cases prev <;> exact H.split _ _ _ _ hx hy

/-- Rows between two positions. -/
def slice (data : List R) (b n : Nat) : List R := (data.drop b).take (n - b)

theorem slice_append (data : List R) {b c n : Nat} (h1 : b ≤ c) (h2 : c ≤ n) :
    slice data b c ++ slice data c n = slice data b n := by
  unfold slice
  rw [show n - b = (c - b) + (n - c) by omega, List.take_add, List.drop_drop]
  congr 3; omega

theorem slice_eq_nil (data : List R) {b n : Nat} (h : b ≤ n) (hn : n ≤ data.length) :
    slice data b n = [] ↔ b = n := by
  rw [← List.length_eq_zero_iff]
  simp [slice]; omega

/-- What the events record: each one the aggregate of the rows since the start `b` of the bin in progress. -/
def run (a0 : A) (data : List R) : Nat → Option A → List (Bool × Nat) → List (Bool × Option A)
  | _, _, [] => []
  | b, prev, (isBin, n) :: es =>
    (isBin, value upd a0 prev (slice data b n)) ::
      (if isBin then run a0 data n none es else run a0 data b prev es)

theorem jloop_eq {upd : List R → A → Bool → A} (H : Hom upd) (a0 : A) (data : List R) (es : List (Bool × Nat))
    (b c : Nat) (prev : Option A) (st : St A) (hbc : b ≤ c) (hc : c ≤ data.length)
    (hmono : (c :: es.map Prod.snd).Pairwise (· ≤ ·)) (hle : ∀ e ∈ es, e.2 ≤ data.length)
    (h1 : st.chunkStart = c) (h2 : st.binStart = if prev.isSome then -1 else (b : Int))
    (h3 : st.preserve = (value upd a0 prev (slice data b c)).isSome)
    (h4 : ∀ a, value upd a0 prev (slice data b c) = some a → st.res = a) :
    (jloop upd data st es).1 = run upd a0 data b prev es := by
  induction es generalizing b c prev st with
  | nil => rfl
  | cons e es ih =>
    obtain ⟨isBin, n⟩ := e
    have hm := List.pairwise_cons.1 hmono
    have hcn : c ≤ n := hm.1 n (by simp)
    have hn : n ≤ data.length := hle (isBin, n) (by simp)
    have hbn : b ≤ n := by omega
    have hmono' : (n :: es.map Prod.snd).Pairwise (· ≤ ·) := hm.2
    have hle' : ∀ e ∈ es, e.2 ≤ data.length := fun e he => hle e (by simp [he])
    -- the value recorded
    have hval : (jstep upd data st (!isBin) n).1 = value upd a0 prev (slice data b n) ∧
        (∀ a, value upd a0 prev (slice data b n) = some a → (jstep upd data st (!isBin) n).2.res = a) ∧
        (jstep upd data st (!isBin) n).2.chunkStart = n ∧
        (isBin = false → (jstep upd data st (!isBin) n).2.binStart = st.binStart ∧
          (jstep upd data st (!isBin) n).2.preserve = (value upd a0 prev (slice data b n)).isSome) ∧
        (isBin = true → (jstep upd data st (!isBin) n).2.binStart = n ∧
          (jstep upd data st (!isBin) n).2.preserve = false) := by
      unfold jstep
      by_cases hb : st.binStart = (n : Int)
      · rw [if_pos hb]
        cases prev with
        | some a => rw [h2] at hb; simp at hb
        | none =>
          rw [h2] at hb
          simp at hb
          have hbn' : b = n := by omega
          have hcn' : c = n := by omega
          have hs : slice data b n = [] := (slice_eq_nil data hbn hn).2 hbn'
          have hv : value upd a0 none (slice data b n) = none := by rw [hs]; simp [value]
          rw [hv]
          refine ⟨rfl, by simp, rfl, ?_, ?_⟩
          · rintro rfl
            refine ⟨rfl, ?_⟩
            simp only [Bool.not_false, if_true]
            rw [h3, hcn', hv]
          · rintro rfl
            exact ⟨by simp [h2, hbn'], rfl⟩
      · rw [if_neg hb]
        have hchunk : (data.drop st.chunkStart).take (n - st.chunkStart) = slice data c n := by rw [h1]; rfl
        simp only [hchunk]
        -- the new value of `chunk_res`
        have hres : some (if (slice data c n).isEmpty then st.res else upd (slice data c n) st.res st.preserve) =
            value upd a0 prev (slice data b n) := by
          rw [← slice_append data hbc hcn, ← value_append H]
          by_cases hs : slice data c n = []
          · rw [hs, show value upd a0 (value upd a0 prev (slice data b c)) [] = value upd a0 prev (slice data b c) by
              simp [value]]
            simp only [List.isEmpty_nil, if_true]
            cases hv : value upd a0 prev (slice data b c) with
            | some a => rw [h4 a hv]
            | none =>
              exfalso
              apply hb
              have hp : prev = none := by
                by_contra hp
                obtain ⟨a, rfl⟩ := Option.ne_none_iff_exists'.1 hp
                unfold value at hv; split at hv <;> simp at hv
              subst hp
              have hs0 : slice data b c = [] := by
                by_contra hs0; simp [value, hs0] at hv
              have := (slice_eq_nil data hbc hc).1 hs0
              have := (slice_eq_nil data hcn hn).1 hs
              rw [h2]; simp; omega
          · rw [show (slice data c n).isEmpty = false by simpa using hs]
            simp only [Bool.false_eq_true, if_false]
            cases hv : value upd a0 prev (slice data b c) with
            | none =>
              rw [h3, hv]
              simp only [value, hs, if_false, Option.isSome_none]
              rw [H.fresh _ _ a0 hs]
            | some a =>
              rw [h3, hv, h4 a hv]
              simp only [value, hs, if_false, Option.isSome_some]
        refine ⟨hres, ?_, ?_, ?_, ?_⟩
        · intro a ha
          rw [ha] at hres
          cases isBin <;> simpa using hres
        · cases isBin <;> rfl
        · rintro rfl
          refine ⟨rfl, ?_⟩
          rw [← hres]; rfl
        · rintro rfl
          exact ⟨rfl, rfl⟩
    obtain ⟨hv1, hv2, hv3, hv4, hv5⟩ := hval
    have hrec : ∀ b' prev', b' ≤ n →
        (jstep upd data st (!isBin) n).2.binStart = (if prev'.isSome then -1 else (b' : Int)) →
        (jstep upd data st (!isBin) n).2.preserve = (value upd a0 prev' (slice data b' n)).isSome →
        (∀ a, value upd a0 prev' (slice data b' n) = some a → (jstep upd data st (!isBin) n).2.res = a) →
        (jloop upd data (jstep upd data st (!isBin) n).2 es).1 = run upd a0 data b' prev' es :=
      fun b' prev' hb' e1 e2 e3 => ih b' n prev' _ hb' hn hmono' hle' hv3 e1 e2 e3
    rw [jloop, run]
    simp only
    rw [hv1]
    congr 1
    cases isBin with
    | false =>
      simp only [Bool.false_eq_true, if_false]
      obtain ⟨e1, e2⟩ := hv4 rfl
      exact hrec b prev hbn (by rw [e1]; exact h2) e2 hv2
    | true =>
      simp only [if_true]
      obtain ⟨e1, e2⟩ := hv5 rfl
      have hs : slice data n n = [] := by simp [slice]
      exact hrec n none (le_refl n) (by rw [e1]; rfl) (by rw [e2, hs]; simp [value])
        (by rw [hs]; simp [value])

/-- `chunk_res` is the last result recorded. -/
theorem jloop_res (data : List R) (es : List (Bool × Nat)) (st : St A) :
    (jloop upd data st es).2 =
      (((jloop upd data st es).1.filterMap Prod.snd).getLast?).getD st.res := by
  induction es generalizing st with
  | nil => rfl
  | cons e es ih =>
    obtain ⟨isBin, n⟩ := e
    simp only [jloop]
    rw [ih]
    cases hv : (jstep upd data st (!isBin) n).1 with
    | none =>
      have : (jstep upd data st (!isBin) n).2.res = st.res := by
        unfold jstep at hv ⊢; split
        · rfl
        · rename_i h; rw [if_neg h] at hv; simp at hv
      rw [this]; rfl
    | some a =>
      have : (jstep upd data st (!isBin) n).2.res = a := by
        unfold jstep at hv ⊢; split
        · rename_i h; rw [if_pos h] at hv; simp at hv
        · rename_i h; rw [if_neg h] at hv; cases isBin <;> simpa using hv
      rw [List.filterMap_cons_some (f := Prod.snd) (a := (isBin, some a)) rfl, List.getLast?_cons, this]
      simp

/-- Runs with accumulators related by a projection record related results: the run over joined accumulators is the
separate runs. -/
theorem jloop_proj {A' : Type} (upd' : List R → A' → Bool → A') (P : A → Prop) (π : A → A')
    (hπ : ∀ xs a p, P a → π (upd xs a p) = upd' xs (π a) p) (hP : ∀ xs a p, P a → P (upd xs a p))
    (data : List R) (es : List (Bool × Nat)) (st : St A) (h0 : P st.res) :
    (jloop upd' data ⟨st.binStart, st.chunkStart, st.preserve, π st.res⟩ es).1 =
      (jloop upd data st es).1.map (fun r => (r.1, r.2.map π)) ∧
    (jloop upd' data ⟨st.binStart, st.chunkStart, st.preserve, π st.res⟩ es).2 = π (jloop upd data st es).2 ∧
    P (jloop upd data st es).2 ∧ ∀ r ∈ (jloop upd data st es).1, ∀ a, r.2 = some a → P a := by
  induction es generalizing st with
  | nil => exact ⟨rfl, rfl, h0, by simp [jloop]⟩
  | cons e es ih =>
    obtain ⟨isBin, n⟩ := e
    have hst : jstep upd' data ⟨st.binStart, st.chunkStart, st.preserve, π st.res⟩ (!isBin) n =
        ((jstep upd data st (!isBin) n).1.map π,
          ⟨(jstep upd data st (!isBin) n).2.binStart, (jstep upd data st (!isBin) n).2.chunkStart,
            (jstep upd data st (!isBin) n).2.preserve, π (jstep upd data st (!isBin) n).2.res⟩) ∧
        P (jstep upd data st (!isBin) n).2.res ∧ (∀ a, (jstep upd data st (!isBin) n).1 = some a → P a) := by
      unfold jstep
      by_cases hb : st.binStart = (n : Int)
      · simp only [hb, if_true]
        exact ⟨rfl, h0, by simp⟩
      · simp only [hb, if_false]
        by_cases hc : ((data.drop st.chunkStart).take (n - st.chunkStart)).isEmpty = true
        · simp only [hc, if_true]
          cases isBin <;> exact ⟨rfl, h0, by rintro a ha; cases ha; exact h0⟩
        · simp only [hc, if_false]
          have := hP ((data.drop st.chunkStart).take (n - st.chunkStart)) st.res st.preserve h0
          cases isBin <;>
            exact ⟨by simp [hπ _ _ _ h0], this, by rintro a ha; cases ha; exact this⟩
    obtain ⟨e1, e2, e3⟩ := hst
    obtain ⟨i1, i2, i3, i4⟩ := ih (jstep upd data st (!isBin) n).2 e2
    simp only [jloop, e1]
    refine ⟨by rw [i1]; rfl, i2, i3, ?_⟩
    intro r hr a ha
    rcases List.mem_cons.1 hr with rfl | hr
    · exact e3 a ha
    · exact i4 r hr a ha

end

/-! ### Kinds of the chunks -/

theorem classify_eq (es : List Ev) (k last : Nat) (bs : List Nat)
    (h : (es.zipIdx k).filter (fun p => p.1.2.1) = [] → bs ≠ [] ∧ ∀ b ∈ bs, b < k)
    (h' : (es.zipIdx k).filter (fun p => p.1.2.1) ≠ [] →
      bs = ((es.zipIdx k).filter (fun p => p.1.2.1)).map Prod.snd) :
    classify k bs (es.map (fun e => e.2.2)) = es.map (fun e => (e.2.1, e.2.2)) := by
  induction es generalizing k bs with
  | nil => rfl
  | cons e es ih =>
    obtain ⟨x, t, s⟩ := e
    rw [List.zipIdx_cons] at h h'
    have hgt : ∀ i ∈ ((es.zipIdx (k + 1)).filter (fun p => p.1.2.1)).map Prod.snd, k < i := by
      intro i hi
      obtain ⟨p, hp, rfl⟩ := List.mem_map.1 hi
      have := List.le_snd_of_mem_zipIdx (List.mem_filter.1 hp).1
      omega
    cases t with
    | true =>
      have hb := h' (by simp)
      simp only [List.filter_cons, if_true, List.map_cons] at hb
      subst hb
      simp only [List.map_cons, classify, if_true]
      rw [ih]
      · intro h0
        rw [h0]; simp
      · intro h0
        rw [if_neg (by simpa using h0)]
    | false =>
      simp only [List.filter_cons, Bool.false_eq_true, if_false] at h h'
      have hne : bs ≠ [] := by
        by_cases h0 : (es.zipIdx (k + 1)).filter (fun p => p.1.2.1) = []
        · exact (h h0).1
        · rw [h' h0]; simpa using h0
      have hk : ∀ b ∈ bs, b ≠ k := by
        intro b hb
        by_cases h0 : (es.zipIdx (k + 1)).filter (fun p => p.1.2.1) = []
        · have := (h h0).2 b hb; omega
        · rw [h' h0] at hb; have := hgt b hb; omega
      cases bs with
      | nil => exact absurd rfl hne
      | cons b bs =>
        have hbk := hk b (by simp)
        simp only [List.map_cons, classify, if_neg (Ne.symm hbk)]
        rw [ih (k + 1) (b :: bs)]
        · intro h0; exact ⟨hne, fun b' hb' => by have := (h h0).2 b' hb'; omega⟩
        · intro h0; exact h' h0

/-- With the positions of the bins, each chunk gets its kind. -/
theorem classify_binPositions (es : List Ev) (h : ∃ e ∈ es, e.2.1 = true) :
    classify 0 (binPositions es) (es.map (fun e => e.2.2)) = es.map (fun e => (e.2.1, e.2.2)) := by
  apply classify_eq es 0 0
  · intro h0
    obtain ⟨e, he, ht⟩ := h
    exfalso
    obtain ⟨i, hi, rfl⟩ := List.getElem_of_mem he
    have : (es[i], i) ∈ es.zipIdx 0 := by
      rw [List.mem_zipIdx_iff_getElem?]; simp [hi]
    have := List.mem_filter (p := fun p : Ev × Nat => p.1.2.1) |>.2 ⟨this, ht⟩
    rw [h0] at this; simp at this
  · intro _; rfl

end Oups.Agg
