import Verif.Model.Segment
import Verif.Spec.Segment
import Mathlib.Order.Lattice
import Mathlib.Tactic.Linarith
/-! `_next_chunk_starts`: chunk starts are ranks. -/
set_option linter.unusedSimpArgs false
namespace Oups.Segment
open Spec

theorem beyond_eq_not_within (right : Bool) (e v : Int) : beyond right e v = !(within right e v) := by
  unfold beyond within
  rw [Bool.eq_iff_iff]
  cases right <;> simp

theorem scan_eq (b : Int → Bool) (i : Nat) (vs : List Int) (hne : vs ≠ []) :
    scan b i vs = if (vs.takeWhile (fun v => !b v)).length < vs.length
      then (i + (vs.takeWhile (fun v => !b v)).length, false) else (i + vs.length - 1, true) := by
  induction vs generalizing i with
  | nil => exact absurd rfl hne
  | cons v vs ih =>
    simp only [scan, List.takeWhile]
    by_cases hb : b v = true
    · simp [hb]
    · simp only [Bool.not_eq_true] at hb
      simp only [hb, Bool.false_eq_true, if_false, Bool.not_false]
      by_cases hv : vs = []
      · subst hv; simp [scan]
      · rw [ih (i + 1) hv]
        simp only [List.length_cons]
        split
        · rename_i h; rw [if_pos (by omega)]; congr 1; omega
        · rename_i h; rw [if_neg (by omega)]; congr 1; omega

/-- Positions in ascending order. -/
abbrev Asc (l : List Int) : Prop := l.Pairwise (· ≤ ·)

theorem within_mono {right : Bool} {e a b : Int} (h : a ≤ b) (hw : within right e b = true) :
    within right e a = true := by
  unfold within at *; split at hw <;> simp_all <;> omega

theorem within_mono_edge {right : Bool} {e e' a : Int} (h : e ≤ e') (hw : within right e a = true) :
    within right e' a = true := by
  unfold within at *; split at hw <;> simp_all <;> omega

theorem countP_eq_takeWhile (right : Bool) (e : Int) (data : List Int) (h : Asc data) :
    data.countP (within right e) = (data.takeWhile (within right e)).length := by
  induction data with
  | nil => rfl
  | cons a l ih =>
    have h' := List.pairwise_cons.1 h
    rw [List.countP_cons, List.takeWhile, ih h'.2]
    by_cases ha : within right e a = true
    · simp [ha]
    · simp only [Bool.not_eq_true] at ha
      simp only [ha, Bool.false_eq_true, if_false]
      cases l with
      | nil => rfl
      | cons b l =>
        simp only [List.takeWhile]
        have : within right e b = false := by
          by_contra hb
          simp only [Bool.not_eq_false] at hb
          have := within_mono (h'.1 b (by simp)) hb
          simp [this] at ha
        simp [this]

theorem length_takeWhile_drop (p : Int → Bool) (data : List Int) (d : Nat)
    (h : d ≤ (data.takeWhile p).length) :
    ((data.drop d).takeWhile p).length + d = (data.takeWhile p).length := by
  induction data generalizing d with
  | nil => simp at h; subst h; simp
  | cons a l ih =>
    cases d with
    | zero => simp
    | succ d =>
      simp only [List.takeWhile] at h ⊢
      by_cases ha : p a = true
      · simp only [ha, List.length_cons] at h ⊢
        have := ih d (by omega)
        simp only [List.drop_succ_cons]; omega
      · simp only [Bool.not_eq_true] at ha
        simp [ha] at h

/-- One turn of the outer loop, in terms of ranks. -/
theorem chunkLoop_cons (right : Bool) (data : List Int) (e : Int) (edges : List Int) (d prev : Nat)
    (hs : Asc data) (hd : d < data.length) (hr : d ≤ data.countP (within right e)) :
    chunkLoop right data (e :: edges) d prev =
      if data.countP (within right e) = data.length then ([data.length], 0, true)
      else
        let r := data.countP (within right e)
        let rest := chunkLoop right data edges r r
        (r :: rest.1, (if prev = r then rest.2.1 + 1 else rest.2.1), rest.2.2) := by
  have hne : data.drop d ≠ [] := by
    intro h; have := congrArg List.length h; simp at this; omega
  rw [chunkLoop, scan_eq _ _ _ hne]
  have hw : (fun v => !beyond right e v) = within right e := by
    funext v; rw [beyond_eq_not_within]; simp
  rw [hw]
  have hlen := length_takeWhile_drop (within right e) data d (by rw [← countP_eq_takeWhile _ _ _ hs]; exact hr)
  rw [← countP_eq_takeWhile _ _ _ hs] at hlen
  have hle : data.countP (within right e) ≤ data.length := List.countP_le_length
  simp only [List.length_drop, Nat.zero_add]
  generalize hk : ((data.drop d).takeWhile (within right e)).length = k at *
  by_cases hc : data.countP (within right e) = data.length
  · have h1 : ¬ k < data.length - d := by omega
    have h2 : d + (data.length - d - 1) = data.length - 1 := by omega
    have h3 : data.length - 1 + 1 = data.length := by omega
    simp [hc, h1, h2, h3]
  · have h1 : k < data.length - d := by omega
    simp only [h1, hc, if_true, if_false, Bool.and_false, Bool.false_eq_true]
    rw [show d + k = data.countP (within right e) by omega]
    split
    · rename_i h; subst h; rfl
    · rfl

/-- Ranks, up to the first that covers everything. -/
def upTo (n : Nat) : List Nat → List Nat
  | [] => []
  | r :: rs => if r = n then [r] else r :: upTo n rs

/-- Number of entries equal to the previous one. -/
def repeats (prev : Nat) : List Nat → Nat
  | [] => 0
  | r :: rs => (if prev = r then 1 else 0) + repeats r rs

theorem countP_mono_edge (right : Bool) {e e' : Int} (h : e ≤ e') (data : List Int) :
    data.countP (within right e) ≤ data.countP (within right e') :=
  List.countP_mono_left (fun _ _ hx => within_mono_edge h hx)

theorem chunkLoop_eq (right : Bool) (data edges : List Int) (d : Nat) (hs : Asc data) (he : Asc edges)
    (hd : d < data.length) (hr : ∀ e ∈ edges, d ≤ data.countP (within right e)) :
    chunkLoop right data edges d d =
      (upTo data.length (edges.map fun e => data.countP (within right e)),
       repeats d (upTo data.length (edges.map fun e => data.countP (within right e))),
       decide (data.length ∈ edges.map fun e => data.countP (within right e))) := by
  induction edges generalizing d with
  | nil => simp [chunkLoop, upTo, repeats]
  | cons e edges ih =>
    have he' := List.pairwise_cons.1 he
    rw [chunkLoop_cons right data e edges d d hs hd (hr e (by simp))]
    by_cases hc : data.countP (within right e) = data.length
    · simp only [hc, if_true, List.map_cons, upTo, repeats, List.mem_cons, true_or, decide_true]
      rw [if_neg (by omega)]
    · have hle : data.countP (within right e) ≤ data.length := List.countP_le_length
      have := ih (data.countP (within right e)) he'.2 (by omega)
        (fun e' h' => countP_mono_edge right (he'.1 e' h') data)
      simp only [if_neg hc, this, List.map_cons, upTo, repeats, List.mem_cons]
      refine Prod.ext rfl (Prod.ext ?_ ?_)
      · simp only; split <;> omega
      · simp only [Ne.symm hc, false_or]

theorem nextChunkStarts_eq (data edges : List Int) (right : Bool) (hs : Asc data) (he : Asc edges)
    (hne : data ≠ []) :
    nextChunkStarts data edges right =
      (upTo data.length (edges.map fun e => data.countP (within right e)),
       repeats 0 (upTo data.length (edges.map fun e => data.countP (within right e))),
       decide (data.length ∈ edges.map fun e => data.countP (within right e))) :=
  chunkLoop_eq right data edges 0 hs he (List.length_pos_iff.2 hne) (fun _ _ => Nat.zero_le _)

/-! ### Facts on `upTo`, `repeats`, `cut` -/

theorem upTo_prefix (n : Nat) (l : List Nat) : upTo n l <+: l := by
  induction l with
  | nil => exact List.prefix_refl _
  | cons r rs ih =>
    simp only [upTo]
    split
    · simp
    · exact (List.prefix_cons_inj r).2 ih

theorem upTo_of_not_mem {n : Nat} {l : List Nat} (h : n ∉ l) : upTo n l = l := by
  induction l with
  | nil => rfl
  | cons r rs ih =>
    simp only [List.mem_cons, not_or] at h
    simp only [upTo, if_neg (Ne.symm h.1), ih h.2]

theorem upTo_getLast {n : Nat} {l : List Nat} (h : n ∈ l) : (upTo n l).getLast? = some n := by
  induction l with
  | nil => simp at h
  | cons r rs ih =>
    simp only [upTo]
    split
    · rename_i h1; simp [h1]
    · rename_i h1
      have h2 : n ∈ rs := by
        rcases List.mem_cons.1 h with h | h
        · exact absurd h.symm h1
        · exact h
      rw [List.getLast?_cons, ih h2]; rfl

theorem upTo_dropLast_ne {n : Nat} {l : List Nat} : ∀ x ∈ (upTo n l).dropLast, x ≠ n := by
  induction l with
  | nil => simp [upTo]
  | cons r rs ih =>
    simp only [upTo]
    split
    · simp
    · rename_i h1
      intro x hx
      cases hu : upTo n rs with
      | nil => rw [hu] at hx; simp at hx
      | cons y ys =>
        rw [hu, List.dropLast_cons₂] at hx
        rcases List.mem_cons.1 hx with rfl | hx
        · exact h1
        · exact ih x (by rw [hu]; exact hx)

theorem length_cut {R : Type} (rows : List R) (s : Nat) (ts : List Nat) : (cut rows s ts).length = ts.length := by
  induction ts generalizing s with
  | nil => rfl
  | cons t ts ih => simp [cut, ih]

theorem repeats_eq_countP (rows : List Int) (s : Nat) (ts : List Nat) (hs : (s :: ts).Pairwise (· ≤ ·))
    (hle : ∀ t ∈ ts, t ≤ rows.length) :
    repeats s ts = (cut rows s ts).countP List.isEmpty := by
  induction ts generalizing s with
  | nil => rfl
  | cons t ts ih =>
    have h' := List.pairwise_cons.1 hs
    rw [repeats, cut, List.countP_cons, ih t h'.2 (fun x hx => hle x (by simp [hx])), Nat.add_comm]
    congr 1
    have h1 := h'.1 t (by simp)
    have h2 := hle t (by simp)
    by_cases h : s = t
    · subst h; simp
    · rw [if_neg h, if_neg]
      simp only [List.isEmpty_iff]
      intro hc
      have := congrArg List.length hc
      simp only [List.length_take, List.length_drop, List.length_nil] at this
      omega

end Oups.Segment
