import Verif.Proofs.SegmentRank
import Verif.Proofs.WriterSort
/-! `mergesort`: merge of snapshots and bins. -/
set_option linter.unusedSimpArgs false
namespace Oups.Segment
open Spec

/-- Stable merge on the first component, the first list first on ties. -/
def mergeEv {α : Type} : List (Int × α) → List (Int × α) → List (Int × α)
  | [], b => b
  | x :: a, b => b.takeWhile (fun y => decide (y.1 < x.1)) ++ x :: mergeEv a (b.dropWhile (fun y => decide (y.1 < x.1)))

section
variable {α : Type}

abbrev KeyAsc (l : List (Int × α)) : Prop := l.Pairwise (fun a b => a.1 ≤ b.1)

theorem mem_mergeEv (a b : List (Int × α)) (x : Int × α) : x ∈ mergeEv a b ↔ x ∈ a ∨ x ∈ b := by
  induction a generalizing b with
  | nil => simp [mergeEv]
  | cons y a ih =>
    simp only [mergeEv, List.mem_append, List.mem_cons, ih]
    have : x ∈ b ↔ x ∈ b.takeWhile (fun z => decide (z.1 < y.1)) ∨ x ∈ b.dropWhile (fun z => decide (z.1 < y.1)) := by
      conv_lhs => rw [← List.takeWhile_append_dropWhile (p := fun z => decide (z.1 < y.1)) (l := b)]
      exact List.mem_append
    rw [this]
    tauto

theorem keyAsc_dropWhile {p : Int × α → Bool} {l : List (Int × α)} (h : KeyAsc l) : KeyAsc (l.dropWhile p) :=
  h.sublist (List.dropWhile_sublist p)

theorem keyAsc_takeWhile {p : Int × α → Bool} {l : List (Int × α)} (h : KeyAsc l) : KeyAsc (l.takeWhile p) :=
  h.sublist (List.takeWhile_sublist p)

theorem mem_dropWhile_key {v : Int} {l : List (Int × α)} (hs : KeyAsc l) {x : Int × α}
    (h : x ∈ l.dropWhile (fun a => decide (a.1 < v))) : v ≤ x.1 := Oups.mem_dropWhile_lt hs h

theorem mem_takeWhile_key {v : Int} {l : List (Int × α)} {x : Int × α}
    (h : x ∈ l.takeWhile (fun a => decide (a.1 < v))) : x.1 < v := by
  simpa using Oups.mem_takeWhile_imp' h

theorem keyAsc_mergeEv (a b : List (Int × α)) (ha : KeyAsc a) (hb : KeyAsc b) : KeyAsc (mergeEv a b) := by
  induction a generalizing b with
  | nil => exact hb
  | cons x a ih =>
    have ha' := List.pairwise_cons.1 ha
    rw [mergeEv, KeyAsc, List.pairwise_append, List.pairwise_cons]
    refine ⟨keyAsc_takeWhile hb, ⟨?_, ih _ ha'.2 (keyAsc_dropWhile hb)⟩, ?_⟩
    · intro y hy
      rcases (mem_mergeEv _ _ _).1 hy with h | h
      · exact ha'.1 y h
      · exact mem_dropWhile_key hb h
    · intro y hy z hz
      have hy := mem_takeWhile_key hy
      rcases List.mem_cons.1 hz with rfl | hz
      · omega
      · rcases (mem_mergeEv _ _ _).1 hz with h | h
        · have := ha'.1 z h; omega
        · have := mem_dropWhile_key hb h; omega

theorem filter_mergeEv_key (a b : List (Int × α)) (ha : KeyAsc a) (hb : KeyAsc b) (v : Int) :
    (mergeEv a b).filter (fun r => decide (r.1 = v)) =
      a.filter (fun r => decide (r.1 = v)) ++ b.filter (fun r => decide (r.1 = v)) := by
  induction a generalizing b with
  | nil => rfl
  | cons x a ih =>
    have ha' := List.pairwise_cons.1 ha
    rw [mergeEv, List.filter_append, List.filter_cons, ih _ ha'.2 (keyAsc_dropWhile hb)]
    have hsplit : b.filter (fun r => decide (r.1 = v)) =
        (b.takeWhile (fun y => decide (y.1 < x.1))).filter (fun r => decide (r.1 = v)) ++
        (b.dropWhile (fun y => decide (y.1 < x.1))).filter (fun r => decide (r.1 = v)) := by
      conv_lhs => rw [← List.takeWhile_append_dropWhile (p := fun z => decide (z.1 < x.1)) (l := b)]
      exact List.filter_append ..
    rw [hsplit]
    by_cases hv : v < x.1
    · have h1 : ¬ x.1 = v := by omega
      have h2 : a.filter (fun r => decide (r.1 = v)) = [] := by
        rw [List.filter_eq_nil_iff]; intro y hy; have := ha'.1 y hy; simp; omega
      have h3 : (b.dropWhile (fun y => decide (y.1 < x.1))).filter (fun r => decide (r.1 = v)) = [] := by
        rw [List.filter_eq_nil_iff]; intro y hy; have := mem_dropWhile_key hb hy; simp; omega
      simp [List.filter_cons, h1, h2, h3]
    · have h4 : (b.takeWhile (fun y => decide (y.1 < x.1))).filter (fun r => decide (r.1 = v)) = [] := by
        rw [List.filter_eq_nil_iff]; intro y hy; have := mem_takeWhile_key hy; simp; omega
      rw [h4, List.nil_append, List.nil_append, List.filter_cons]
      split <;> simp

/-- A stable sort of two ordered sequences one after the other is their merge. -/
theorem insertionSort_append (a b : List (Int × α)) (ha : KeyAsc a) (hb : KeyAsc b) :
    (a ++ b).insertionSort (fun x y => x.1 ≤ y.1) = mergeEv a b := by
  apply Oups.Writer.sorted_ext (fun x : Int × α => x.1)
  · exact Oups.Writer.stableSort_sorted (fun x : Int × α => x.1) (a ++ b)
  · exact keyAsc_mergeEv a b ha hb
  · intro v
    rw [filter_mergeEv_key a b ha hb v, ← List.filter_append]
    exact Oups.Writer.stableSort_filter (fun x : Int × α => x.1) _ v (by intro r hr; simpa using hr) (a ++ b)

theorem mergeEv_map {β : Type} (f : Int × α → Int × β) (hf : ∀ x, (f x).1 = x.1) (a b : List (Int × α)) :
    (mergeEv a b).map f = mergeEv (a.map f) (b.map f) := by
  induction a generalizing b with
  | nil => rfl
  | cons x a ih =>
    simp only [mergeEv, List.map_append, List.map_cons, ih]
    have h1 : ∀ b : List (Int × α), (b.map f).takeWhile (fun y => decide (y.1 < (f x).1)) =
        (b.takeWhile (fun y => decide (y.1 < x.1))).map f := by
      intro b
      rw [List.takeWhile_map]
      congr 2; funext y; simp [hf]
    have h2 : ∀ b : List (Int × α), (b.map f).dropWhile (fun y => decide (y.1 < (f x).1)) =
        (b.dropWhile (fun y => decide (y.1 < x.1))).map f := by
      intro b
      rw [List.dropWhile_map]
      congr 2; funext y; simp [hf]
    rw [h1, h2]

theorem length_mergeEv (a b : List (Int × α)) : (mergeEv a b).length = a.length + b.length := by
  induction a generalizing b with
  | nil => simp [mergeEv]
  | cons x a ih =>
    have := congrArg List.length (List.takeWhile_append_dropWhile (p := fun z => decide (z.1 < x.1)) (l := b))
    rw [List.length_append] at this
    simp only [mergeEv, List.length_append, List.length_cons, ih]
    omega

end

/-- A merged entry: key, whether it is a bin, chunk start. -/
abbrev Ev := Int × Bool × Nat

def evs (isBin : Bool) (keys : List Int) (starts : List Nat) : List Ev :=
  (keys.zip starts).map fun p => (p.1, isBin, p.2)

/-- Merged sequence. -/
def events (snaps bins : List Ev) (force : Bool) : List Ev :=
  if force then mergeEv snaps bins.dropLast ++ bins.getLast?.toList else mergeEv snaps bins

/-- Positions of the bins. -/
def binPositions (es : List Ev) : List Nat := (es.zipIdx.filter (fun p => p.1.2.1)).map Prod.snd

theorem evs_keyAsc (isBin : Bool) (keys : List Int) (starts : List Nat) (h : Asc keys) :
    KeyAsc (evs isBin keys starts) := by
  rw [KeyAsc, evs, List.pairwise_map]
  have : (keys.zip starts).Pairwise (fun a b => a.1 ≤ b.1) := by
    induction keys generalizing starts with
    | nil => simp
    | cons k keys ih =>
      cases starts with
      | nil => simp
      | cons s starts =>
        have h' := List.pairwise_cons.1 h
        rw [List.zip_cons_cons, List.pairwise_cons]
        exact ⟨fun p hp => h'.1 p.1 (List.of_mem_zip hp).1, ih starts h'.2⟩
  exact this

theorem zipIdx_map_ev (isBin : Bool) (keys : List Int) (starts all : List Nat) (n1 off : Nat)
    (hlen : keys.length = starts.length)
    (hall : ∀ i, i < starts.length → all.getD (off + i) 0 = starts.getD i 0)
    (hbin : ∀ i, i < starts.length → decide (n1 ≤ off + i) = isBin) :
    (keys.zipIdx off).map (fun p => ((p.1, decide (n1 ≤ p.2), all.getD p.2 0) : Ev)) = evs isBin keys starts := by
  apply List.ext_getElem
  · simp [evs, hlen]
  · intro i h1 h2
    simp only [List.length_map, List.length_zipIdx] at h1
    simp only [List.getElem_map, List.getElem_zipIdx, evs, List.getElem_zip]
    have := hall i (by omega)
    rw [this, hbin i (by omega), List.getD_eq_getElem?_getD, List.getElem?_eq_getElem (by omega)]
    rfl

theorem asc_dropLast {l : List Int} (h : Asc l) : Asc l.dropLast := h.sublist (List.dropLast_sublist l)

theorem mergesort_eq (l1 l2 : List Nat) (k1 k2 : List Int) (force : Bool) (h1 : k1.length = l1.length)
    (h2 : k2.length = l2.length) (a1 : Asc k1) (a2 : if force then Asc k2.dropLast else Asc k2) (hne : l2 ≠ []) :
    mergesort (l1, l2) (k1, k2) force =
      .ok ((events (evs false k1 l1) (evs true k2 l2) force).map (fun e => e.2.2),
        binPositions (events (evs false k1 l1) (evs true k2 l2) force)) := by
  have hlen := List.length_pos_iff.2 hne
  -- sorted indices, with their key
  let f : Int × Nat → Ev := fun p => (p.1, decide (l1.length ≤ p.2), (l1 ++ l2).getD p.2 0)
  have hsnap : (k1.zipIdx 0).map f = evs false k1 l1 := by
    apply zipIdx_map_ev false k1 l1 (l1 ++ l2) l1.length 0 h1
    · intro i hi
      rw [Nat.zero_add, List.getD_eq_getElem?_getD, List.getElem?_append_left hi, List.getD_eq_getElem?_getD]
    · intro i hi; simp; omega
  have hbinAll : ∀ (k : List Int) (l : List Nat), k.length = l.length → l <+: l2 →
      (k.zipIdx l1.length).map f = evs true k l := by
    intro k l hk hl
    apply zipIdx_map_ev true k l (l1 ++ l2) l1.length l1.length hk
    · intro i hi
      obtain ⟨r, rfl⟩ := hl
      rw [List.getD_eq_getElem?_getD, List.getElem?_append_right (by omega), Nat.add_sub_cancel_left,
        List.getElem?_append_left hi, List.getD_eq_getElem?_getD]
    · intro i hi; simp
  have hsort : ∀ (k : List Int) (l : List Nat), k.length = l.length → l <+: l2 → Asc k →
      (((k1 ++ k).zipIdx).insertionSort (fun a b => a.1 ≤ b.1)).map f = mergeEv (evs false k1 l1) (evs true k l) := by
    intro k l hk hl ha
    rw [List.zipIdx_append, Nat.zero_add, insertionSort_append, mergeEv_map f (fun _ => rfl), hsnap, h1,
      hbinAll k l hk hl]
    · have : (k1.zipIdx.map Prod.fst).Pairwise (· ≤ ·) := by rw [List.zipIdx_map_fst]; exact a1
      rwa [List.pairwise_map] at this
    · have : ((k.zipIdx k1.length).map Prod.fst).Pairwise (· ≤ ·) := by rw [List.zipIdx_map_fst]; exact ha
      rwa [List.pairwise_map] at this
  -- reading labels and positions off a list of indices
  have hread : ∀ (idx : List (Int × Nat)) (es : List Ev), idx.map f = es →
      (idx.map Prod.snd).map (fun i => (l1 ++ l2).getD i 0) = es.map (fun e => e.2.2) ∧
      ((idx.map Prod.snd).zipIdx.filter (fun p => decide (l1.length ≤ p.1))).map Prod.snd = binPositions es := by
    rintro idx es rfl
    refine ⟨by rw [List.map_map, List.map_map]; rfl, ?_⟩
    rw [binPositions, List.zipIdx_map, List.zipIdx_map, List.filter_map, List.filter_map, List.map_map, List.map_map]
    rfl
  unfold mergesort
  simp only [h1, h2, ne_eq, not_true_eq_false, if_false]
  cases force with
  | false =>
    simp only [Bool.false_eq_true, if_false, events, argsort] at a2 ⊢
    obtain ⟨e1, e2⟩ := hread _ _ (hsort k2 l2 h2 (List.prefix_refl _) a2)
    rw [e1, e2]
  | true =>
    simp only [if_true, events, argsort] at a2 ⊢
    have hk2 : k2 ≠ [] := by rintro rfl; simp at h2; omega
    have hlast : (evs true k2 l2).getLast?.toList = [(k2.getLast hk2, true, l2.getLast hne)] := by
      have : evs true k2 l2 = evs true k2.dropLast l2.dropLast ++ [(k2.getLast hk2, true, l2.getLast hne)] := by
        conv_lhs => rw [← List.dropLast_concat_getLast hk2, ← List.dropLast_concat_getLast hne]
        rw [evs, List.zip_append (by simp [h2]), List.map_append]
        rfl
      rw [this, List.getLast?_concat]; rfl
    have hdl : (evs true k2 l2).dropLast = evs true k2.dropLast l2.dropLast := by
      have : evs true k2 l2 = evs true k2.dropLast l2.dropLast ++ [(k2.getLast hk2, true, l2.getLast hne)] := by
        conv_lhs => rw [← List.dropLast_concat_getLast hk2, ← List.dropLast_concat_getLast hne]
        rw [evs, List.zip_append (by simp [h2]), List.map_append]
        rfl
      rw [this, List.dropLast_concat]
    have hs := hsort k2.dropLast l2.dropLast (by simp [h2]) (List.dropLast_prefix l2) a2
    have hfl : f (k2.getLast hk2, l1.length + l2.length - 1) = (k2.getLast hk2, true, l2.getLast hne) := by
      simp only [f, Prod.mk.injEq, true_and]
      refine ⟨by simp; omega, ?_⟩
      rw [List.getD_eq_getElem?_getD, List.getElem?_append_right (by omega), List.getLast_eq_getElem,
        show l1.length + l2.length - 1 - l1.length = l2.length - 1 by omega, List.getElem?_eq_getElem (by omega)]
      rfl
    obtain ⟨e1, e2⟩ := hread
      (((k1 ++ k2.dropLast).zipIdx).insertionSort (fun a b => a.1 ≤ b.1) ++ [(k2.getLast hk2, l1.length + l2.length - 1)])
      (mergeEv (evs false k1 l1) (evs true k2.dropLast l2.dropLast) ++ [(k2.getLast hk2, true, l2.getLast hne)])
      (by rw [List.map_append, hs, List.map_singleton, hfl])
    have hm : (((k1 ++ k2.dropLast).zipIdx).insertionSort (fun a b => a.1 ≤ b.1)).map Prod.snd ++
        [l1.length + l2.length - 1] = (((k1 ++ k2.dropLast).zipIdx).insertionSort (fun a b => a.1 ≤ b.1) ++
          [(k2.getLast hk2, l1.length + l2.length - 1)]).map Prod.snd := by
      rw [List.map_append, List.map_singleton]
    rw [hdl, hlast, hm, e1, e2]

end Oups.Segment

namespace Oups.Segment
open Spec

/-- `x` may precede `y` in a merged sequence: by position, a snapshot before a bin on ties. -/
def Precedes (x y : Ev) : Prop := x.1 < y.1 ∨ (x.1 = y.1 ∧ (x.2.1 = true → y.2.1 = true))

theorem filter_mergeEv {α : Type} (p : Int × α → Bool) (a b : List (Int × α)) (ha : ∀ x ∈ a, p x = false)
    (hb : ∀ x ∈ b, p x = true) : (mergeEv a b).filter p = b := by
  induction a generalizing b with
  | nil => rw [mergeEv, List.filter_eq_self]; exact hb
  | cons x a ih =>
    rw [mergeEv, List.filter_append, List.filter_cons_of_neg (by simp [ha x (by simp)]),
      ih _ (fun y hy => ha y (by simp [hy])) (fun y hy => hb y ((List.dropWhile_sublist _).subset hy)),
      List.filter_eq_self.2 (fun y hy => hb y ((List.takeWhile_sublist _).subset hy)),
      List.takeWhile_append_dropWhile]

theorem filter_mergeEv' {α : Type} (p : Int × α → Bool) (a b : List (Int × α)) (ha : ∀ x ∈ a, p x = true)
    (hb : ∀ x ∈ b, p x = false) : (mergeEv a b).filter p = a := by
  induction a generalizing b with
  | nil => rw [mergeEv, List.filter_eq_nil_iff]; intro x hx; simp [hb x hx]
  | cons x a ih =>
    rw [mergeEv, List.filter_append, List.filter_cons_of_pos (ha x (by simp)),
      ih _ (fun y hy => ha y (by simp [hy])) (fun y hy => hb y ((List.dropWhile_sublist _).subset hy)),
      List.filter_eq_nil_iff.2 (fun y hy => by simp [hb y ((List.takeWhile_sublist _).subset hy)]),
      List.nil_append]

theorem mem_evs {isBin : Bool} {k : List Int} {l : List Nat} {e : Ev} (h : e ∈ evs isBin k l) :
    e.2.1 = isBin ∧ e.1 ∈ k ∧ e.2.2 ∈ l := by
  obtain ⟨p, hp, rfl⟩ := List.mem_map.1 h
  exact ⟨rfl, (List.of_mem_zip hp).1, (List.of_mem_zip hp).2⟩

theorem mergeEv_precedes (a b : List Ev) (ha : KeyAsc a) (hb : KeyAsc b) (hta : ∀ x ∈ a, x.2.1 = false)
    (htb : ∀ x ∈ b, x.2.1 = true) : (mergeEv a b).Pairwise Precedes := by
  induction a generalizing b with
  | nil =>
    refine List.Pairwise.imp_of_mem ?_ hb
    intro x y _ hy hxy
    rcases Int.lt_or_eq_of_le hxy with h | h
    · exact Or.inl h
    · exact Or.inr ⟨h, fun _ => htb y hy⟩
  | cons x a ih =>
    have ha' := List.pairwise_cons.1 ha
    have hbd : ∀ y ∈ b.dropWhile (fun z => decide (z.1 < x.1)), y ∈ b :=
      fun y hy => (List.dropWhile_sublist _).subset hy
    rw [mergeEv, List.pairwise_append, List.pairwise_cons]
    refine ⟨?_, ⟨?_, ih _ ha'.2 (keyAsc_dropWhile hb) (fun y hy => hta y (by simp [hy]))
      (fun y hy => htb y (hbd y hy))⟩, ?_⟩
    · refine List.Pairwise.imp_of_mem ?_ (keyAsc_takeWhile hb)
      intro y z _ hz hyz
      rcases Int.lt_or_eq_of_le hyz with h | h
      · exact Or.inl h
      · exact Or.inr ⟨h, fun _ => htb z ((List.takeWhile_sublist _).subset hz)⟩
    · intro y hy
      have hx : x.2.1 = false := hta x (by simp)
      have hle : x.1 ≤ y.1 := by
        rcases (mem_mergeEv _ _ _).1 hy with h | h
        · exact ha'.1 y h
        · exact mem_dropWhile_key hb h
      rcases Int.lt_or_eq_of_le hle with h | h
      · exact Or.inl h
      · exact Or.inr ⟨h, fun h' => by rw [hx] at h'; cases h'⟩
    · intro y hy z hz
      have hy := mem_takeWhile_key hy
      refine Or.inl ?_
      rcases List.mem_cons.1 hz with rfl | hz
      · exact hy
      · rcases (mem_mergeEv _ _ _).1 hz with h | h
        · have := ha'.1 z h; omega
        · have := mem_dropWhile_key hb h; omega

end Oups.Segment
