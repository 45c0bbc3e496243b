import Verif.Proofs.Aggregate
import Verif.Proofs.SegmentFacts
/-! Results of a merged sequence of snapshots and bins, in terms of bins. -/
set_option linter.unusedSimpArgs false
namespace Oups.Agg
open Oups.Segment Oups.Segment.Spec Spec

variable {R A : Type}

/-- Kind and chunk start of a merged entry. -/
def kind (e : Ev) : Bool × Nat := (e.2.1, e.2.2)

section
variable (upd : List R → A → Bool → A) (a0 : A) (data : List R)

/-- Start of the bin in progress and what it continues, after some bins. -/
def after (st : Nat × Option A) (bins : List Ev) : Nat × Option A := bins.foldl (fun _ e => (e.2.2, none)) st

theorem run_bins (bins es : List Ev) (st : Nat × Option A) (h : ∀ e ∈ bins, e.2.1 = true) :
    run upd a0 data st.1 st.2 ((bins ++ es).map kind) =
      run upd a0 data st.1 st.2 (bins.map kind) ++
        run upd a0 data (after st bins).1 (after st bins).2 (es.map kind) := by
  induction bins generalizing st with
  | nil => simp [run, after]
  | cons e bins ih =>
    have he := h e (by simp)
    obtain ⟨k, t, n⟩ := e
    simp only at he; subst he
    have := ih (n, none) (fun e he => h e (by simp [he]))
    simp only [List.cons_append, List.map_cons, kind, run, if_true] at this ⊢
    rw [this]
    rfl

theorem run_bins_all (bins : List Ev) (b : Nat) (prev : Option A) (h : ∀ e ∈ bins, e.2.1 = true) :
    ∀ r ∈ run upd a0 data b prev (bins.map kind), r.1 = true := by
  induction bins generalizing b prev with
  | nil => simp [run]
  | cons e bins ih =>
    have he := h e (by simp)
    obtain ⟨k, t, n⟩ := e
    simp only at he; subst he
    intro r hr
    simp only [List.map_cons, kind, run, if_true] at hr
    rcases List.mem_cons.1 hr with rfl | hr
    · rfl
    · exact ih n none (fun e he => h e (by simp [he])) r hr

/-- What a snapshot records. -/
def snapAt (st : Nat × Option A) (bins : List Ev) (s : Ev) : Option A :=
  let st' := after st (bins.takeWhile (fun y => decide (y.1 < s.1)))
  value upd a0 st'.2 (slice data st'.1 s.2.2)

theorem run_merge (S Bs F : List Ev) (st : Nat × Option A) (hS : ∀ e ∈ S, e.2.1 = false)
    (hB : ∀ e ∈ Bs, e.2.1 = true) (hF : ∀ e ∈ F, e.2.1 = true) (kS : KeyAsc S) :
    (run upd a0 data st.1 st.2 ((mergeEv S Bs ++ F).map kind)).filter (fun r => r.1) =
      run upd a0 data st.1 st.2 ((Bs ++ F).map kind) ∧
    ((run upd a0 data st.1 st.2 ((mergeEv S Bs ++ F).map kind)).filter (fun r => !r.1)).map Prod.snd =
      S.map (snapAt upd a0 data st Bs) := by
  induction S generalizing Bs st with
  | nil =>
    have hall : ∀ e ∈ Bs ++ F, e.2.1 = true := by
      intro e he; rcases List.mem_append.1 he with h | h
      · exact hB e h
      · exact hF e h
    have := run_bins_all upd a0 data (Bs ++ F) st.1 st.2 hall
    simp only [mergeEv, List.map_nil]
    refine ⟨List.filter_eq_self.2 this, ?_⟩
    rw [List.filter_eq_nil_iff.2 (by intro r hr; simp [this r hr])]
    rfl
  | cons x S ih =>
    have hx := hS x (by simp)
    obtain ⟨k, t, n⟩ := x
    simp only at hx; subst hx
    have kS' := List.pairwise_cons.1 kS
    let T := Bs.takeWhile (fun y => decide (y.1 < k))
    let D := Bs.dropWhile (fun y => decide (y.1 < k))
    have hTD : T ++ D = Bs := List.takeWhile_append_dropWhile
    have hT : ∀ e ∈ T, e.2.1 = true := fun e he => hB e ((List.takeWhile_sublist _).subset he)
    have hTk : ∀ e ∈ T, e.1 < k := fun e he => mem_takeWhile_key he
    have hD : ∀ e ∈ D, e.2.1 = true := fun e he => hB e ((List.dropWhile_sublist _).subset he)
    have hsplit : mergeEv ((k, false, n) :: S) Bs ++ F = T ++ (k, false, n) :: (mergeEv S D ++ F) := by
      simp only [mergeEv, List.append_assoc, List.cons_append]; rfl
    obtain ⟨i1, i2⟩ := ih D (after st T) (fun e he => hS e (by simp [he])) hD kS'.2
    have hTr := run_bins_all upd a0 data T st.1 st.2 hT
    rw [hsplit, run_bins upd a0 data T _ st hT]
    simp only [List.map_cons, List.filter_append, List.map_append, kind, run, Bool.false_eq_true, if_false,
      List.filter_cons, Bool.not_false, if_true]
    constructor
    · rw [← List.map_append, i1, List.filter_eq_self.2 hTr, ← run_bins upd a0 data T _ st hT, ← List.append_assoc, hTD]
      simp [List.map_append]
    · rw [← List.map_append, i2, List.filter_eq_nil_iff.2 (by intro r hr; simp [hTr r hr])]
      simp only [List.map_nil, List.nil_append]
      congr 1
      apply List.map_congr_left
      intro s hs
      have hks := kS'.1 s hs
      unfold snapAt
      have : Bs.takeWhile (fun y => decide (y.1 < s.1)) = T ++ D.takeWhile (fun y => decide (y.1 < s.1)) := by
        conv_lhs => rw [← hTD]
        apply List.takeWhile_append_of_pos
        intro e he
        have := hTk e he
        simp only at hks
        simp; omega
      rw [this]
      simp only [after, List.foldl_append]

end

/-! ### In terms of bins -/

/-- Ends and starts of the bins with a known end. -/
def known (bs : List (Bin R)) (ts : List Nat) : List Ev :=
  (bs.zip ts).filterMap fun p => p.1.stop.map fun e => (e, true, p.2)

theorem rows_of_cut {data : List R} {b t : Nat} {ts : List Nat} {x : Bin R} {bs : List (Bin R)}
    (h : (x :: bs).map Bin.rows = cut data b (t :: ts)) :
    x.rows = slice data b t ∧ bs.map Bin.rows = cut data t ts := by
  simp only [List.map_cons, cut, List.cons.injEq] at h
  exact h

/-- Rows after a bin are those of the next bins. -/
theorem drop_rows {data : List R} {t : Nat} {ts : List Nat} {bs : List (Bin R)}
    (h : bs.map Bin.rows = cut data t ts) (hm : (t :: ts).Pairwise (· ≤ ·))
    (hl : (t :: ts).getLast? = some data.length) : data.drop t = (bs.map Bin.rows).flatten := by
  rw [h, cut_flatten data t ts hm hl]

theorem within_of_lt {right : Bool} {e s v : Int} (h1 : v ≤ e) (h2 : e < s) : within right s v = true := by
  unfold within; split <;> simp <;> omega

theorem separated_cons {right : Bool} {pos : R → Int} {b : Bin R} {bs : List (Bin R)} :
    Separated right pos (b :: bs) ↔
      ((b.stop = none → bs = []) ∧ ∀ e, b.stop = some e → (∀ r ∈ b.rows, pos r ≤ e) ∧
          ∀ b' ∈ bs, (∀ r ∈ b'.rows, within right e (pos r) = false) ∧ ∀ e', b'.stop = some e' → e ≤ e') ∧
      Separated right pos bs := by
  cases h : b.stop with
  | none => simp [Separated, h]
  | some e => simp [Separated, h]

theorem ended_cons {pos : R → Int} {b : Bin R} {bs : List (Bin R)} :
    Ended pos (b :: bs) ↔
      ((b.stop = none → bs = []) ∧ ∀ e, b.stop = some e → (∀ r ∈ b.rows, pos r ≤ e) ∧
          ∀ b' ∈ bs, ∀ e', b'.stop = some e' → e ≤ e') ∧ Ended pos bs := by
  cases h : b.stop with
  | none => simp [Ended, h]
  | some e => simp [Ended, h]

theorem Spec.Separated.ended {right : Bool} {pos : R → Int} {bs : List (Bin R)} (h : Separated right pos bs) :
    Ended pos bs := by
  induction bs with
  | nil => trivial
  | cons b bs ih =>
    obtain ⟨⟨h1, h2⟩, h3⟩ := separated_cons.1 h
    exact ended_cons.2 ⟨⟨h1, fun e he => ⟨(h2 e he).1, fun b' hb => ((h2 e he).2 b' hb).2⟩⟩, ih h3⟩

theorem ended_suffix {pos : R → Int} {a b : List (Bin R)} (h : Ended pos (a ++ b)) : Ended pos b := by
  induction a with
  | nil => exact h
  | cons x a ih => exact ih (ended_cons.1 h).2

theorem ended_local {pos : R → Int} {f : Bin R} {tl : List (Bin R)} {rows : List R}
    (h : Ended pos (⟨f.label, f.stop, rows ++ f.rows⟩ :: tl)) : Ended pos (f :: tl) := by
  obtain ⟨⟨h1, h2⟩, h3⟩ := ended_cons.1 h
  exact ended_cons.2 ⟨⟨h1, fun e he => ⟨fun r hr => (h2 e he).1 r (List.mem_append_right _ hr), (h2 e he).2⟩⟩, h3⟩

/-- No row read up to a known end is after it. -/
theorem known_ended {pos : R → Int} {data : List R} (bs : List (Bin R)) (ts : List Nat) (b : Nat)
    (hrows : bs.map Bin.rows = cut data b ts) (hlen : bs.length = ts.length) (hm : (b :: ts).Pairwise (· ≤ ·))
    (hsep : Ended pos bs) (hpre : ∀ x ∈ bs, ∀ e, x.stop = some e → ∀ r ∈ data.take b, pos r ≤ e) :
    ∀ ev ∈ known bs ts, ∀ r ∈ data.take ev.2.2, pos r ≤ ev.1 := by
  induction bs generalizing ts b with
  | nil => simp [known]
  | cons x bs ih =>
    cases ts with
    | nil => simp at hlen
    | cons t ts =>
      obtain ⟨hx, hrest⟩ := rows_of_cut hrows
      have hm' := List.pairwise_cons.1 hm
      have hbt : b ≤ t := hm'.1 t (by simp)
      obtain ⟨⟨hs1, hs2⟩, hs3⟩ := ended_cons.1 hsep
      have htake : data.take t = data.take b ++ x.rows := by
        rw [hx, slice, show t = b + (t - b) by omega, List.take_add]; congr 3; omega
      intro ev hev
      have hev' : (∃ e, x.stop = some e ∧ ev = (e, true, t)) ∨ ev ∈ known bs ts := by
        unfold known at hev ⊢
        rw [List.zip_cons_cons, List.filterMap_cons] at hev
        cases hx' : x.stop with
        | none => rw [hx'] at hev; exact Or.inr hev
        | some e =>
          rw [hx'] at hev
          rcases List.mem_cons.1 hev with h | h
          · exact Or.inl ⟨e, rfl, h⟩
          · exact Or.inr h
      rcases hev' with ⟨e, he, rfl⟩ | hev'
      · intro r hr
        simp only at hr ⊢
        rw [htake] at hr
        rcases List.mem_append.1 hr with h | h
        · exact hpre x (by simp) e he r h
        · exact (hs2 e he).1 r h
      · refine ih ts t hrest (by simpa using hlen) hm'.2 hs3 ?_ ev hev'
        intro y hy e' he' r hr
        cases hx' : x.stop with
        | none => rw [hs1 hx'] at hy; simp at hy
        | some e =>
          have hee := (hs2 e hx').2 y hy e' he'
          rw [htake] at hr
          rcases List.mem_append.1 hr with h | h
          · exact hpre y (by simp [hy]) e' he' r h
          · exact le_trans ((hs2 e hx').1 r h) hee

/-- Known ends separate the rows. -/
theorem known_sep {right : Bool} {pos : R → Int} {data : List R} (bs : List (Bin R)) (ts : List Nat) (b : Nat)
    (hrows : bs.map Bin.rows = cut data b ts) (hlen : bs.length = ts.length) (hm : (b :: ts).Pairwise (· ≤ ·))
    (hl : (b :: ts).getLast? = some data.length) (hsep : Separated right pos bs)
    (hpre : ∀ x ∈ bs, ∀ e, x.stop = some e → ∀ r ∈ data.take b, pos r ≤ e) :
    ∀ ev ∈ known bs ts, (∀ r ∈ data.take ev.2.2, pos r ≤ ev.1) ∧
      (∀ r ∈ data.drop ev.2.2, within right ev.1 (pos r) = false) := by
  induction bs generalizing ts b with
  | nil => simp [known]
  | cons x bs ih =>
    cases ts with
    | nil => simp at hlen
    | cons t ts =>
      obtain ⟨hx, hrest⟩ := rows_of_cut hrows
      have hm' := List.pairwise_cons.1 hm
      have hbt : b ≤ t := hm'.1 t (by simp)
      obtain ⟨⟨hs1, hs2⟩, hs3⟩ := separated_cons.1 hsep
      have hl' : (t :: ts).getLast? = some data.length := by rw [List.getLast?_cons_cons] at hl; exact hl
      have hdrop := drop_rows hrest hm'.2 hl'
      have htake : data.take t = data.take b ++ x.rows := by
        rw [hx, slice, show t = b + (t - b) by omega, List.take_add]; congr 3; omega
      intro ev hev
      have hev' : (∃ e, x.stop = some e ∧ ev = (e, true, t)) ∨ ev ∈ known bs ts := by
        unfold known at hev ⊢
        rw [List.zip_cons_cons, List.filterMap_cons] at hev
        cases hx' : x.stop with
        | none => rw [hx'] at hev; exact Or.inr hev
        | some e =>
          rw [hx'] at hev
          rcases List.mem_cons.1 hev with h | h
          · exact Or.inl ⟨e, rfl, h⟩
          · exact Or.inr h
      rcases hev' with ⟨e, he, rfl⟩ | hev'
      · constructor
        · intro r hr
          simp only at hr ⊢
          rw [htake] at hr
          rcases List.mem_append.1 hr with h | h
          · exact hpre x (by simp) e he r h
          · exact (hs2 e he).1 r h
        · intro r hr
          simp only at hr ⊢
          rw [hdrop] at hr
          obtain ⟨l, hl1, hl2⟩ := List.mem_flatten.1 hr
          obtain ⟨y, hy, rfl⟩ := List.mem_map.1 hl1
          exact ((hs2 e he).2 y hy).1 r hl2
      · refine ih ts t hrest (by simpa using hlen) hm'.2 hl' hs3 ?_ ev hev'
        intro y hy e' he' r hr
        cases hx' : x.stop with
        | none => rw [hs1 hx'] at hy; simp at hy
        | some e =>
          have h1 := ((hs2 e hx').2 y hy).2 e' he'
          rw [htake] at hr
          rcases List.mem_append.1 hr with h | h
          · exact hpre y (by simp [hy]) e' he' r h
          · have := (hs2 e hx').1 r h; omega

/-- Rank of a position. -/
theorem rank_ge {right : Bool} {pos : R → Int} {data : List R} {s : Int} {t : Nat} (ht : t ≤ data.length)
    (h : ∀ r ∈ data.take t, within right s (pos r) = true) : t ≤ (data.map pos).countP (within right s) := by
  conv_rhs => rw [← List.take_append_drop t data]
  rw [List.map_append, List.countP_append, List.countP_map]
  have : (data.take t).countP (within right s ∘ pos) = (data.take t).length := by
    rw [List.countP_eq_length]; exact h
  rw [this, List.length_take]; omega

theorem rank_le {right : Bool} {pos : R → Int} {data : List R} {s : Int} {t : Nat}
    (h : ∀ r ∈ data.drop t, within right s (pos r) = false) : (data.map pos).countP (within right s) ≤ t := by
  conv_lhs => rw [← List.take_append_drop t data]
  rw [List.map_append, List.countP_append, List.countP_map, List.countP_map]
  have : (data.drop t).countP (within right s ∘ pos) = 0 := by
    rw [List.countP_eq_zero]; intro r hr; simp [h r hr]
  have h2 := List.countP_le_length (p := within right s ∘ pos) (l := data.take t)
  rw [List.length_take] at h2
  omega

/-- A relation that holds within two sequences and across them holds along their merge. -/
theorem pairwise_mergeEv {α : Type} (Q : Int × α → Int × α → Prop) (S B : List (Int × α)) (kS : KeyAsc S)
    (kB : KeyAsc B) (hS : S.Pairwise Q) (hB : B.Pairwise Q) (h1 : ∀ s ∈ S, ∀ b ∈ B, b.1 < s.1 → Q b s)
    (h2 : ∀ s ∈ S, ∀ b ∈ B, s.1 ≤ b.1 → Q s b) : (mergeEv S B).Pairwise Q := by
  induction S generalizing B with
  | nil => exact hB
  | cons x S ih =>
    have kS' := List.pairwise_cons.1 kS
    have hS' := List.pairwise_cons.1 hS
    have hd : ∀ b ∈ B.dropWhile (fun y => decide (y.1 < x.1)), b ∈ B :=
      fun b hb => (List.dropWhile_sublist _).subset hb
    have ht : ∀ b ∈ B.takeWhile (fun y => decide (y.1 < x.1)), b ∈ B :=
      fun b hb => (List.takeWhile_sublist _).subset hb
    rw [mergeEv, List.pairwise_append, List.pairwise_cons]
    refine ⟨hB.sublist (List.takeWhile_sublist _), ⟨?_, ih _ kS'.2 (keyAsc_dropWhile kB) hS'.2
      (hB.sublist (List.dropWhile_sublist _)) (fun s hs b hb => h1 s (by simp [hs]) b (hd b hb))
      (fun s hs b hb => h2 s (by simp [hs]) b (hd b hb))⟩, ?_⟩
    · intro y hy
      rcases (mem_mergeEv _ _ _).1 hy with h | h
      · exact hS'.1 y h
      · exact h2 x (by simp) y (hd y h) (mem_dropWhile_key kB h)
    · intro y hy z hz
      have hyk := mem_takeWhile_key hy
      rcases List.mem_cons.1 hz with rfl | hz
      · exact h1 z (by simp) y (ht y hy) hyk
      · rcases (mem_mergeEv _ _ _).1 hz with h | h
        · exact h1 z (by simp [h]) y (ht y hy) (by have := kS'.1 z h; omega)
        · have hBp : (B.takeWhile (fun y => decide (y.1 < x.1)) ++ B.dropWhile (fun y => decide (y.1 < x.1))).Pairwise
              Q := by rw [List.takeWhile_append_dropWhile]; exact hB
          exact (List.pairwise_append.1 hBp).2.2 y hy z h

/-- What a snapshot at `s` holds, the first bin continuing `prev`. -/
def snapVal (upd : List R → A → Bool → A) (a0 : A) (right : Bool) (pos : R → Int) (s : Int) :
    Option A → List (Bin R) → Option A
  | prev, [] => prev
  | prev, b :: bs =>
    match b.stop with
    | some e => if e < s then snapVal upd a0 right pos s none bs
        else value upd a0 prev (b.rows.filter (fun r => within right s (pos r)))
    | none => value upd a0 prev (b.rows.filter (fun r => within right s (pos r)))

theorem slice_rank_filter {right : Bool} {pos : R → Int} {data : List R} {s : Int} {b : Nat}
    (hs : AscOn pos data) (hb : b ≤ data.length) (hpre : ∀ r ∈ data.take b, within right s (pos r) = true) :
    slice data b ((data.map pos).countP (within right s)) =
      (data.drop b).filter (fun r => within right s (pos r)) := by
  have hge := rank_ge hb hpre
  have h1 := (take_rank pos right s (data.drop b) (hs.sublist (List.drop_sublist b data))).1
  rw [← h1, slice]
  congr 1
  conv_lhs => rw [← List.take_append_drop b data]
  rw [List.map_append, List.countP_append, List.countP_map]
  have : (data.take b).countP (within right s ∘ pos) = (data.take b).length := by
    rw [List.countP_eq_length]; exact hpre
  rw [this, List.length_take]; omega

theorem snapAt_bins (upd : List R → A → Bool → A) (a0 : A) {right : Bool} {pos : R → Int} {data : List R}
    (bs : List (Bin R)) (ts : List Nat) (b : Nat) (prev : Option A) (s : Int)
    (hs : AscOn pos data) (hrows : bs.map Bin.rows = cut data b ts) (hlen : bs.length = ts.length)
    (hm : (b :: ts).Pairwise (· ≤ ·)) (hl : (b :: ts).getLast? = some data.length)
    (hsep : Separated right pos bs) (hpre : ∀ r ∈ data.take b, within right s (pos r) = true) :
    snapAt upd a0 data (b, prev) (known bs ts) (s, false, (data.map pos).countP (within right s)) =
      snapVal upd a0 right pos s prev bs := by
  induction bs generalizing ts b prev with
  | nil =>
    cases ts with
    | cons t ts => simp at hlen
    | nil =>
      simp only [List.getLast?_singleton, Option.some.injEq] at hl
      have : slice data b ((data.map pos).countP (within right s)) = [] := by
        rw [slice, hl, List.drop_length]; simp
      simp only [snapAt, known, List.zip_nil_right, List.filterMap_nil, List.takeWhile_nil, after, List.foldl_nil, this,
        snapVal]
      simp [value]
  | cons x bs ih =>
    cases ts with
    | nil => simp at hlen
    | cons t ts =>
      obtain ⟨hx, hrest⟩ := rows_of_cut hrows
      have hm' := List.pairwise_cons.1 hm
      have hbt : b ≤ t := hm'.1 t (by simp)
      obtain ⟨⟨hs1, hs2⟩, hs3⟩ := separated_cons.1 hsep
      have hl' : (t :: ts).getLast? = some data.length := by rw [List.getLast?_cons_cons] at hl; exact hl
      have htl : t ≤ data.length := by
        have h := hm'.2
        have hmem : data.length ∈ t :: ts := List.mem_of_getLast? hl'
        rcases List.mem_cons.1 hmem with h' | h'
        · omega
        · exact (List.pairwise_cons.1 h).1 _ h'
      have hdrop := drop_rows hrest hm'.2 hl'
      have hdropb : data.drop b = x.rows ++ data.drop t := by
        rw [hx, slice, show data.drop t = (data.drop b).drop (t - b) by rw [List.drop_drop]; congr 1; omega,
          List.take_append_drop]
      have htake : data.take t = data.take b ++ x.rows := by
        rw [hx, slice, show t = b + (t - b) by omega, List.take_add]; congr 3; omega
      cases hx' : x.stop with
      | none =>
        have hbs := hs1 hx'
        subst hbs
        have hts : ts = [] := by cases ts <;> simp_all
        subst hts
        have : data.drop t = [] := by rw [hdrop]; rfl
        rw [this, List.append_nil] at hdropb
        simp only [snapAt, known, List.zip_cons_cons, List.filterMap_cons, hx', Option.map_none,
          List.zip_nil_right, List.filterMap_nil, List.takeWhile_nil, after, List.foldl_nil, snapVal]
        rw [slice_rank_filter hs (by omega) hpre, hdropb]
      | some e =>
        have hk : known (x :: bs) (t :: ts) = (e, true, t) :: known bs ts := by
          simp only [known, List.zip_cons_cons, List.filterMap_cons, hx', Option.map_some]
        rw [hk]
        simp only [snapVal, hx']
        by_cases hes : e < s
        · rw [if_pos hes, ← ih ts t none hrest (by simpa using hlen) hm'.2 hl' hs3]
          · unfold snapAt
            rw [List.takeWhile_cons_of_pos (by simpa using hes)]
            rfl
          · intro r hr
            rw [htake] at hr
            rcases List.mem_append.1 hr with h | h
            · exact hpre r h
            · exact within_of_lt ((hs2 e hx').1 r h) hes
        · rw [if_neg hes]
          unfold snapAt
          rw [List.takeWhile_cons_of_neg (by simpa using hes)]
          simp only [after, List.foldl_nil]
          rw [slice_rank_filter hs (by omega) hpre, hdropb, List.filter_append]
          have : (data.drop t).filter (fun r => within right s (pos r)) = [] := by
            rw [List.filter_eq_nil_iff]
            intro r hr hw
            rw [hdrop] at hr
            obtain ⟨l, hl1, hl2⟩ := List.mem_flatten.1 hr
            obtain ⟨y, hy, rfl⟩ := List.mem_map.1 hl1
            have := ((hs2 e hx').2 y hy).1 r hl2
            rw [within_mono_edge (by omega) hw] at this
            cases this
          rw [this, List.append_nil]

/-- Results of the bins, the first one continuing `prev`. -/
def binVals (upd : List R → A → Bool → A) (a0 : A) (prev : Option A) : List (Bin R) → List (Option A)
  | [] => []
  | b :: bs => value upd a0 prev b.rows :: binVals upd a0 none bs

theorem run_bins_vals (upd : List R → A → Bool → A) (a0 : A) (data : List R) (bs : List (Bin R)) (ts : List Nat)
    (b : Nat) (prev : Option A) (hrows : bs.map Bin.rows = cut data b ts) (hlen : bs.length = ts.length) :
    run upd a0 data b prev (ts.map fun t => (true, t)) = (binVals upd a0 prev bs).map (fun v => (true, v)) := by
  induction bs generalizing ts b prev with
  | nil =>
    cases ts with
    | nil => rfl
    | cons t ts => simp at hlen
  | cons x bs ih =>
    cases ts with
    | nil => simp at hlen
    | cons t ts =>
      obtain ⟨hx, hrest⟩ := rows_of_cut hrows
      simp only [List.map_cons, run, if_true, binVals]
      rw [ih ts t none hrest (by simpa using hlen), hx]

end Oups.Agg
