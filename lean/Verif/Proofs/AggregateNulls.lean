import Verif.Proofs.Calendar
import Verif.Proofs.AggregateTable
/-! Number of null bins and null snapshots. -/
set_option linter.unusedSimpArgs false
namespace Oups.Agg
open Oups.Segment Spec Oups.Segment.Spec

/-- Number of bins immediately followed by a snapshot with the same chunk start. -/
def followed : Option Nat → List (Bool × Nat) → Nat
  | _, [] => 0
  | _, (true, s) :: es => followed (some s) es
  | pb, (false, s) :: es => (if pb = some s then 1 else 0) + followed none es

theorem followed_eq (es : List Ev) (pre : List Nat) :
    binsFollowedBySnap (pre ++ es.map (fun e => e.2.2)) (((es.zipIdx pre.length).filter (fun p => p.1.2.1)).map Prod.snd) =
      followed none (es.map fun e => (e.2.1, e.2.2)) := by
  induction es generalizing pre with
  | nil => rfl
  | cons e es ih =>
    obtain ⟨k, t, s⟩ := e
    have hih := ih (pre ++ [s])
    simp only [List.length_append, List.length_singleton, List.append_assoc, List.singleton_append] at hih
    rw [List.zipIdx_cons, List.map_cons, List.filter_cons]
    simp only
    cases t with
    | false =>
      simp only [Bool.false_eq_true, if_false, List.map_cons, followed]
      rw [hih, if_neg (by simp)]; omega
    | true =>
      simp only [if_true, List.map_cons, followed, binsFollowedBySnap]
      rw [hih]
      have hgk : (pre ++ s :: es.map (fun e => e.2.2)).getD pre.length 0 = s := by
        simp [List.getD_eq_getElem?_getD]
      rw [hgk]
      cases es with
      | nil => simp [followed]
      | cons e' es =>
        obtain ⟨k', t', s'⟩ := e'
        have hgk' : (pre ++ s :: List.map (fun e : Ev => e.2.2) ((k', t', s') :: es)).getD (pre.length + 1) 0 = s' := by
          rw [List.getD_eq_getElem?_getD, List.getElem?_append_right (by omega)]
          simp
        rw [hgk']
        cases t' with
        | true =>
          simp only [List.zipIdx_cons, List.filter_cons, if_true, List.map_cons, followed]
          simp
        | false =>
          simp only [List.zipIdx_cons, List.filter_cons, Bool.false_eq_true, if_false, List.map_cons, followed]
          cases hc : ((es.zipIdx (pre.length + 1 + 1)).filter (fun p => p.1.2.1)).map Prod.snd with
          | nil =>
            simp only [List.length_append, List.length_cons, List.length_map]
            rw [decide_eq_true (p := pre.length + (es.length + 1 + 1) - pre.length ≠ 1) (by omega)]
            simp
          | cons j js =>
            have hj : j ∈ ((es.zipIdx (pre.length + 1 + 1)).filter (fun p => p.1.2.1)).map Prod.snd := by
              rw [hc]; simp
            obtain ⟨q, hq, rfl⟩ := List.mem_map.1 hj
            have := List.le_snd_of_mem_zipIdx (List.mem_filter.1 hq).1
            simp only
            rw [decide_eq_true (p := q.2 - pre.length ≠ 1) (by omega)]
            simp

/-- Bins recorded as null: those ending where the bin before them ended. -/
theorem jloop_null_bins {R A : Type} (upd : List R → A → Bool → A) (data : List R) (es : List (Bool × Nat)) (st : St A)
    (b : Nat) (hb : st.binStart = b ∨ st.binStart = -1) :
    (((jloop upd data st es).1.filter (fun r => r.1)).map Prod.snd).countP Option.isNone ≤
      repeats b ((es.filter (fun e => e.1)).map Prod.snd) := by
  induction es generalizing st b with
  | nil => simp [jloop]
  | cons e es ih =>
    obtain ⟨isBin, n⟩ := e
    cases isBin with
    | false =>
      have hst : (jstep upd data st (!false) n).2.binStart = st.binStart := by
        unfold jstep; split <;> rfl
      simpa [jloop] using ih (jstep upd data st (!false) n).2 b (by rw [hst]; exact hb)
    | true =>
      have hst : (jstep upd data st (!true) n).2.binStart = n := by
        unfold jstep; split
        · assumption
        · rfl
      have hrec := ih (jstep upd data st (!true) n).2 n (Or.inl hst)
      have hnull : (if (jstep upd data st (!true) n).1.isNone = true then 1 else 0) ≤ (if b = n then 1 else 0) := by
        unfold jstep
        split
        · have : b = n := by omega
          simp [this]
        · simp
      simp only [jloop, List.filter_cons, if_true, List.map_cons, List.countP_cons, repeats]
      omega

/-- Snapshots recorded as null: each repeats the chunk start of the snapshot before it, or follows a bin ending where it
does. -/
theorem jloop_null_snaps {R A : Type} (upd : List R → A → Bool → A) (data : List R) (es : List (Bool × Nat)) (st : St A)
    (l : Nat) (pb : Option Nat)
    (hmono : es.Pairwise (fun x y => y.1 = false → x.2 ≤ y.2))
    (hb : ∀ e ∈ es, e.1 = false → st.binStart ≤ e.2)
    (hl : ∀ e ∈ es, e.1 = false → l ≤ e.2) (h1 : pb = none → st.binStart ≤ l) (h2 : ∀ t, pb = some t → t = st.binStart) :
    (((jloop upd data st es).1.filter (fun r => !r.1)).map Prod.snd).countP Option.isNone ≤
      repeats l ((es.filter (fun e => !e.1)).map Prod.snd) + followed pb es := by
  induction es generalizing st l pb with
  | nil => simp [jloop]
  | cons e es ih =>
    obtain ⟨isBin, n⟩ := e
    have hm := List.pairwise_cons.1 hmono
    cases isBin with
    | true =>
      have hst : (jstep upd data st (!true) n).2.binStart = n := by
        unfold jstep; split
        · assumption
        · rfl
      have hrec := ih (jstep upd data st (!true) n).2 l (some n) hm.2
        (by intro e he hk; rw [hst]; exact_mod_cast hm.1 e he hk) (fun e he hk => hl e (by simp [he]) hk) (by simp)
        (by intro t ht; cases ht; exact hst.symm)
      simpa [jloop, followed] using hrec
    | false =>
      have hst : (jstep upd data st (!false) n).2.binStart = st.binStart := by
        unfold jstep; split <;> rfl
      have hbn := hb (false, n) (by simp) rfl
      have hln := hl (false, n) (by simp) rfl
      simp only at hbn hln
      have hrec := ih (jstep upd data st (!false) n).2 n none hm.2
        (by intro e he hk; rw [hst]; exact hb e (by simp [he]) hk) (fun e he hk => hm.1 e he hk)
        (fun _ => by rw [hst]; exact hbn) (by simp)
      have hnull : (if (jstep upd data st (!false) n).1.isNone = true then 1 else 0) ≤
          (if l = n then 1 else 0) + (if pb = some n then 1 else 0) := by
        unfold jstep
        split
        · rename_i heq
          cases pb with
          | none =>
            have := h1 rfl
            have : l = n := by omega
            simp [this]
          | some t =>
            have := h2 t rfl
            have : t = n := by omega
            simp [this]
        · simp
      simp only [jloop, List.filter_cons, Bool.not_false, if_true, List.map_cons, List.countP_cons, repeats, followed]
        at hrec hnull ⊢
      omega

/-- Nulls of one call with snapshots: bins and snapshots. -/
theorem nulls_snaps {R A : Type} (upd : List R → A → Bool → A) {right : Bool} {pos : R → Int}
    {p : List R} {bstarts : List Nat} {labels ends : List Int} {u : Bool} {sends : List Int} {starts idx : List Nat}
    (preserve : Bool) (res : A)
    (h1 : labels.length = bstarts.length) (h2 : ends.length = bstarts.length) (hm : bstarts.Pairwise (· ≤ ·))
    (hl : bstarts.getLast? = some p.length)
    (hsep : Ended pos (readBins bstarts labels ends u p)) (ha : Asc sends)
    (hmerge : mergesort (sends.map fun e => (p.map pos).countP (within right e), bstarts) (sends, ends) u =
      .ok (starts, idx)) :
    (jcsagg upd p starts idx true preserve res).1.countP Option.isNone ≤ (cut p 0 bstarts).countP List.isEmpty ∧
    (jcsagg upd p starts idx true preserve res).2.1.countP Option.isNone ≤
      repeats 0 (sends.map fun e => (p.map pos).countP (within right e)) + binsFollowedBySnap starts idx := by
  have hne : bstarts ≠ [] := by rintro rfl; simp at hl
  have hlen := readBins_length (u := u) (rows := p) h1 h2 hne
  have hrows := readBins_rows (u := u) (rows := p) h1 h2 hne
  have hmono0 : (0 :: bstarts).Pairwise (· ≤ ·) := List.pairwise_cons.2 ⟨fun _ _ => Nat.zero_le _, hm⟩
  have hle : ∀ t ∈ bstarts, t ≤ p.length := by
    intro t ht
    obtain ⟨l, rfl⟩ := List.getLast?_eq_some_iff.1 hl
    rcases List.mem_append.1 ht with h | h
    · exact (List.pairwise_append.1 hm).2.2 t h p.length (by simp)
    · simp at h; omega
  rw [mergesort_eq _ _ _ _ u (by simp) h2 ha (ends_asc h1 h2 hne hsep) hne] at hmerge
  simp only [Except.ok.injEq, Prod.mk.injEq] at hmerge
  obtain ⟨rfl, rfl⟩ := hmerge
  have hSe : ∃ S, S = evs false sends (sends.map fun e => (p.map pos).countP (within right e)) := ⟨_, rfl⟩
  obtain ⟨S, hS⟩ := hSe
  rw [← hS]
  obtain ⟨F, e1, e2, e3⟩ := events_known (u := u) (rows := p) h1 h2 hne S
  have hSk : ∀ e ∈ S, e.2.1 = false ∧ e.2.2 = (p.map pos).countP (within right e.1) := by
    intro e he
    rw [hS] at he
    refine ⟨(mem_evs he).1, ?_⟩
    rw [evs_false_map] at he
    obtain ⟨x, _, rfl⟩ := List.mem_map.1 he
    rfl
  have hSA : KeyAsc S := by rw [hS]; exact evs_keyAsc _ _ _ ha
  have hbev : ∀ e ∈ evs true ends bstarts, e.2.1 = true ∧ e.2.2 ≤ p.length := by
    intro e he
    have := mem_evs he
    exact ⟨this.1, hle _ this.2.2⟩
  have hFk : ∀ e ∈ F, e.2.1 = true := fun e he => (hbev e (by rw [← e2]; exact List.mem_append_right _ he)).1
  have hKk := known_bins (readBins bstarts labels ends u p) bstarts
  have hke := known_ended _ bstarts 0 hrows hlen hmono0 hsep (by simp)
  -- bins and snapshots before a snapshot
  have hpair : (events S (evs true ends bstarts) u).Pairwise (fun a b : Ev => b.2.1 = false → a.2.2 ≤ b.2.2) := by
    rw [e1, List.pairwise_append]
    refine ⟨?_, ?_, ?_⟩
    · apply pairwise_mergeEv _ _ _ hSA (known_keyAsc _ bstarts hsep)
      · refine List.Pairwise.imp_of_mem ?_ hSA
        intro x y hx hy hxy _
        rw [(hSk x hx).2, (hSk y hy).2]
        exact countP_mono_edge right hxy _
      · refine List.Pairwise.imp_of_mem (R := fun _ _ => True) ?_ (List.pairwise_of_forall fun _ _ => trivial)
        intro x y _ hy _ hk
        rw [hKk y hy] at hk; cases hk
      · intro s hs' b hb hbs _
        rw [(hSk s hs').2]
        apply rank_ge (hbev b (by rw [← e2]; exact List.mem_append_left _ hb)).2
        intro r hr
        exact within_of_lt (hke b hb r hr) hbs
      · intro s _ b hb _ hk
        rw [hKk b hb] at hk; cases hk
    · rcases e3 with rfl | ⟨e, rfl⟩ <;> simp
    · intro x _ y hy hk
      rw [hFk y hy] at hk; cases hk
  have hexb : ∃ e ∈ events S (evs true ends bstarts) u, e.2.1 = true := by
    have hne3 : evs true ends bstarts ≠ [] := by
      intro h0
      have := congrArg List.length h0
      rw [evs, List.length_map, List.length_zip] at this
      have h3 := List.length_pos_iff.2 hne
      simp only [List.length_nil] at this; omega
    obtain ⟨e, he⟩ := List.exists_mem_of_ne_nil _ hne3
    refine ⟨e, ?_, (hbev e he).1⟩
    rw [← e2] at he
    rw [e1]
    rcases List.mem_append.1 he with h | h
    · exact List.mem_append_left _ ((mem_mergeEv _ _ _).2 (Or.inr h))
    · exact List.mem_append_right _ h
  have hsnaps : ((events S (evs true ends bstarts) u).map kind |>.filter (fun e => !e.1)).map Prod.snd =
      sends.map fun e => (p.map pos).countP (within right e) := by
    rw [e1, List.filter_map, List.map_map, List.filter_append]
    have hf1 := filter_mergeEv' ((fun e : Bool × Nat => !e.1) ∘ kind) S
      (known (readBins bstarts labels ends u p) bstarts)
      (fun x hx => by simp [kind, (hSk x hx).1])
      (fun x hx => by simp [kind, hKk x hx])
    have hf2 : F.filter ((fun e : Bool × Nat => !e.1) ∘ kind) = [] :=
      List.filter_eq_nil_iff.2 (fun x hx => by simp [kind, hFk x hx])
    rw [hf1, hf2, List.append_nil, hS]
    have := evs_map_snd false sends (sends.map fun e => (p.map pos).countP (within right e)) (by simp)
    exact this
  have hbins : ((events S (evs true ends bstarts) u).map kind |>.filter (fun e => e.1)).map Prod.snd = bstarts := by
    rw [e1, List.filter_map, List.map_map, List.filter_append]
    have hf1 := filter_mergeEv ((fun e : Bool × Nat => e.1) ∘ kind) S
      (known (readBins bstarts labels ends u p) bstarts)
      (fun x hx => by simp [kind, (hSk x hx).1])
      (fun x hx => by simp [kind, hKk x hx])
    have hf2 : F.filter ((fun e : Bool × Nat => e.1) ∘ kind) = F :=
      List.filter_eq_self.2 (fun x hx => by simp [kind, hFk x hx])
    rw [hf1, hf2, e2]
    exact evs_map_snd true ends bstarts h2
  generalize events S (evs true ends bstarts) u = es at *
  have hcl : classify 0 (binPositions es) (es.map fun e => e.2.2) = es.map kind := classify_binPositions _ hexb
  have hfol := followed_eq es []
  simp only [List.nil_append, List.length_nil] at hfol
  have hb : binsFollowedBySnap (es.map fun e => e.2.2) (binPositions es) = followed none (es.map kind) := hfol
  unfold jcsagg
  simp only [if_true, hcl]
  have hrep : repeats 0 bstarts = (cut p 0 bstarts).countP List.isEmpty := by
    have h := repeats_eq_countP (p.map pos) 0 bstarts hmono0 (by simpa using hle)
    rw [h]
    have hcut : ∀ (ts : List Nat) (s : Nat), (cut (p.map pos) s ts).countP List.isEmpty = (cut p s ts).countP List.isEmpty := by
      intro ts
      induction ts with
      | nil => intro s; rfl
      | cons t ts ih => intro s; simp only [cut, List.countP_cons, ih, ← List.map_drop, ← List.map_take, List.isEmpty_map]
    exact hcut _ _
  constructor
  · have := jloop_null_bins upd p (es.map kind) ⟨if preserve then -1 else 0, 0, preserve, res⟩ 0
      (by cases preserve <;> simp)
    rwa [hbins, hrep] at this
  · rw [hb, ← hsnaps]
    apply jloop_null_snaps upd p (es.map kind) _ 0 none
    · rw [List.pairwise_map]; exact hpair
    · intro e _ _; simp only; split <;> omega
    · intro _ _ _; exact Nat.zero_le _
    · intro _; simp only; split <;> simp
    · simp

/-- Nulls of one call without snapshots. -/
theorem nulls_bins {R A : Type} (upd : List R → A → Bool → A) {p : List R} {bstarts idx : List Nat}
    (preserve : Bool) (res : A) (hm : bstarts.Pairwise (· ≤ ·)) (hle : ∀ t ∈ bstarts, t ≤ p.length) :
    (jcsagg upd p bstarts idx false preserve res).1.countP Option.isNone ≤ (cut p 0 bstarts).countP List.isEmpty := by
  let U : List R → Unit → Bool → Unit := fun _ _ _ => ()
  have H : Hom U := ⟨fun _ _ _ _ _ _ => rfl, fun _ _ _ _ => rfl⟩
  obtain ⟨hproj, _⟩ := jcsagg_proj (upd := upd) (upd' := U) (P := fun _ => True) (π := fun _ => ())
    (fun _ _ _ _ => rfl) (fun _ _ _ _ => trivial) p bstarts idx false preserve res trivial
  have hcount : ∀ l : List (Option A), (l.map fun r => r.map fun _ => ()).countP Option.isNone = l.countP Option.isNone := by
    intro l
    rw [List.countP_map]
    congr 1
    funext x
    cases x <;> rfl
  rw [← hcount]
  have hp1 := congrArg Prod.fst hproj
  simp only at hp1
  rw [← hp1]
  let bs : List (Bin R) := (cut p 0 bstarts).map fun r => ⟨0, none, r⟩
  have hrows : bs.map Bin.rows = cut p 0 bstarts := by
    simp only [bs, List.map_map]
    exact List.map_id _
  obtain ⟨a, hj, _⟩ := jcsagg_bins H () (idx := idx) preserve () hrows (by simp [bs, length_cut]) hm hle _ rfl
  rw [hj]
  simp only
  rw [← hrows]
  generalize bs = bs
  generalize (if preserve = true then some () else none) = prev
  induction bs generalizing prev with
  | nil => simp [binVals]
  | cons b bs ih =>
    have := ih none
    simp only [binVals, List.countP_cons, List.map_cons]
    have : (if (value U () prev b.rows).isNone = true then 1 else 0) ≤ (if b.rows.isEmpty = true then 1 else 0) := by
      unfold value
      by_cases hb : b.rows = []
      · simp [hb]; split <;> omega
      · simp [hb]
    omega

/-! ### Snapshots -/

/-- Snapshot specifications with ends in order. -/
def Snaps.Ok : Snaps → Prop
  | .grouper g => 0 < g.freq
  | .calendar c => c.off.Ok ∧ 0 < c.n
  | .values _ e => Asc e

theorem asc_tail {l : List Int} (h : Asc l) : Asc l.tail := h.sublist (List.tail_sublist l)

theorem asc_dateRange (start stop f : Int) (hf : 0 < f) : Asc (dateRange start stop f) := by
  unfold dateRange Asc
  rw [List.pairwise_map]
  refine List.Pairwise.imp_of_mem ?_ List.pairwise_lt_range
  intro a b _ _ hab
  have : (a : Int) * f ≤ (b : Int) * f := Int.mul_le_mul_of_nonneg_right (by omega) (by omega)
  omega

theorem scaleFinish_facts (isG : Bool) (on labels ends : List Int) (closed : Closed) (buf : Option ScaleBuf)
    (hs : Asc on) (hne : on ≠ []) (he : Asc ends) :
    Asc (scaleFinish isG on labels ends closed buf).1.ends ∧
    (scaleFinish isG on labels ends closed buf).1.starts =
      (scaleFinish isG on labels ends closed buf).1.ends.map (fun e => on.countP (within (closed == .right) e)) ∧
    (scaleFinish isG on labels ends closed buf).1.nNull =
      repeats 0 (scaleFinish isG on labels ends closed buf).1.starts := by
  unfold scaleFinish
  rw [nextChunkStarts_eq on ends (closed == .right) hs he hne]
  simp only
  split
  · rename_i ht
    refine ⟨he.sublist (List.take_sublist _ _), ?_, rfl⟩
    simp only
    rw [List.map_take]
    exact List.prefix_iff_eq_take.1 (upTo_prefix _ _)
  · rename_i ht
    refine ⟨he, ?_, rfl⟩
    simp only
    exact upTo_of_not_mem (by simpa using ht)

theorem runSnaps_facts (sn : Snaps) (hok : Snaps.Ok sn) (c : Closed) (on : List Int) (hs : Asc on) (hne : on ≠ [])
    (buf : Option ScaleBuf) (ss : Seg) (sb : Option ScaleBuf) (h : runSnaps sn c on buf = .ok (ss, sb)) :
    Asc ss.ends ∧ ss.starts = ss.ends.map (fun e => on.countP (within (c == .right) e)) ∧
      ss.nNull = repeats 0 ss.starts := by
  cases sn with
  | grouper g =>
    simp only [runSnaps, Except.ok.injEq] at h
    obtain ⟨st, en, hb⟩ : ∃ st en, byGrouper g (some c) on buf = scaleFinish true on
        (if g.labelRight then (dateRange st en g.freq).tail else (dateRange st en g.freq).dropLast)
        (dateRange st en g.freq).tail c buf := ⟨_, _, rfl⟩
    rw [hb] at h
    have := scaleFinish_facts true on
      (if g.labelRight then (dateRange st en g.freq).tail else (dateRange st en g.freq).dropLast) _ c buf hs hne
      (asc_tail (asc_dateRange st en g.freq hok))
    rw [h] at this
    exact this
  | calendar g =>
    simp only [runSnaps, Except.ok.injEq] at h
    obtain ⟨st, en, k, hb⟩ : ∃ st en k, byCalendar g (some c) on buf = scaleFinish true on
        (if g.labelRight then (calRange g.off g.n en k st).tail else (calRange g.off g.n en k st).dropLast)
        (calRange g.off g.n en k st).tail c buf := ⟨_, _, _, rfl⟩
    rw [hb] at h
    have := scaleFinish_facts true on
      (if g.labelRight then (calRange g.off g.n en k st).tail else (calRange g.off g.n en k st).dropLast) _ c buf hs hne
      (asc_tail ((asc_calRange hok.1 hok.2 en k st).1.imp fun h => le_of_lt h))
    rw [h] at this
    exact this
  | values l e =>
    have hfin : ∀ (l e : List Int) (b : Option ScaleBuf), Asc e → seriesFinish l e c on b = (ss, sb) →
        Asc ss.ends ∧ ss.starts = ss.ends.map (fun e => on.countP (within (c == .right) e)) ∧
          ss.nNull = repeats 0 ss.starts := by
      intro l e b he hf
      unfold seriesFinish at hf
      split at hf
      · rename_i hemp
        simp only [Prod.mk.injEq] at hf
        obtain ⟨rfl, -⟩ := hf
        have : e = [] := by simpa using hemp
        subst this
        exact ⟨List.Pairwise.nil, rfl, rfl⟩
      · have := scaleFinish_facts false on l e c b hs hne he
        rw [hf] at this
        exact this
    simp only [runSnaps] at h
    unfold bySeries at h
    simp only at h
    split at h
    · cases h
    · cases buf with
      | none =>
        simp only [Except.ok.injEq] at h
        exact hfin l e none hok h
      | some b =>
        simp only at h
        split at h
        · cases hr : seriesRestart l e c b with
          | error x => rw [hr] at h; cases h
          | ok le =>
            obtain ⟨l', e'⟩ := le
            rw [hr] at h
            simp only [Except.ok.injEq] at h
            apply hfin l' e' _ _ h
            -- restarted ends are some of the ends
            have hsub : e'.Sublist e := by
              unfold seriesRestart at hr
              cases ht : trimTo l e b.restart with
              | error x => rw [ht] at hr; cases hr
              | ok le1 =>
                obtain ⟨l1, e1⟩ := le1
                rw [ht] at hr
                simp only at hr
                have h1 : e1.Sublist e := by
                  unfold trimTo at ht
                  cases hk : b.restart with
                  | none =>
                    rw [hk] at ht
                    simp only [Except.ok.injEq, Prod.mk.injEq] at ht
                    rw [ht.2]
                  | some k =>
                    rw [hk] at ht
                    simp only at ht
                    split at ht
                    · cases ht
                    · split at ht
                      · simp only [Except.ok.injEq, Prod.mk.injEq] at ht
                        rw [ht.2]
                      · split at ht
                        · cases ht
                        · split at ht
                          · cases ht
                          · simp only [Except.ok.injEq, Prod.mk.injEq] at ht
                            rw [← ht.2]; exact List.filter_sublist
                refine List.Sublist.trans ?_ h1
                unfold dropDone at hr
                cases hlo : b.lastOn with
                | none =>
                  rw [hlo] at hr
                  simp only [Except.ok.injEq, Prod.mk.injEq] at hr
                  rw [hr.2]
                | some lo =>
                  rw [hlo] at hr
                  simp only at hr
                  split at hr
                  · cases hr
                  · split at hr
                    · cases hr
                    · split at hr
                      · simp only [Except.ok.injEq, Prod.mk.injEq] at hr
                        rw [← hr.2]; exact List.drop_sublist _ _
                      · simp only [Except.ok.injEq, Prod.mk.injEq] at hr
                        rw [hr.2]
            exact List.Pairwise.sublist hsub hok
        · simp only [Except.ok.injEq] at h
          exact hfin l e (some b) hok h

end Oups.Agg
