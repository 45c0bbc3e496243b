import Verif.Proofs.AggregateNulls
/-! One call of `cumsegagg`, for any binning and any snapshots. -/
set_option linter.unusedSimpArgs false
namespace Oups.Agg
open Oups.Segment Spec Oups.Segment.Spec

/-- `preserve_res` of a call. -/
def preserves {B A : Type} (buf : Option (Buf B A)) (labels : List Int) : Bool :=
  buf.isSome && decide (((buf.map Buf.seg).bind MainBuf.lastBinLabel).isSome ∧
    (buf.map Buf.seg).bind MainBuf.lastBinLabel = labels.head?)

/-- What the first bin of a call continues. -/
def before {B A : Type} (a0 : A) (buf : Option (Buf B A)) (labels : List Int) : Option A :=
  if preserves buf labels then some ((buf.bind Buf.chunk).getD a0) else none

section
variable {R B A : Type} {upd : List R → A → Bool → A} (H : Hom upd) (a0 : A) (z : A → Bool)

include H in
theorem call_bins (fn : BinFn R B) (ordered : Option (R → Int)) (p : List R) (hp : p ≠ []) (buf : Option (Buf B A))
    (r : BinRes) (b' : Option B) (hf : fn p (buf.map fun b => b.seg.bin) = .ok (r, b'))
    (ho : ∀ o, ordered = some o → AscOn o p)
    (hc : Consistent p.length buf.isSome ((buf.map Buf.seg).bind MainBuf.lastBinLabel) r)
    (hm : r.starts.Pairwise (· ≤ ·)) (hle : ∀ t ∈ r.starts, t ≤ p.length) (hne : r.starts ≠ []) :
    ∃ b'', cumsegagg upd a0 z fn ordered none false p buf =
      .ok (some ⟨setNulls r.labels (binVals upd a0 (before a0 buf r.labels)
        (readBins r.starts r.labels r.ends r.unknownLast p)), none⟩, b'') := by
  have hseg : segmentby fn ordered none p (buf.map Buf.seg) =
      .ok (⟨r.starts, [], r.labels, r.nNull, none, 0⟩,
        (buf.map Buf.seg).map fun b => ⟨b'.getD b.bin, b.snap, r.labels.getLast?⟩) := by
    rw [segmentby_noSnap_iff]
    refine ⟨r, b', by rw [Option.map_map]; exact hf, ho, ?_, rfl⟩
    rw [Option.isSome_map]; exact hc
  obtain ⟨a, hj, _⟩ := jcsagg_bins H a0 (idx := []) (preserves buf r.labels) ((buf.bind Buf.chunk).getD a0)
    (readBins_rows (u := r.unknownLast) (rows := p) hc.labels_len hc.ends_len hne)
    (readBins_length hc.labels_len hc.ends_len hne) hm hle _ rfl
  unfold cumsegagg
  rw [show p.isEmpty = false by simpa using hp]
  simp only [Bool.false_eq_true, if_false, hseg, Option.map_none, Option.getD_none, ne_eq, not_true_eq_false,
    decide_false, Bool.false_and]
  rw [show (buf.isSome && decide (((buf.map Buf.seg).bind MainBuf.lastBinLabel).isSome ∧
    (buf.map Buf.seg).bind MainBuf.lastBinLabel = r.labels.head?)) = preserves buf r.labels from rfl, hj]
  exact ⟨_, rfl⟩

include H in
theorem call_snaps_buf (fn : BinFn R B) (pos : R → Int) (sn : Snaps) (hok : Snaps.Ok sn) (p : List R) (hp : p ≠ [])
    (buf : Option (Buf B A))
    (r : BinRes) (b' : Option B) (hf : fn p (buf.map fun b => b.seg.bin) = .ok (r, b')) (ho : AscOn pos p)
    (c : Closed) (hcl : r.closed = some c)
    (hc : Consistent p.length buf.isSome ((buf.map Buf.seg).bind MainBuf.lastBinLabel) r)
    (hm : r.starts.Pairwise (· ≤ ·)) (hl : r.starts.getLast? = some p.length)
    (hsep : Separated (c == .right) pos (readBins r.starts r.labels r.ends r.unknownLast p))
    (ss : Seg) (sb : Option ScaleBuf)
    (hss : runSnaps sn c (p.map pos) (buf.map fun b => b.seg.snap) = .ok (ss, sb))
    (hlen : ss.labels.length = ss.ends.length) :
    ∃ a, cumsegagg upd a0 z fn (some pos) (some sn) false p buf =
      .ok (some ⟨setNulls r.labels (binVals upd a0 (before a0 buf r.labels)
          (readBins r.starts r.labels r.ends r.unknownLast p)),
        some (setNulls ss.labels (ss.ends.map fun s => snapVal upd a0 (c == .right) pos s (before a0 buf r.labels)
          (readBins r.starts r.labels r.ends r.unknownLast p)))⟩,
        buf.map fun b => ⟨⟨b'.getD b.seg.bin, sb.getD b.seg.snap, r.labels.getLast?⟩, some a⟩) ∧
      ∀ v, (binVals upd a0 (before a0 buf r.labels) (readBins r.starts r.labels r.ends r.unknownLast p)).getLast? =
        some (some v) → a = v := by
  have hne : r.starts ≠ [] := by intro h; rw [h] at hl; simp at hl
  obtain ⟨f1, f2, f3⟩ := runSnaps_facts sn hok c (p.map pos)
    (by rw [Asc, List.pairwise_map]; exact ho) (by simpa using hp) _ ss sb hss
  have hmerge := mergesort_eq ss.starts r.starts ss.ends r.ends r.unknownLast (by rw [f2]; simp) hc.ends_len f1
    (ends_asc hc.labels_len hc.ends_len hne hsep.ended) hne
  obtain ⟨starts, idx, hmerge⟩ : ∃ starts idx, mergesort (ss.starts, r.starts) (ss.ends, r.ends) r.unknownLast =
      .ok (starts, idx) := ⟨_, _, hmerge⟩
  have hseg := segmentby_snap_of fn pos sn p (buf.map Buf.seg) r b' c ss sb starts idx
    (by rw [Option.map_map]; exact hf) ho hcl (by rw [Option.isSome_map]; exact hc)
    (by rw [Option.map_map]; exact hss) hmerge
  rw [f2] at hmerge
  obtain ⟨a, hj, hja⟩ := jcsagg_snaps H a0 (preserves buf r.labels) ((buf.bind Buf.chunk).getD a0)
    ho hc.labels_len hc.ends_len hm hl hsep f1 hmerge _ rfl
  have hj' : jcsagg upd p starts idx (decide ((some ss.labels |>.map List.length).getD 0 ≠ 0)) (preserves buf r.labels)
      ((buf.bind Buf.chunk).getD a0) = jcsagg upd p starts idx true (preserves buf r.labels)
      ((buf.bind Buf.chunk).getD a0) := by
    by_cases h0 : ss.labels.length = 0
    · -- no snapshot: all entries are bins
      have he : ss.ends = [] := List.length_eq_zero_iff.1 (by omega)
      rw [he, List.map_nil, mergesort_eq [] _ [] _ _ rfl hc.ends_len List.Pairwise.nil
        (ends_asc hc.labels_len hc.ends_len hne hsep.ended) hne] at hmerge
      simp only [Except.ok.injEq, Prod.mk.injEq] at hmerge
      obtain ⟨rfl, rfl⟩ := hmerge
      have hall : events (evs false [] []) (evs true r.ends r.starts) r.unknownLast = evs true r.ends r.starts := by
        unfold events
        simp only [evs, List.zip_nil_right, List.map_nil, mergeEv]
        split
        · generalize (r.ends.zip r.starts).map (fun p => ((p.1, true, p.2) : Ev)) = l
          rcases List.eq_nil_or_concat l with rfl | ⟨l', x, rfl⟩
          · rfl
          · simp
        · rfl
      rw [hall]
      have hexb : ∃ e ∈ evs true r.ends r.starts, e.2.1 = true := by
        have hne3 : evs true r.ends r.starts ≠ [] := by
          intro h0
          have := congrArg List.length h0
          rw [evs, List.length_map, List.length_zip] at this
          have h3 := List.length_pos_iff.2 hne
          have h4 := hc.ends_len
          simp only [List.length_nil] at this; omega
        obtain ⟨e, he⟩ := List.exists_mem_of_ne_nil _ hne3
        exact ⟨e, he, (mem_evs he).1⟩
      have hcl : classify 0 (binPositions (evs true r.ends r.starts)) ((evs true r.ends r.starts).map fun e => e.2.2) =
          ((evs true r.ends r.starts).map fun e => e.2.2).map fun s => (true, s) := by
        rw [classify_binPositions _ hexb, evs_map_snd _ _ _ hc.ends_len]
        exact evs_kind _ _ hc.ends_len
      unfold jcsagg
      simp only [Option.map_some, Option.getD_some, h0, ne_eq, not_true_eq_false, decide_false, Bool.false_eq_true,
        if_false, if_true, hcl]
    · rw [show decide ((some ss.labels |>.map List.length).getD 0 ≠ 0) = true by simpa using h0]
  unfold cumsegagg
  rw [show p.isEmpty = false by simpa using hp]
  simp only [Bool.false_eq_true, if_false, hseg, Bool.false_and]
  rw [show (buf.isSome && decide (((buf.map Buf.seg).bind MainBuf.lastBinLabel).isSome ∧
    (buf.map Buf.seg).bind MainBuf.lastBinLabel = r.labels.head?)) = preserves buf r.labels from rfl]
  rw [hj', hj]
  refine ⟨a, ?_, hja⟩
  cases buf <;> rfl

include H in
theorem call_snaps (fn : BinFn R B) (pos : R → Int) (sn : Snaps) (hok : Snaps.Ok sn) (p : List R) (hp : p ≠ [])
    (buf : Option (Buf B A))
    (r : BinRes) (b' : Option B) (hf : fn p (buf.map fun b => b.seg.bin) = .ok (r, b')) (ho : AscOn pos p)
    (c : Closed) (hcl : r.closed = some c)
    (hc : Consistent p.length buf.isSome ((buf.map Buf.seg).bind MainBuf.lastBinLabel) r)
    (hm : r.starts.Pairwise (· ≤ ·)) (hl : r.starts.getLast? = some p.length)
    (hsep : Separated (c == .right) pos (readBins r.starts r.labels r.ends r.unknownLast p))
    (ss : Seg) (sb : Option ScaleBuf)
    (hss : runSnaps sn c (p.map pos) (buf.map fun b => b.seg.snap) = .ok (ss, sb))
    (hlen : ss.labels.length = ss.ends.length) :
    ∃ b'', cumsegagg upd a0 z fn (some pos) (some sn) false p buf =
      .ok (some ⟨setNulls r.labels (binVals upd a0 (before a0 buf r.labels)
          (readBins r.starts r.labels r.ends r.unknownLast p)),
        some (setNulls ss.labels (ss.ends.map fun s => snapVal upd a0 (c == .right) pos s (before a0 buf r.labels)
          (readBins r.starts r.labels r.ends r.unknownLast p)))⟩, b'') := by
  obtain ⟨a, h, _⟩ := call_snaps_buf H a0 z fn pos sn hok p hp buf r b' hf ho c hcl hc hm hl hsep ss sb hss hlen
  exact ⟨_, h⟩

end

/-- One label per snapshot. -/
theorem runSnaps_labels (sn : Snaps) (c : Closed) (on : List Int) (hs : Asc on) (hne : on ≠ []) (hok : Snaps.Ok sn)
    (buf : Option ScaleBuf) (ss : Seg) (sb : Option ScaleBuf) (h : runSnaps sn c on buf = .ok (ss, sb)) :
    ss.labels.length = ss.ends.length := by
  have hfinish : ∀ (isG : Bool) (l e : List Int) (b : Option ScaleBuf), l.length = e.length →
      scaleFinish isG on l e c b = (ss, sb) → ss.labels.length = ss.ends.length := by
    intro isG l e b hl hf
    unfold scaleFinish at hf
    simp only at hf
    split at hf
    · simp only [Prod.mk.injEq] at hf
      obtain ⟨rfl, -⟩ := hf
      simp [hl]
    · simp only [Prod.mk.injEq] at hf
      obtain ⟨rfl, -⟩ := hf
      exact hl
  cases sn with
  | grouper g =>
    simp only [runSnaps, Except.ok.injEq] at h
    obtain ⟨st, en, hb⟩ : ∃ st en, byGrouper g (some c) on buf = scaleFinish true on
        (if g.labelRight then (dateRange st en g.freq).tail else (dateRange st en g.freq).dropLast)
        (dateRange st en g.freq).tail c buf := ⟨_, _, rfl⟩
    rw [hb] at h
    refine hfinish _ _ _ _ ?_ h
    split <;> simp
  | calendar g =>
    simp only [runSnaps, Except.ok.injEq] at h
    obtain ⟨st, en, k, hb⟩ : ∃ st en k, byCalendar g (some c) on buf = scaleFinish true on
        (if g.labelRight then (calRange g.off g.n en k st).tail else (calRange g.off g.n en k st).dropLast)
        (calRange g.off g.n en k st).tail c buf := ⟨_, _, _, rfl⟩
    rw [hb] at h
    refine hfinish _ _ _ _ ?_ h
    split <;> simp
  | values l e =>
    have hfin : ∀ (l e : List Int) (b : Option ScaleBuf), l.length = e.length → seriesFinish l e c on b = (ss, sb) →
        ss.labels.length = ss.ends.length := by
      intro l e b hl hf
      unfold seriesFinish at hf
      split at hf
      · simp only [Prod.mk.injEq] at hf
        obtain ⟨rfl, -⟩ := hf
        exact hl
      · exact hfinish _ _ _ _ hl hf
    simp only [runSnaps] at h
    unfold bySeries at h
    simp only at h
    split at h
    · cases h
    · rename_i hlen
      have hlen : l.length = e.length := by simpa using hlen
      cases buf with
      | none =>
        simp only [Except.ok.injEq] at h
        exact hfin l e none hlen h
      | some b =>
        simp only at h
        split at h
        · cases hr : seriesRestart l e c b with
          | error x => rw [hr] at h; cases h
          | ok le =>
            obtain ⟨l', e'⟩ := le
            rw [hr] at h
            simp only [Except.ok.injEq] at h
            apply hfin l' e' _ _ h
            unfold seriesRestart at hr
            cases ht : trimTo l e b.restart with
            | error x => rw [ht] at hr; cases hr
            | ok le1 =>
              obtain ⟨l1, e1⟩ := le1
              rw [ht] at hr
              simp only at hr
              have h1 : l1.length = e1.length := by
                unfold trimTo at ht
                cases hk : b.restart with
                | none =>
                  rw [hk] at ht
                  simp only [Except.ok.injEq, Prod.mk.injEq] at ht
                  rw [← ht.2, ← ht.1]; exact hlen
                | some k =>
                  rw [hk] at ht
                  simp only at ht
                  split at ht
                  · cases ht
                  · split at ht
                    · simp only [Except.ok.injEq, Prod.mk.injEq] at ht
                      rw [← ht.2, ← ht.1]; exact hlen
                    · split at ht
                      · cases ht
                      · split at ht
                        · cases ht
                        · simp only [Except.ok.injEq, Prod.mk.injEq] at ht
                          rw [← ht.2, ← ht.1, List.length_drop]
                          have := List.length_filter_le (fun x => decide (k ≤ x)) e
                          omega
              unfold dropDone at hr
              cases hlo : b.lastOn with
              | none =>
                rw [hlo] at hr
                simp only [Except.ok.injEq, Prod.mk.injEq] at hr
                rw [← hr.2, ← hr.1]; exact h1
              | some lo =>
                rw [hlo] at hr
                simp only at hr
                split at hr
                · cases hr
                · split at hr
                  · cases hr
                  · split at hr
                    · simp only [Except.ok.injEq, Prod.mk.injEq] at hr
                      rw [← hr.2, ← hr.1, List.length_drop, List.length_drop, h1]
                    · simp only [Except.ok.injEq, Prod.mk.injEq] at hr
                      rw [← hr.2, ← hr.1]; exact h1
        · simp only [Except.ok.injEq] at h
          exact hfin l e (some b) hlen h

/-! ### Columns -/

section
variable {R V D : Type} [DecidableEq D]

/-- Update of one column. -/
def colUpd (O : Ops V) (f : Fn) (col : R → V) : List R → V → Bool → V := fun xs a p => jagg O f (xs.map col) a p

theorem colUpd_hom (O : Ops V) (f : Fn) (col : R → V) : Hom (colUpd O f col) where
  split := by
    intro xs ys a p hx _
    simp only [colUpd, List.map_append]
    exact jagg_append O f _ _ a p (by simpa using hx)
  fresh := by
    intro xs a b hx
    have h1 := jagg_fresh O f (xs.map col) a (by simpa using hx)
    have h2 := jagg_fresh O f (xs.map col) b (by simpa using hx)
    rw [← h2] at h1
    exact Option.some.inj h1

theorem value_col (O : Ops V) (f : Fn) (col : R → V) (a0 : V) (rows : List R) :
    value (colUpd O f col) a0 none rows = aggCol O f (rows.map col) := by
  unfold value
  by_cases h : rows = []
  · subst h; cases f <;> rfl
  · rw [if_neg h]
    exact jagg_fresh O f _ a0 (by simpa using h)

/-- Column `out` of a frame of results. -/
def column (cfg : List (D × Group)) (out : Nat) (rows : List (Int × Option (List (List V)))) : List (Int × Option V) :=
  rows.map fun x => (x.1, x.2.bind (readCol out cfg))

/-- Projection to a column. -/
def colProj (O : D → Ops V) (cfg : List (D × Group)) (d : D) (out : Nat) (res : List (List V)) : V :=
  (readCol out cfg res).getD (O d).zero

variable (O : D → Ops V) (get : R → Nat → V) {dtype : Nat → Option D} {agg : List (Nat × Nat × Option Fn)}
variable {cfg : List (D × Group)}

theorem cfgOk_of (h : setupCumsegagg agg dtype = .ok cfg) : CfgOk dtype agg cfg := by
  rcases setup_spec dtype agg with ⟨c, h1, h2, _⟩ | ⟨e, h1, _⟩
  · rw [h] at h1; cases h1; exact h2
  · rw [h] at h1; cases h1

theorem col_proj (hc : CfgOk dtype agg cfg) (hout : (agg.map Prod.fst).Nodup) {out i : Nat} {f : Fn} {d : D}
    (he : (out, i, some f) ∈ agg) (hd : dtype i = some d) (xs : List R) (a : List (List V)) (p : Bool)
    (ha : Shaped cfg a) :
    colProj O cfg d out (updCfg O get cfg xs a p) =
      colUpd (O d) f (fun row => get row i) xs (colProj O cfg d out a) p := by
  unfold colProj colUpd
  rw [(updCfg_col O get hc hout he hd a ha).2]
  rfl

theorem column_eq (get : R → Nat → V) (hc : CfgOk dtype agg cfg) (hout : (agg.map Prod.fst).Nodup) {out i : Nat} {f : Fn} {d : D}
    (he : (out, i, some f) ∈ agg) (hd : dtype i = some d) (rows : List (Int × Option (List (List V))))
    (h : ∀ x ∈ rows, ∀ a, x.2 = some a → Shaped cfg a) :
    column cfg out rows = projRows (colProj O cfg d out) rows := by
  unfold column projRows
  apply List.map_congr_left
  intro x hx
  cases hx2 : x.2 with
  | none => rfl
  | some a =>
    have := (updCfg_col O get hc hout he hd a (h x hx a hx2)).1
    obtain ⟨v, hv⟩ := Option.isSome_iff_exists.1 this
    simp [colProj, hv]

theorem zeros_col (hc : CfgOk dtype agg cfg) (hout : (agg.map Prod.fst).Nodup) {out i : Nat} {f : Fn} {d : D}
    (he : (out, i, some f) ∈ agg) (hd : dtype i = some d) : colProj O cfg d out (chunkRes0 O cfg) = (O d).zero := by
  obtain ⟨d', f', g, h1, h2, h3⟩ := hc.all _ he
  unfold colProj
  have key : ∀ cfg' : List (D × Group), (∀ p ∈ cfg', p ∈ cfg) →
      readCol out cfg' (chunkRes0 O cfg') = none ∨ readCol out cfg' (chunkRes0 O cfg') = some (O d).zero := by
    intro cfg'
    induction cfg' with
    | nil => intro _; exact Or.inl rfl
    | cons q cfg' ih =>
      intro hsub
      obtain ⟨dq, gq⟩ := q
      simp only [chunkRes0, List.map_cons, readCol]
      by_cases ho : out ∈ gq.colsOut
      · rw [if_pos ho]
        have hg := hc.entry _ (hsub (dq, gq) (by simp))
        simp only at hg
        -- the entry is that of the dtype
        rw [hg.out] at ho
        obtain ⟨⟨o, j, f''⟩, he'', hoo⟩ := List.mem_map.1 ho
        simp only at hoo
        subst hoo
        obtain ⟨⟨o', j', f'''⟩, he3, he4⟩ := List.mem_filterMap.1 he''
        simp only at he4
        split at he4
        · rename_i hj
          cases f''' with
          | none => simp at he4
          | some f''' =>
            simp only [Option.map_some, Option.some.injEq, Prod.mk.injEq] at he4
            obtain ⟨rfl, rfl, rfl⟩ := he4
            have heq := List.inj_on_of_nodup_map hout he3 he rfl
            simp only [Prod.mk.injEq, true_and] at heq
            rw [heq.1, hd] at hj
            simp only [Option.some.injEq] at hj
            subst hj
            rw [List.getElem?_replicate]
            split
            · exact Or.inr rfl
            · exact Or.inl rfl
        · cases he4
      · rw [if_neg ho]
        exact ih (fun p hp => hsub p (by simp [hp]))
  rcases key cfg (fun _ h => h) with h | h <;> rw [h] <;> rfl

end

end Oups.Agg
