import Verif.Proofs.AggregateCall
import Mathlib.Data.List.Induction
/-! Successive calls of `cumsegagg` sharing a buffer. -/
set_option linter.unusedSimpArgs false
namespace Oups.Agg
open Oups.Segment Oups.Segment.Spec Spec

variable {R A B : Type}

theorem binVals_none (upd : List R → A → Bool → A) (a0 : A) (bs : List (Bin R)) :
    binVals upd a0 none bs = bs.map fun b => value upd a0 none b.rows := by
  induction bs with
  | nil => rfl
  | cons b bs ih => rw [binVals, ih, List.map_cons]

theorem length_binVals (upd : List R → A → Bool → A) (a0 : A) (prev : Option A) (bs : List (Bin R)) :
    (binVals upd a0 prev bs).length = bs.length := by
  cases bs with
  | nil => rfl
  | cons b bs => rw [binVals, binVals_none, List.length_cons, List.length_map, List.length_cons]

theorem getLastD_cc (x : Nat) (ts : List Nat) (t d : Nat) : (x :: (ts ++ [t])).getLastD d = t := by
  rw [← List.cons_append, List.getLastD_concat]

/-! ### Bins before and after a call -/

/-- Last bin so far and its rows. -/
theorem spec_last {fn : BinFn R B} {pos : R → Int} {c : Closed} {b0 : B} {spec : List R → List (Bin R)}
    {ok : List R → B → Prop} (L : Lawful fn pos c b0 spec ok) (h : List R) (hne : h ≠ []) (hs : AscOn pos h) :
    ∃ l, (spec h).getLast? = some l ∧ l.rows ≠ [] ∧ l.rows.getLast? = h.getLast? ∧
      ((spec h).map Bin.rows).flatten = h := by
  obtain ⟨r, h1, h2, h3⟩ := oneShot_lawful L h hne hs
  have hrows := readBins_rows (u := r.unknownLast) (rows := h) h3.labels_len h3.ends_len h3.ne
  rw [h2] at hrows
  have hmono0 : (0 :: r.starts).Pairwise (· ≤ ·) := List.pairwise_cons.2 ⟨fun _ _ => Nat.zero_le _, h3.mono⟩
  have hlast0 : (0 :: r.starts).getLast? = some h.length := by
    rw [List.getLast?_cons, h3.last]; rfl
  have hflat : ((spec h).map Bin.rows).flatten = h := by
    rw [hrows, cut_flatten h 0 r.starts hmono0 hlast0]; rfl
  have hne' : spec h ≠ [] := by
    intro h0; rw [h0] at hflat; exact hne hflat.symm
  obtain ⟨l, hl⟩ := getLast?_of_ne hne'
  obtain ⟨ts, hts⟩ := List.getLast?_eq_some_iff.1 h3.last
  have hlrows : l.rows ≠ [] := by
    obtain ⟨bs, hbs⟩ := List.getLast?_eq_some_iff.1 hl
    have hflat' := hflat
    rw [hbs] at hflat'
    have hlen : (bs.map Bin.rows).flatten.length < h.length := by
      have hcut : bs.map Bin.rows = cut h 0 ts := by
        have : ∀ (s : Nat) (ts : List Nat) (t : Nat), cut h s (ts ++ [t]) = cut h s ts ++
            [slice h ((s :: ts).getLastD 0) t] := by
          intro s ts t
          induction ts generalizing s with
          | nil => rfl
          | cons x ts ih =>
            rw [List.cons_append, cut, ih, cut, List.cons_append]
            simp
        rw [hbs, hts, this, List.map_append, List.map_singleton] at hrows
        exact (List.append_inj' hrows rfl).1
      have htl : ∀ t ∈ ts, t < h.length := by
        intro t ht
        apply h3.before
        rw [hts, List.dropLast_concat]; exact ht
      rw [hts] at hmono0
      have hm' : (0 :: ts).Pairwise (· ≤ ·) := hmono0.sublist (by simp)
      have : (bs.map Bin.rows).flatten = h.take ((0 :: ts).getLastD 0) := by
        have hz : ((0 :: ts).getLastD 0) ≤ h.length := by
          cases ts using List.reverseRecOn with
          | nil => simp
          | append_singleton ts t _ => rw [getLastD_cc]; exact Nat.le_of_lt (htl t (by simp))
        have := cut_flatten (h.take ((0 :: ts).getLastD 0)) 0 ts hm' (by
          rw [List.length_take, Nat.min_eq_left hz]
          cases ts using List.reverseRecOn with
          | nil => simp
          | append_singleton ts t _ => rw [getLastD_cc, ← List.cons_append, List.getLast?_concat])
        rw [hcut]
        rw [List.drop_zero] at this
        rw [← this]
        congr 1
        have hcong : ∀ (ts : List Nat) (s : Nat) (n : Nat), (s :: ts).Pairwise (· ≤ ·) → (∀ t ∈ ts, t ≤ n) →
            cut (h.take n) s ts = cut h s ts := by
          intro ts
          induction ts with
          | nil => intros; rfl
          | cons t ts ih =>
            intro s n hm hn
            have h' := List.pairwise_cons.1 hm
            rw [cut, cut, ih t n h'.2 (fun x hx => hn x (by simp [hx])), List.drop_take, List.take_take,
              Nat.min_eq_left (by have := hn t (by simp); omega)]
        symm
        apply hcong ts 0 _ hm'
        intro t ht
        cases ts using List.reverseRecOn with
        | nil => simp at ht
        | append_singleton ts u _ =>
          rw [getLastD_cc]
          rcases List.mem_append.1 ht with h' | h'
          · rw [← List.cons_append, List.pairwise_append] at hm'
            exact hm'.2.2 t (by simp [h']) u (by simp)
          · simp at h'; omega
      rw [this, List.length_take]
      cases ts using List.reverseRecOn with
      | nil =>
        have := List.length_pos_iff.2 hne
        simp; omega
      | append_singleton ts u _ =>
        have := htl u (by simp)
        rw [getLastD_cc]; omega
    intro h0
    rw [List.map_append, List.flatten_append] at hflat'
    simp only [List.map_cons, List.map_nil, List.flatten_cons, List.flatten_nil, h0, List.append_nil] at hflat'
    rw [hflat'] at hlen
    omega
  refine ⟨l, hl, hlrows, ?_, hflat⟩
  obtain ⟨bs, hbs⟩ := List.getLast?_eq_some_iff.1 hl
  conv_rhs => rw [← hflat, hbs]
  rw [List.map_append, List.flatten_append, List.getLast?_append]
  obtain ⟨z, hz⟩ := getLast?_of_ne hlrows
  simp [hz]

/-- Bins after a call, from those before and those of the call. -/
theorem step_cases {fn : BinFn R B} {pos : R → Int} {c : Closed} {b0 : B} {spec : List R → List (Bin R)}
    {ok : List R → B → Prop} (L : Lawful fn pos c b0 spec ok) {h p : List R} {r : BinRes} (hs : AscOn pos (h ++ p))
    (s : StepOk spec h p r) :
    ∃ f tl, readBins r.starts r.labels r.ends r.unknownLast p = f :: tl ∧
      ((h = [] ∧ spec (h ++ p) = f :: tl) ∨
        (h ≠ [] ∧ ∃ bs l, spec h = bs ++ [l] ∧ spec (h ++ p) = bs ++ ⟨f.label, f.stop, l.rows ++ f.rows⟩ :: tl ∧
          l.rows ≠ [] ∧ l.rows.getLast? = h.getLast? ∧ ((spec h).map Bin.rows).flatten = h)) := by
  have hlen := readBins_length (u := r.unknownLast) (rows := p) s.labels_len s.ends_len s.ne
  have hpos := List.length_pos_iff.2 s.ne
  obtain ⟨f, tl, hft⟩ : ∃ f tl, readBins r.starts r.labels r.ends r.unknownLast p = f :: tl := by
    cases hb : readBins r.starts r.labels r.ends r.unknownLast p with
    | nil => rw [hb] at hlen; simp at hlen; omega
    | cons f tl => exact ⟨f, tl, rfl⟩
  refine ⟨f, tl, hft, ?_⟩
  have hg := s.glue
  rw [hft] at hg
  by_cases hh : h = []
  · left
    refine ⟨hh, ?_⟩
    rw [← hg, hh, L.spec_nil]; rfl
  · right
    obtain ⟨l, hl, h2, h3, h4⟩ := spec_last L h hh (hs.sublist (List.sublist_append_left _ _))
    obtain ⟨bs, hbs⟩ := List.getLast?_eq_some_iff.1 hl
    refine ⟨hh, bs, l, hbs, ?_, h2, h3, h4⟩
    rw [← hg, hbs]
    simp [glue]

theorem separated_suffix {right : Bool} {pos : R → Int} {a b : List (Bin R)} (h : Separated right pos (a ++ b)) :
    Separated right pos b := by
  induction a with
  | nil => exact h
  | cons x a ih => exact ih (separated_cons.1 h).2

/-- Bins of a call are separated when those of the whole are. -/
theorem separated_local {right : Bool} {pos : R → Int} {f : Bin R} {tl : List (Bin R)} {rows : List R}
    (h : Separated right pos (⟨f.label, f.stop, rows ++ f.rows⟩ :: tl)) : Separated right pos (f :: tl) := by
  obtain ⟨⟨h1, h2⟩, h3⟩ := separated_cons.1 h
  refine separated_cons.2 ⟨⟨h1, ?_⟩, h3⟩
  intro e he
  obtain ⟨h4, h5⟩ := h2 e he
  exact ⟨fun r hr => h4 r (List.mem_append_right _ hr), h5⟩

/-! ### Snapshots before and after a call -/

/-- Value of a snapshot point already over is not changed by later rows. -/
theorem snapVal_old (upd : List R → A → Bool → A) (a0 : A) {right : Bool} {pos : R → Int} {bs tl : List (Bin R)}
    {l f : Bin R} {s : Int} (prev : Option A) (h1 : Separated right pos (bs ++ [l]))
    (h2 : Separated right pos (bs ++ ⟨f.label, f.stop, l.rows ++ f.rows⟩ :: tl)) {y : R} (hy : y ∈ l.rows)
    (hys : within right s (pos y) = false) (hf : ∀ r ∈ f.rows, within right s (pos r) = false) :
    snapVal upd a0 right pos s prev (bs ++ ⟨f.label, f.stop, l.rows ++ f.rows⟩ :: tl) =
      snapVal upd a0 right pos s prev (bs ++ [l]) := by
  induction bs generalizing prev with
  | nil =>
    have hge : ∀ e, pos y ≤ e → ¬ e < s := by
      intro e he hlt
      rw [within_of_lt he hlt] at hys; cases hys
    have hfil : (l.rows ++ f.rows).filter (fun r => within right s (pos r)) =
        l.rows.filter (fun r => within right s (pos r)) := by
      have h0 : f.rows.filter (fun r => within right s (pos r)) = [] :=
        List.filter_eq_nil_iff.2 (by intro r hr; simp [hf r hr])
      rw [List.filter_append, h0, List.append_nil]
    have e1 : snapVal upd a0 right pos s prev (⟨f.label, f.stop, l.rows ++ f.rows⟩ :: tl) =
        value upd a0 prev (l.rows.filter (fun r => within right s (pos r))) := by
      simp only [snapVal]
      rw [hfil]
      cases hfs : f.stop with
      | none => rfl
      | some e =>
        have := ((separated_cons.1 h2).1.2 e hfs).1 y (List.mem_append_left _ hy)
        simp only [if_neg (hge e this)]
    have e2 : snapVal upd a0 right pos s prev [l] =
        value upd a0 prev (l.rows.filter (fun r => within right s (pos r))) := by
      simp only [snapVal]
      cases hls : l.stop with
      | none => rfl
      | some e =>
        have := ((separated_cons.1 h1).1.2 e hls).1 y hy
        simp only [if_neg (hge e this)]
    rw [List.nil_append, List.nil_append, e1, e2]
  | cons b bs ih =>
    have h1' := (separated_cons.1 h1).2
    have h2' := (separated_cons.1 h2).2
    simp only [List.cons_append, snapVal]
    rw [ih none h1' h2']

/-- Value of a snapshot point not over yet: bins over before are skipped, the bin in progress is continued. -/
theorem snapVal_new {upd : List R → A → Bool → A} (H : Hom upd) (a0 : A) {right : Bool} {pos : R → Int}
    {bs tl : List (Bin R)} {l f : Bin R} {s : Int} (prev : Option A) (hne : bs = [] → prev = none)
    (h2 : Separated right pos (bs ++ ⟨f.label, f.stop, l.rows ++ f.rows⟩ :: tl)) {y : R} (hy : y ∈ l.rows)
    (hw : ∀ r ∈ l.rows, within right s (pos r) = true) :
    snapVal upd a0 right pos s prev (bs ++ ⟨f.label, f.stop, l.rows ++ f.rows⟩ :: tl) =
      snapVal upd a0 right pos s (value upd a0 none l.rows) (f :: tl) := by
  induction bs generalizing prev with
  | nil =>
    rw [hne rfl, List.nil_append]
    have hfil : (l.rows ++ f.rows).filter (fun r => within right s (pos r)) =
        l.rows ++ f.rows.filter (fun r => within right s (pos r)) := by
      rw [List.filter_append, List.filter_eq_self.2 hw]
    simp only [snapVal]
    rw [hfil, value_append H]
  | cons b bs ih =>
    obtain ⟨⟨h3, h4⟩, h5⟩ := separated_cons.1 h2
    cases hb : b.stop with
    | none => have := h3 hb; simp at this
    | some e =>
      have hye := ((h4 e hb).2 ⟨f.label, f.stop, l.rows ++ f.rows⟩ (by simp)).1 y (List.mem_append_left _ hy)
      have hlt : e < s := by
        by_contra hlt
        rw [within_mono_edge (by omega) (hw y hy)] at hye; cases hye
      simp only [List.cons_append, snapVal, hb, if_pos hlt]
      exact ih none (fun _ => rfl) h5

/-- Streaming contract of snapshots. `pts`: labels and positions of the snapshots of a frame. -/
structure SnapOk (pts : List R → List (Int × Int)) (right : Bool) (pos : R → Int) (h p : List R) (s : Seg) : Prop where
  labels_len : s.labels.length = s.ends.length
  ne : s.ends ≠ []
  asc : Asc s.ends
  starts : s.starts = s.ends.map fun e => (p.map pos).countP (within right e)
  glue : pts (h ++ p) = (pts h).dropLast ++ s.labels.zip s.ends
  nodup : s.labels.Nodup
  cover : ∀ e ∈ s.ends, ∀ r ∈ h, within right e (pos r) = true
  old : ∀ q ∈ (pts h).dropLast, ∀ y, h.getLast? = some y → within right q.2 (pos y) = false
  null : s.nNull = repeats 0 s.starts

structure SnapLaw (sn : Snaps) (closed : Closed) (pos : R → Int) (pts : List R → List (Int × Int))
    (sok : List R → ScaleBuf → Prop) : Prop where
  pts_nil : pts [] = []
  init : sok [] {}
  step : ∀ h p b, p ≠ [] → AscOn pos (h ++ p) → sok h b →
    ∃ s b', runSnaps sn closed (p.map pos) (some b) = .ok (s, some b') ∧ sok (h ++ p) b' ∧
      SnapOk pts (closed == .right) pos h p s
  noBuf : ∀ p, p ≠ [] → AscOn pos p → ∃ s b', runSnaps sn closed (p.map pos) (some {}) = .ok (s, some b') ∧
    runSnaps sn closed (p.map pos) none = .ok (s, none)

/-! ### Results of a frame -/

section
variable (upd : List R → A → Bool → A) (a0 : A)

/-- Results of bins. -/
def binRes (bins : List (Bin R)) : List (Int × Option A) := bins.map fun b => (b.label, value upd a0 none b.rows)

/-- Results of snapshots. -/
def snapRes (right : Bool) (pos : R → Int) (bins : List (Bin R)) (pts : List (Int × Int)) : List (Int × Option A) :=
  pts.map fun q => (q.1, value upd a0 none (snapRows right pos q.2 bins))

theorem snapVal_none (right : Bool) (pos : R → Int) (s : Int) (bins : List (Bin R)) :
    snapVal upd a0 right pos s none bins = value upd a0 none (snapRows right pos s bins) := by
  induction bins with
  | nil => simp [snapVal, snapRows, value]
  | cons b bs ih =>
    simp only [snapVal, snapRows]
    cases b.stop with
    | none => rfl
    | some e =>
      simp only
      split
      · exact ih
      · rfl

theorem setNulls_eq (labels : List Int) (rows : List (Option A)) (h : labels.Nodup ∨ ∀ r ∈ rows, r.isSome)
    (hlen : labels.length = rows.length) : setNulls labels rows = labels.zip rows := by
  unfold setNulls
  conv_rhs => rw [← List.map_id (labels.zip rows)]
  apply List.map_congr_left
  rintro ⟨l, r⟩ hp
  simp only [id, Prod.mk.injEq, true_and]
  split
  · rename_i hmem
    obtain ⟨⟨l', r'⟩, hq, hl⟩ := List.mem_map.1 hmem
    simp only at hl
    subst hl
    obtain ⟨hq1, hq2⟩ := List.mem_filter.1 hq
    rcases h with h | h
    · obtain ⟨i, hi, hi'⟩ := List.getElem_of_mem hp
      obtain ⟨j, hj, hj'⟩ := List.getElem_of_mem hq1
      rw [List.getElem_zip] at hi' hj'
      simp only [Prod.mk.injEq] at hi' hj'
      have hij : i = j := by
        rw [List.length_zip] at hi hj
        apply (List.Nodup.getElem_inj_iff h).1 (hi'.1.trans hj'.1.symm)
      subst hij
      rw [← hi'.2, hj'.2]
      cases r' with
      | none => rfl
      | some v => simp at hq2
    · have := h r' (List.of_mem_zip hq1).2
      simp [this] at hq2
      rw [hq2] at this; cases this
  · rfl

end

/-- State after the rows `h`. -/
structure AggOk (upd : List R → A → Bool → A) (a0 : A) (spec : List R → List (Bin R)) (ok : List R → B → Prop)
    (sok : List R → ScaleBuf → Prop) (h : List R) (b : Buf B A) : Prop where
  bin : ok h b.seg.bin
  snap : sok h b.seg.snap
  label : b.seg.lastBinLabel = (spec h).getLast?.map Bin.label
  chunk : ∀ l, (spec h).getLast? = some l → b.chunk = value upd a0 none l.rows

section
variable {upd : List R → A → Bool → A} (H : Hom upd) (a0 : A) (z : A → Bool)
variable {fn : BinFn R B} {pos : R → Int} {c : Closed} {b0 : B} {spec : List R → List (Bin R)}
variable {ok : List R → B → Prop} (L : Lawful fn pos c b0 spec ok)
variable {sok : List R → ScaleBuf → Prop}

/-- The condition under which results are null by bin, not by label. -/
def LabelsOk (bins : List (Bin R)) : Prop := (bins.map Bin.label).Nodup ∨ ∀ b ∈ bins, b.rows ≠ []

include H in
/-- Results of the bins after a call, from those before and those of the call. -/
theorem bins_glue {h p : List R} {r : BinRes} (hs : AscOn pos (h ++ p)) (s : StepOk spec h p r)
    (L : Lawful fn pos c b0 spec ok) (hlab : LabelsOk (spec (h ++ p))) (prev : Option A)
    (hprev : prev = (spec h).getLast?.bind fun l => value upd a0 none l.rows) :
    binRes upd a0 (spec (h ++ p)) = (binRes upd a0 (spec h)).dropLast ++
      setNulls r.labels (binVals upd a0 prev (readBins r.starts r.labels r.ends r.unknownLast p)) ∧
    (binVals upd a0 prev (readBins r.starts r.labels r.ends r.unknownLast p)).getLast? =
      (spec (h ++ p)).getLast?.map (fun l => value upd a0 none l.rows) := by
  obtain ⟨f, tl, hft, hcase⟩ := step_cases L hs s
  have hlabels := readBins_labels (u := r.unknownLast) (rows := p) s.labels_len s.ends_len s.ne
  rw [hft] at hlabels ⊢
  have hlen : r.labels.length = (binVals upd a0 prev (f :: tl)).length := by
    rw [length_binVals, ← hlabels, List.length_map]
  -- the values of the call, on the glued bins
  have key : ∀ g : Bin R, g.label = f.label → value upd a0 none g.rows = value upd a0 prev f.rows →
      (g :: tl).map (fun b => (b.label, value upd a0 none b.rows)) = r.labels.zip (binVals upd a0 prev (f :: tl)) := by
    intro g hg1 hg2
    rw [← hlabels, binVals, binVals_none]
    simp only [List.map_cons, List.zip_cons_cons, hg1, hg2]
    congr 1
    exact List.zip_map'.symm
  have keyl : ∀ g : Bin R, value upd a0 none g.rows = value upd a0 prev f.rows → ∀ bs : List (Bin R),
      (binVals upd a0 prev (f :: tl)).getLast? = (bs ++ g :: tl).getLast?.map (fun l => value upd a0 none l.rows) := by
    intro g hg2 bs
    rw [binVals, binVals_none, ← hg2, ← List.map_cons (f := fun b : Bin R => value upd a0 none b.rows), getLast?_map',
      List.getLast?_append]
    obtain ⟨z, hz⟩ := getLast?_of_ne (l := g :: tl) (by simp)
    rw [hz]; rfl
  rcases hcase with ⟨rfl, hsp⟩ | ⟨hh, bs, l, hsh, hsp, hl1, hl2, hl3⟩
  · rw [L.spec_nil] at hprev
    simp only [List.getLast?_nil, Option.bind_none] at hprev
    subst hprev
    have hnull : r.labels.Nodup ∨ ∀ v ∈ binVals upd a0 none (f :: tl), v.isSome := by
      rw [hsp] at hlab
      rcases hlab with h1 | h1
      · left; rw [← hlabels]; exact h1
      · right
        rw [binVals_none]
        intro v hv
        obtain ⟨b, hb, rfl⟩ := List.mem_map.1 hv
        simp [value, h1 b hb]
    rw [setNulls_eq r.labels _ hnull hlen, L.spec_nil, hsp, ← key f rfl rfl]
    exact ⟨rfl, keyl f rfl []⟩
  · rw [hsh, List.getLast?_concat] at hprev
    simp only [Option.bind_some] at hprev
    have hv : value upd a0 none (l.rows ++ f.rows) = value upd a0 prev f.rows := by
      rw [hprev, value_append H]
    have hnull : r.labels.Nodup ∨ ∀ v ∈ binVals upd a0 prev (f :: tl), v.isSome := by
      rw [hsp] at hlab
      rcases hlab with h1 | h1
      · left
        rw [← hlabels]
        rw [List.map_append, List.map_cons] at h1
        exact h1.sublist (by rw [List.map_cons]; exact List.sublist_append_right _ _)
      · right
        rw [binVals, binVals_none, ← hv]
        intro v hv'
        rcases List.mem_cons.1 hv' with rfl | hv'
        · simp [value, hl1]
        · obtain ⟨b, hb, rfl⟩ := List.mem_map.1 hv'
          simp [value, h1 b (by simp [hb])]
    rw [setNulls_eq r.labels _ hnull hlen, hsp, hsh, ← key ⟨f.label, f.stop, l.rows ++ f.rows⟩ rfl hv]
    refine ⟨?_, keyl ⟨f.label, f.stop, l.rows ++ f.rows⟩ hv bs⟩
    simp only [binRes, List.map_append, List.map_cons, List.map_nil, List.dropLast_concat]

/-- `preserve_res` and the previous result, from the state. -/
theorem prev_of {h p : List R} {r : BinRes} (hs : AscOn pos (h ++ p)) (s : StepOk spec h p r)
    (L : Lawful fn pos c b0 spec ok) {b : Buf B A} (hb : AggOk upd a0 spec ok sok h b) :
    (spec h).getLast?.bind (fun l => value upd a0 none l.rows) =
      if decide (b.seg.lastBinLabel.isSome ∧ b.seg.lastBinLabel = r.labels.head?) = true
        then some (b.chunk.getD a0) else none := by
  by_cases hh : h = []
  · rw [hb.label, hh, L.spec_nil]; rfl
  · obtain ⟨l, hl, h2, h3, h4⟩ := spec_last L h hh (hs.sublist (List.sublist_append_left _ _))
    have hlab : b.seg.lastBinLabel = some l.label := by rw [hb.label, hl]; rfl
    have hf := s.first_label hh
    rw [hl] at hf
    rw [hlab, hf, hl, hb.chunk l hl]
    simp [value, h2]

include H L in
/-- One call without snapshots. -/
theorem step_bins (ordered : Option (R → Int)) {h p : List R} {b : Buf B A} (hp : p ≠ [])
    (hs : AscOn pos (h ++ p)) (ho : ∀ o, ordered = some o → AscOn o (h ++ p)) (hlab : LabelsOk (spec (h ++ p)))
    (hb : AggOk upd a0 spec ok (fun _ _ => True) h b) :
    ∃ res b', cumsegagg upd a0 z fn ordered none false p (some b) = .ok (some res, some b') ∧
      res.snaps = none ∧ binRes upd a0 (spec (h ++ p)) = (binRes upd a0 (spec h)).dropLast ++ res.bins ∧
      AggOk upd a0 spec ok (fun _ _ => True) (h ++ p) b' := by
  obtain ⟨r, bb, h1, h2, h3, h4⟩ := L.step h p b.seg.bin hp hs hb.bin
  have hcons : Consistent p.length true b.seg.lastBinLabel r :=
    { closed := by rw [h3]; simp
      labels_len := h4.labels_len
      ends_len := h4.ends_len
      covers := fun _ => h4.last
      noTrailing := fun _ hl => by
        have := h4.before _ (List.mem_of_getLast? hl); omega
      label := fun _ l hl => by
        rw [hb.label] at hl
        by_cases hh : h = []
        · rw [hh, L.spec_nil] at hl; simp at hl
        · rw [h4.first_label hh, hl] }
  have hseg : segmentby fn ordered none p (some b.seg) =
      .ok (⟨r.starts, [], r.labels, r.nNull, none, 0⟩, some ⟨bb, b.seg.snap, r.labels.getLast?⟩) := by
    rw [segmentby_noSnap_iff]
    exact ⟨r, some bb, h1, fun o ho' => (ho o ho').sublist (List.sublist_append_right _ _), hcons, rfl⟩
  have hprev := prev_of (upd := upd) (sok := fun _ _ => True) a0 hs h4 L hb
  have hle : ∀ t ∈ r.starts, t ≤ p.length := by
    intro t ht
    obtain ⟨l, hl⟩ := List.getLast?_eq_some_iff.1 h4.last
    rw [hl] at ht
    rcases List.mem_append.1 ht with h' | h'
    · exact Nat.le_of_lt (h4.before t (by rw [hl, List.dropLast_concat]; exact h'))
    · simp at h'; omega
  obtain ⟨a, hj1, hj2⟩ := jcsagg_bins H a0 (p := p) (idx := [])
    (decide (b.seg.lastBinLabel.isSome ∧ b.seg.lastBinLabel = r.labels.head?)) (b.chunk.getD a0)
    (readBins_rows (u := r.unknownLast) (rows := p) h4.labels_len h4.ends_len h4.ne)
    (readBins_length (u := r.unknownLast) (rows := p) h4.labels_len h4.ends_len h4.ne) h4.mono hle
    ((spec h).getLast?.bind fun l => value upd a0 none l.rows) hprev
  obtain ⟨hg1, hg2⟩ := bins_glue H a0 hs h4 L hlab _ rfl
  refine ⟨⟨setNulls r.labels (binVals upd a0 ((spec h).getLast?.bind fun l => value upd a0 none l.rows)
    (readBins r.starts r.labels r.ends r.unknownLast p)), none⟩, ⟨⟨bb, b.seg.snap, r.labels.getLast?⟩, some a⟩, ?_, rfl,
    hg1, ?_⟩
  · unfold cumsegagg
    rw [show p.isEmpty = false by simpa using hp]
    simp only [Bool.false_eq_true, if_false, Option.map_some, hseg, Option.bind_some, Option.isSome_some,
      Bool.true_and, Option.map_none, Option.getD_none, ne_eq, not_true_eq_false, decide_false, hj1,
      Bool.false_and]
  · constructor
    · exact h2
    · trivial
    · exact h4.last_label
    · intro l hl
      have hpne : h ++ p ≠ [] := by simp [hp]
      obtain ⟨l', hl', hr, _⟩ := spec_last L (h ++ p) hpne hs
      rw [hl] at hl'
      cases hl'
      have hv : value upd a0 none l.rows = some (upd l.rows a0 false) := by simp [value, hr]
      rw [hl, Option.map_some, hv] at hg2
      rw [hv, hj2 _ hg2]

include H L in
/-- One call with snapshots. -/
theorem step_snaps {sn : Snaps} {pts : List R → List (Int × Int)} (SL : SnapLaw sn c pos pts sok)
    {h p : List R} {b : Buf B A} (hp : p ≠ [])
    (hs : AscOn pos (h ++ p)) (hlab : LabelsOk (spec (h ++ p)))
    (hsep0 : Separated (c == .right) pos (spec h)) (hsep : Separated (c == .right) pos (spec (h ++ p)))
    (hb : AggOk upd a0 spec ok sok h b) :
    ∃ res b' news, cumsegagg upd a0 z fn (some pos) (some sn) false p (some b) = .ok (some res, some b') ∧
      res.snaps = some news ∧ binRes upd a0 (spec (h ++ p)) = (binRes upd a0 (spec h)).dropLast ++ res.bins ∧
      snapRes upd a0 (c == .right) pos (spec (h ++ p)) (pts (h ++ p)) =
        (snapRes upd a0 (c == .right) pos (spec h) (pts h)).dropLast ++ news ∧
      AggOk upd a0 spec ok sok (h ++ p) b' := by
  obtain ⟨r, bb, h1, h2, h3, h4⟩ := L.step h p b.seg.bin hp hs hb.bin
  obtain ⟨ss, sb, s1, s2, s3⟩ := SL.step h p b.seg.snap hp hs hb.snap
  have hcons : Consistent p.length true b.seg.lastBinLabel r :=
    { closed := by rw [h3]; simp
      labels_len := h4.labels_len
      ends_len := h4.ends_len
      covers := fun _ => h4.last
      noTrailing := fun _ hl => by
        have := h4.before _ (List.mem_of_getLast? hl); omega
      label := fun _ l hl => by
        rw [hb.label] at hl
        by_cases hh : h = []
        · rw [hh, L.spec_nil] at hl; simp at hl
        · rw [h4.first_label hh, hl] }
  obtain ⟨f, tl, hft, hcase⟩ := step_cases L hs h4
  have hsepl : Separated (c == .right) pos (readBins r.starts r.labels r.ends r.unknownLast p) := by
    rw [hft]
    rcases hcase with ⟨_, hsp⟩ | ⟨_, bs, l, _, hsp, _⟩
    · rw [hsp] at hsep; exact hsep
    · rw [hsp] at hsep
      exact separated_local (separated_suffix hsep)
  have hmerge := mergesort_eq ss.starts r.starts ss.ends r.ends r.unknownLast (by rw [s3.starts]; simp) h4.ends_len
    s3.asc (ends_asc h4.labels_len h4.ends_len h4.ne hsepl.ended) h4.ne
  obtain ⟨starts, idx, hmerge⟩ : ∃ starts idx, mergesort (ss.starts, r.starts) (ss.ends, r.ends) r.unknownLast =
      .ok (starts, idx) := ⟨_, _, hmerge⟩
  have hseg := segmentby_snap_of fn pos sn p (some b.seg) r (some bb) c ss (some sb) starts idx h1
    (hs.sublist (List.sublist_append_right _ _)) h3 hcons s1 hmerge
  simp only [Option.map_some, Option.getD_some] at hseg
  have hprev := prev_of (upd := upd) (sok := sok) a0 hs h4 L hb
  rw [s3.starts] at hmerge
  obtain ⟨a, hj1, hj2⟩ := jcsagg_snaps H a0
    (decide (b.seg.lastBinLabel.isSome ∧ b.seg.lastBinLabel = r.labels.head?)) (b.chunk.getD a0)
    (hs.sublist (List.sublist_append_right _ _)) h4.labels_len h4.ends_len h4.mono h4.last hsepl s3.asc hmerge
    ((spec h).getLast?.bind fun l => value upd a0 none l.rows) hprev
  obtain ⟨hg1, hg2⟩ := bins_glue H a0 hs h4 L hlab _ rfl
  have hn0 : ss.labels.length ≠ 0 := by
    rw [s3.labels_len]; intro h0; exact s3.ne (List.length_eq_zero_iff.1 h0)
  refine ⟨⟨setNulls r.labels (binVals upd a0 ((spec h).getLast?.bind fun l => value upd a0 none l.rows)
    (readBins r.starts r.labels r.ends r.unknownLast p)), some (setNulls ss.labels (ss.ends.map (fun s =>
      snapVal upd a0 (c == .right) pos s ((spec h).getLast?.bind fun l => value upd a0 none l.rows)
        (readBins r.starts r.labels r.ends r.unknownLast p))))⟩, ⟨⟨bb, sb, r.labels.getLast?⟩, some a⟩, _, ?_, rfl,
    hg1, ?_, ?_⟩
  · unfold cumsegagg
    rw [show p.isEmpty = false by simpa using hp]
    simp only [Bool.false_eq_true, if_false, Option.map_some, hseg, Option.bind_some, Option.isSome_some,
      Bool.true_and, Option.getD_some, ne_eq, hn0, not_false_eq_true, decide_true, hj1,
      Bool.false_and]
  · rw [setNulls_eq ss.labels _ (Or.inl s3.nodup) (by rw [List.length_map]; exact s3.labels_len)]
    unfold snapRes
    rw [s3.glue, List.map_append]
    congr 1
    · -- snapshots already over
      rw [← List.map_dropLast]
      apply List.map_congr_left
      intro q hq
      rcases hcase with ⟨rfl, _⟩ | ⟨hh, bs, l, hsh, hsp, hl1, hl2, hl3⟩
      · rw [SL.pts_nil] at hq; simp at hq
      · obtain ⟨y, hy⟩ := getLast?_of_ne hh
        have hyl : y ∈ l.rows := List.mem_of_getLast? (by rw [hl2]; exact hy)
        have hyw := s3.old q hq y hy
        simp only [Prod.mk.injEq, true_and]
        rw [← snapVal_none, ← snapVal_none, hsp, hsh]
        rw [hsh] at hsep0
        rw [hsp] at hsep
        apply snapVal_old upd a0 none hsep0 hsep hyl hyw
        intro x hx
        have hxp : x ∈ p := by
          have hflat := readBins_rows (u := r.unknownLast) (rows := p) h4.labels_len h4.ends_len h4.ne
          have hfl := cut_flatten p 0 r.starts (List.pairwise_cons.2 ⟨fun _ _ => Nat.zero_le _, h4.mono⟩)
            (by rw [List.getLast?_cons, h4.last]; rfl)
          rw [← hflat, hft, List.drop_zero] at hfl
          rw [← hfl]; simp [hx]
        cases hw : within (c == .right) q.2 (pos x) with
        | false => rfl
        | true =>
          have hyx : pos y ≤ pos x := (List.pairwise_append.1 hs).2.2 y (List.mem_of_getLast? hy) x hxp
          rw [within_mono hyx hw] at hyw; cases hyw
    · -- snapshots of the call
      rw [List.zip_map_right]
      apply List.map_congr_left
      rintro ⟨lb, s⟩ hq
      have hse : s ∈ ss.ends := (List.of_mem_zip hq).2
      simp only [Prod.map, id, Prod.mk.injEq, true_and]
      rw [← snapVal_none, hft]
      rcases hcase with ⟨rfl, hsp⟩ | ⟨hh, bs, l, hsh, hsp, hl1, hl2, hl3⟩
      · rw [hsp, L.spec_nil]; rfl
      · obtain ⟨y, hy⟩ := getLast?_of_ne hh
        have hyl : y ∈ l.rows := List.mem_of_getLast? (by rw [hl2]; exact hy)
        rw [hsp] at hsep ⊢
        rw [hsh, List.getLast?_concat]
        simp only [Option.bind_some]
        apply snapVal_new H a0 none (fun _ => rfl) hsep hyl
        intro x hx
        apply s3.cover s hse
        rw [← hl3, hsh]; simp [hx]
  · constructor
    · exact h2
    · exact s2
    · exact h4.last_label
    · intro l hl
      have hpne : h ++ p ≠ [] := by simp [hp]
      obtain ⟨l', hl', hr, _⟩ := spec_last L (h ++ p) hpne hs
      rw [hl] at hl'
      cases hl'
      have hv : value upd a0 none l.rows = some (upd l.rows a0 false) := by simp [value, hr]
      rw [hl, Option.map_some, hv] at hg2
      rw [hv, hj2 _ hg2]

end

end Oups.Agg
