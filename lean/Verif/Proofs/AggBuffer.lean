import Verif.Model.AggBuffer
import Verif.Spec.AggBuffer
import Verif.Proofs.AggLaw
/-! The dict `buffer` of `cumsegagg` and the buffers of `Model/Aggregate`. -/
set_option linter.unusedSimpArgs false
namespace Oups.Agg
open Oups.Segment Spec Oups.Segment.Spec

section
variable {R B V : Type}

/-- No entry for snapshots without one for bins. -/
def WellKept (d : DictBuf B V) : Prop := d.bin = none → d.snap = none

/-- Part of the segmentation. -/
def segOf (b0 : B) (d : DictBuf B V) : MainBuf B := ⟨d.bin.getD b0, d.snap.getD {}, d.label⟩

theorem seg_refines (b0 : B) (fn : BinFn R B) (left : List R → B → B) (ordered : Option (R → Int)) (sn : Option Snaps)
    (p : List R) (d : DictBuf B V) (hw : WellKept d) (hs : sn.isSome → d.bin.isSome → d.snap.isSome) :
    match segmentby fn ordered sn p (some (segOf b0 d)) with
    | .error e => ∃ d', segmentbyD b0 fn left ordered sn p d = (.error e, d')
    | .ok (s, m) => ∃ mb, m = some mb ∧ (sn = none → mb.snap = d.snap.getD {}) ∧
      segmentbyD b0 fn left ordered sn p d =
        (.ok s, ⟨some mb.bin, if sn.isSome then some mb.snap else d.snap, mb.lastBinLabel, d.chunk⟩) := by
  obtain ⟨sb, hsetup, hsb⟩ : ∃ sb, setupMainbuffer b0 sn.isSome d = ⟨some (d.bin.getD b0), sb, d.label, d.chunk⟩ ∧
      (sn.isSome → sb = some (d.snap.getD {})) ∧ (sn = none → sb = d.snap) := by
    unfold setupMainbuffer
    obtain ⟨bin, snap, label, chunk⟩ := d
    cases bin with
    | some b =>
      refine ⟨snap, rfl, ?_⟩
      constructor
      · intro h
        obtain ⟨x, hx⟩ := Option.isSome_iff_exists.1 (hs h rfl)
        simp only at hx
        subst hx; rfl
      · intro _; rfl
    | none =>
      have := hw rfl
      simp only at this
      subst this
      refine ⟨_, rfl, ?_⟩
      constructor
      · intro h; simp [h]
      · rintro rfl; rfl
  unfold segmentby segmentbyD
  simp only [hsetup]
  by_cases hu : unordered ordered p = true
  · have : (sn.isSome && sb.isNone) = false := by
      cases h : sn.isSome with
      | false => rfl
      | true => rw [hsb.1 h]; rfl
    simp only [this, hu, if_true, Bool.false_eq_true, if_false]
    exact ⟨_, rfl⟩
  · have : (sn.isSome && sb.isNone) = false := by
      cases h : sn.isSome with
      | false => rfl
      | true => rw [hsb.1 h]; rfl
    simp only [this, hu, Bool.false_eq_true, if_false, Option.map_some, Option.getD_some]
    have hbin : (segOf b0 d).bin = d.bin.getD b0 := rfl
    rw [hbin]
    cases hf : fn p (some (d.bin.getD b0)) with
    | error e => exact ⟨_, rfl⟩
    | ok x =>
      obtain ⟨r, bin⟩ := x
      simp only [Option.isSome_some, Option.bind_some]
      rw [show (segOf b0 d).lastBinLabel = d.label from rfl]
      cases hck : checkBins p.length true d.label r with
      | error e => exact ⟨_, rfl⟩
      | ok closed =>
        simp only
        cases sn with
        | none =>
          refine ⟨_, rfl, fun _ => rfl, ?_⟩
          simp only [hsb.2 rfl]
          rfl
        | some s =>
          cases ordered with
          | none => exact ⟨_, rfl⟩
          | some o =>
            simp only [hsb.1 rfl, Option.getD_some]
            rw [show (segOf b0 d).snap = d.snap.getD {} from rfl]
            cases hr : runSnaps s closed (p.map o) (some (d.snap.getD {})) with
            | error e => exact ⟨_, rfl⟩
            | ok y =>
              obtain ⟨ss, snap⟩ := y
              simp only
              cases hm : mergesort (ss.starts, r.starts) (ss.ends, r.ends) r.unknownLast with
              | error e => exact ⟨_, rfl⟩
              | ok q =>
                obtain ⟨starts, idx⟩ := q
                exact ⟨_, rfl, by simp, rfl⟩

end

/-! ### Columns by name -/

section
variable {D V : Type}

/-- Output columns of a configuration. -/
def names (cfg : List (D × Group)) : List Nat := cfg.flatMap fun p => p.2.colsOut

/-- One value per output column. -/
def ShapedOut (cfg : List (D × Group)) (res : List (List V)) : Prop :=
  List.Forall₂ (fun p r => r.length = p.2.colsOut.length) cfg res

theorem readNames_iff (c : List (Nat × V)) (ns : List Nat) :
    (readNames c ns).isSome ↔ ∀ n ∈ ns, (c.lookup n).isSome := by
  induction ns with
  | nil => simp [readNames]
  | cons n ns ih =>
    unfold readNames
    cases h1 : c.lookup n with
    | none =>
      simp only [Option.isSome_none, Bool.false_eq_true, false_iff]
      intro h
      have := h n (by simp)
      rw [h1] at this; cases this
    | some v =>
      cases h2 : readNames c ns with
      | none =>
        rw [h2] at ih
        simp only [Option.isSome_none, Bool.false_eq_true, false_iff, List.mem_cons, forall_eq_or_imp, not_and] at ih ⊢
        intro _; exact ih
      | some vs =>
        rw [h2] at ih
        simp only [Option.isSome_some, true_iff, List.mem_cons, forall_eq_or_imp, h1] at ih ⊢
        exact ⟨trivial, ih⟩

theorem readChunk_iff (c : List (Nat × V)) (cfg : List (D × Group)) :
    (readChunk c cfg).isSome ↔ ∀ n ∈ names cfg, (c.lookup n).isSome := by
  induction cfg with
  | nil => simp [readChunk, names]
  | cons p cfg ih =>
    obtain ⟨d, g⟩ := p
    unfold readChunk
    have hn := readNames_iff c g.colsOut
    have hmem : (∀ n ∈ names ((d, g) :: cfg), (c.lookup n).isSome) ↔
        (∀ n ∈ g.colsOut, (c.lookup n).isSome) ∧ ∀ n ∈ names cfg, (c.lookup n).isSome := by
      simp only [names, List.flatMap_cons, List.mem_append]
      constructor
      · intro h; exact ⟨fun n hn => h n (Or.inl hn), fun n hn => h n (Or.inr hn)⟩
      · rintro ⟨h1, h2⟩ n (h | h)
        · exact h1 n h
        · exact h2 n h
    rw [hmem, ← hn, ← ih]
    cases readNames c g.colsOut <;> cases readChunk c cfg <;> simp

theorem readNames_get {c : List (Nat × V)} {ns : List Nat} {vs : List V} (h : readNames c ns = some vs) :
    vs.length = ns.length ∧ ∀ n ∈ ns, vs[ns.idxOf n]? = c.lookup n := by
  induction ns generalizing vs with
  | nil =>
    simp only [readNames, Option.some.injEq] at h
    subst h; simp
  | cons n ns ih =>
    unfold readNames at h
    cases h1 : c.lookup n with
    | none => rw [h1] at h; simp at h
    | some v =>
      cases h2 : readNames c ns with
      | none => rw [h1, h2] at h; simp at h
      | some vs' =>
        rw [h1, h2] at h
        simp only [Option.some.injEq] at h
        subst h
        obtain ⟨e1, e2⟩ := ih h2
        refine ⟨by simp [e1], ?_⟩
        intro m hm
        by_cases hmn : n = m
        · subst hmn; simp [h1]
        · have hm' : m ∈ ns := by
            rcases List.mem_cons.1 hm with h | h
            · exact absurd h.symm hmn
            · exact h
          rw [List.idxOf_cons_ne _ hmn, List.getElem?_cons_succ]
          exact e2 m hm'

theorem readChunk_get {c : List (Nat × V)} {cfg : List (D × Group)} {a : List (List V)} (h : readChunk c cfg = some a) :
    ShapedOut cfg a ∧ ∀ n ∈ names cfg, readCol n cfg a = c.lookup n := by
  induction cfg generalizing a with
  | nil =>
    simp only [readChunk, Option.some.injEq] at h
    subst h
    exact ⟨List.Forall₂.nil, by simp [names]⟩
  | cons p cfg ih =>
    obtain ⟨d, g⟩ := p
    unfold readChunk at h
    cases h1 : readNames c g.colsOut with
    | none => rw [h1] at h; simp at h
    | some r =>
      cases h2 : readChunk c cfg with
      | none => rw [h1, h2] at h; simp at h
      | some rs =>
        rw [h1, h2] at h
        simp only [Option.some.injEq] at h
        subst h
        obtain ⟨e1, e2⟩ := ih h2
        obtain ⟨f1, f2⟩ := readNames_get h1
        refine ⟨List.Forall₂.cons f1 e1, ?_⟩
        intro n hn
        simp only [readCol]
        by_cases hg : n ∈ g.colsOut
        · rw [if_pos hg]; exact f2 n hg
        · rw [if_neg hg]
          apply e2
          simp only [names, List.flatMap_cons, List.mem_append] at hn
          exact hn.resolve_left hg

theorem lookup_zip (ns : List Nat) (vs : List V) (h : vs.length = ns.length) (n : Nat) :
    (ns.zip vs).lookup n = if n ∈ ns then vs[ns.idxOf n]? else none := by
  induction ns generalizing vs with
  | nil => simp
  | cons m ns ih =>
    cases vs with
    | nil => simp at h
    | cons v vs =>
      rw [List.zip_cons_cons, List.lookup_cons]
      by_cases hmn : n = m
      · subst hmn; simp
      · have hb : (n == m) = false := by simpa using hmn
        rw [hb]
        simp only [List.mem_cons, hmn, false_or]
        rw [ih vs (by simpa using h), List.idxOf_cons_ne _ (Ne.symm hmn), List.getElem?_cons_succ]

theorem lookup_append' (l m : List (Nat × V)) (n : Nat) :
    (l ++ m).lookup n = match l.lookup n with
      | some v => some v
      | none => m.lookup n := by
  induction l with
  | nil => simp
  | cons x l ih =>
    rw [List.cons_append, List.lookup_cons, List.lookup_cons]
    cases h : n == x.1 with
    | true => rfl
    | false => exact ih

/-- Columns are found under their names. -/
theorem lookup_nameCols {cfg : List (D × Group)} {a : List (List V)} (h : ShapedOut cfg a) (n : Nat) :
    (nameCols cfg a).lookup n = readCol n cfg a := by
  unfold ShapedOut at h
  induction h with
  | nil => rfl
  | @cons p r cfg rs h1 h2 ih =>
    obtain ⟨d, g⟩ := p
    simp only at h1
    simp only [nameCols, readCol]
    rw [lookup_append', lookup_zip _ _ h1]
    by_cases hg : n ∈ g.colsOut
    · rw [if_pos hg, if_pos hg]
      have : g.colsOut.idxOf n < r.length := by rw [h1]; exact List.idxOf_lt_length_of_mem hg
      rw [List.getElem?_eq_getElem this]
    · rw [if_neg hg, if_neg hg]; exact ih

theorem mem_nameCols {cfg : List (D × Group)} {a : List (List V)} (h : ShapedOut cfg a) :
    (nameCols cfg a).map Prod.fst = names cfg := by
  unfold ShapedOut at h
  induction h with
  | nil => rfl
  | @cons p r cfg rs h1 h2 ih =>
    obtain ⟨d, g⟩ := p
    simp only at h1
    simp only [nameCols, names, List.flatMap_cons, List.map_append] at ih ⊢
    rw [ih, List.map_fst_zip (by omega)]

theorem lookup_isSome_iff (c : List (Nat × V)) (n : Nat) : (c.lookup n).isSome ↔ n ∈ c.map Prod.fst := by
  induction c with
  | nil => simp
  | cons x c ih =>
    rw [List.lookup_cons, List.map_cons, List.mem_cons]
    by_cases h : n = x.1
    · subst h; simp
    · have hb : (n == x.1) = false := by simpa using h
      rw [hb]; simp only [h, false_or]; exact ih

/-- What is written by name is read back. -/
theorem read_nameCols {cfg : List (D × Group)} {a : List (List V)} (h : ShapedOut cfg a) (hn : (names cfg).Nodup) :
    readChunk (nameCols cfg a) cfg = some a := by
  have hsome : (readChunk (nameCols cfg a) cfg).isSome := by
    rw [readChunk_iff]
    intro n hm
    rw [lookup_isSome_iff, mem_nameCols h]; exact hm
  obtain ⟨b, hb⟩ := Option.isSome_iff_exists.1 hsome
  rw [hb]
  obtain ⟨h1, h2⟩ := readChunk_get hb
  congr 1
  have h3 : ∀ n ∈ names cfg, readCol n cfg b = readCol n cfg a := by
    intro n hm
    rw [h2 n hm, lookup_nameCols h]
  clear h2 hb hsome
  unfold ShapedOut at h h1
  induction h generalizing b with
  | nil => cases h1; rfl
  | @cons p r cfg rs e1 e2 ih =>
    obtain ⟨d, g⟩ := p
    cases h1 with
    | @cons _ r' _ rs' g1 g2 =>
      simp only [names, List.flatMap_cons] at hn h3
      obtain ⟨n1, n2, n3⟩ := List.nodup_append.1 hn
      congr 1
      · apply List.ext_getElem?
        intro k
        simp only at e1 g1
        by_cases hk : k < g.colsOut.length
        · have := h3 g.colsOut[k] (List.mem_append_left _ (List.getElem_mem hk))
          simp only [readCol, List.getElem_mem, if_true] at this
          rwa [List.Nodup.idxOf_getElem n1 k hk] at this
        · rw [List.getElem?_eq_none (by omega), List.getElem?_eq_none (by omega)]
      · apply ih n2 _ g2
        intro n hm
        have := h3 n (List.mem_append_right _ hm)
        have hng : n ∉ g.colsOut := fun h' => n3 n h' n hm rfl
        simpa only [readCol, hng, if_false] using this

end

/-! ### `cumsegagg` -/

section
variable {R B V D : Type} [DecidableEq D] (O : D → Ops V) (get : R → Nat → V)

/-- All columns of `cfg` are in the last results, if there are some. -/
def Readable (cfg : List (D × Group)) (d : DictBuf B V) : Prop := ∀ c, d.chunk = some c → (readChunk c cfg).isSome

/-- The buffer of `Model/Aggregate` read in a dict. -/
def frameBuf (b0 : B) (cfg : List (D × Group)) (d : DictBuf B V) : Buf B (List (List V)) :=
  ⟨segOf b0 d, d.chunk.bind fun c => readChunk c cfg⟩

theorem frame_refines (cfg : List (D × Group)) (z : List (List V) → Bool) (b0 : B) (fn : BinFn R B) (left : List R → B → B)
    (ordered : Option (R → Int)) (sn : Option Snaps) (e0 : Bool) (p : List R) (hp : p ≠ []) (d : DictBuf B V)
    (hw : WellKept d) (hs : sn.isSome → d.bin.isSome → d.snap.isSome) (hr : Readable cfg d) :
    match frameCall O get cfg z fn ordered sn e0 p (some (frameBuf b0 cfg d)) with
    | .error e => ∃ d', cumsegaggD O get cfg z b0 fn left ordered sn e0 p d = (.error e, d')
    | .ok (r, m) => ∃ mb a, m = some mb ∧ mb.chunk = some a ∧ r.isSome ∧ (sn = none → mb.seg.snap = d.snap.getD {}) ∧
      cumsegaggD O get cfg z b0 fn left ordered sn e0 p d =
        (.ok r, ⟨some mb.seg.bin, if sn.isSome then some mb.seg.snap else d.snap, mb.seg.lastBinLabel,
          some (nameCols cfg a)⟩) := by
  have hseg := seg_refines b0 fn left ordered sn p d hw hs
  unfold frameCall cumsegagg cumsegaggD
  rw [show p.isEmpty = false by simpa using hp]
  simp only [Bool.false_eq_true, if_false, Option.map_some, Option.bind_some, Option.isSome_some, Bool.true_and]
  simp only [show (frameBuf b0 cfg d).seg = segOf b0 d from rfl, show (segOf b0 d).lastBinLabel = d.label from rfl]
  cases h : segmentby fn ordered sn p (some (segOf b0 d)) with
  | error e =>
    rw [h] at hseg
    obtain ⟨d', hd⟩ := hseg
    rw [hd]
    exact ⟨_, rfl⟩
  | ok x =>
    obtain ⟨s, m⟩ := x
    rw [h] at hseg
    obtain ⟨mb, rfl, h2, hd⟩ := hseg
    rw [hd]
    have hchunk : ∀ x y w, prevChunk O cfg (⟨x, y, w, d.chunk⟩ : DictBuf B V) =
        some ((frameBuf b0 cfg d).chunk.getD (chunkRes0 O cfg)) := by
      intro x y w
      unfold prevChunk frameBuf
      cases hc : d.chunk with
      | none => rfl
      | some c =>
        obtain ⟨a, ha⟩ := Option.isSome_iff_exists.1 (hr c hc)
        simp [ha]
    simp only [hchunk]
    generalize jcsagg (updCfg O get cfg) p s.starts s.binIndices _ _ _ = j
    obtain ⟨bins, snaps, a⟩ := j
    simp only
    generalize (e0 && anyZero z (setNulls s.binLabels bins)) = c2
    cases s.snapLabels with
    | none =>
      simp only [Option.map_none, Bool.and_false, Bool.false_eq_true, if_false]
      cases c2 with
      | true => exact ⟨_, rfl⟩
      | false => exact ⟨_, a, rfl, rfl, rfl, h2, rfl⟩
    | some l =>
      simp only [Option.map_some]
      generalize (e0 && anyZero z (setNulls l snaps)) = c1
      cases c1 with
      | true => exact ⟨_, rfl⟩
      | false =>
        cases c2 with
        | true => exact ⟨_, rfl⟩
        | false => exact ⟨_, a, rfl, rfl, rfl, h2, rfl⟩

end

/-! ### Snapshots of any kind at each call -/

section
variable {R B A : Type} {upd : List R → A → Bool → A} (H : Hom upd) (a0 : A) (z : A → Bool)
variable {fn : BinFn R B} {pos : R → Int} {c : Closed} {b0 : B} {spec : List R → List (Bin R)}
variable {ok : List R → B → Prop} (L : Lawful fn pos c b0 spec ok)

include H L in
/-- A call with snapshots, whatever the buffer holds for them: bins are those of all rows. -/
theorem step_anySnaps {sn : Snaps} (hok : Snaps.Ok sn) {h p : List R} {b : Buf B A} (hp : p ≠ [])
    (hs : AscOn pos (h ++ p)) (hlab : LabelsOk (spec (h ++ p))) (hsep : Separated (c == .right) pos (spec (h ++ p)))
    (hb : AggOk upd a0 spec ok (fun _ _ => True) h b) {ss : Seg} {sb : Option ScaleBuf}
    (hss : runSnaps sn c (p.map pos) (some b.seg.snap) = .ok (ss, sb)) :
    ∃ res b', cumsegagg upd a0 z fn (some pos) (some sn) false p (some b) = .ok (some res, some b') ∧
      binRes upd a0 (spec (h ++ p)) = (binRes upd a0 (spec h)).dropLast ++ res.bins ∧
      AggOk upd a0 spec ok (fun _ _ => True) (h ++ p) b' := by
  obtain ⟨r, bb, h1, h2, h3, h4⟩ := L.step h p b.seg.bin hp hs hb.bin
  have hcons : Consistent p.length true b.seg.lastBinLabel r :=
    { closed := by rw [h3]; simp
      labels_len := h4.labels_len
      ends_len := h4.ends_len
      covers := fun _ => h4.last
      noTrailing := fun _ hl => by
        have := h4.before _ (List.mem_of_getLast? hl); omega
      label := fun _ l hl => by
        rw [hb.label] at hl
        by_cases hh : h = []
        · rw [hh, L.spec_nil] at hl; simp at hl
        · rw [h4.first_label hh, hl] }
  obtain ⟨f, tl, hft, hcase⟩ := step_cases L hs h4
  have hsepl : Separated (c == .right) pos (readBins r.starts r.labels r.ends r.unknownLast p) := by
    rw [hft]
    rcases hcase with ⟨_, hsp⟩ | ⟨_, bs, l, _, hsp, _⟩
    · rw [hsp] at hsep; exact hsep
    · rw [hsp] at hsep
      exact separated_local (separated_suffix hsep)
  have hsp := hs.sublist (List.sublist_append_right _ _)
  have hlen := runSnaps_labels sn c (p.map pos) (by rw [Asc, List.pairwise_map]; exact hsp) (by simpa using hp) hok _ ss sb hss
  have hprev := prev_of (upd := upd) (sok := fun _ _ => True) a0 hs h4 L hb
  have hbef : before a0 (some b) r.labels = (spec h).getLast?.bind fun l => value upd a0 none l.rows := by
    rw [hprev]; rfl
  obtain ⟨a, hj1, hj2⟩ := call_snaps_buf H a0 z fn pos sn hok p hp (some b) r (some bb) h1 hsp c h3 hcons h4.mono h4.last hsepl
    ss sb hss hlen
  rw [hbef] at hj1 hj2
  obtain ⟨hg1, hg2⟩ := bins_glue H a0 hs h4 L hlab _ rfl
  refine ⟨_, _, hj1, hg1, ?_⟩
  constructor
  · exact h2
  · trivial
  · exact h4.last_label
  · intro l hl
    have hpne : h ++ p ≠ [] := by simp [hp]
    obtain ⟨l', hl', hr, _⟩ := spec_last L (h ++ p) hpne hs
    rw [hl] at hl'
    cases hl'
    have hv : value upd a0 none l.rows = some (upd l.rows a0 false) := by simp [value, hr]
    rw [hl, Option.map_some, hv] at hg2
    rw [hv, hj2 _ hg2]

/-- A call that returns was given snapshots that returned. -/
theorem runSnaps_of_ok {sn : Snaps} {p : List R} (hp : p ≠ []) {b : Buf B A} {r : BinRes} {bb : Option B} (e0 : Bool)
    (hf : fn p (some b.seg.bin) = .ok (r, bb)) (hcl : r.closed = some c) {o : Option (Res A) × Option (Buf B A)}
    (h : cumsegagg upd a0 z fn (some pos) (some sn) e0 p (some b) = .ok o) :
    ∃ ss sb, runSnaps sn c (p.map pos) (some b.seg.snap) = .ok (ss, sb) := by
  unfold cumsegagg at h
  rw [show p.isEmpty = false by simpa using hp] at h
  simp only [Bool.false_eq_true, if_false, Option.map_some] at h
  cases hs : segmentby fn (some pos) (some sn) p (some b.seg) with
  | error e => rw [hs] at h; cases h
  | ok x =>
    unfold segmentby at hs
    split at hs
    · cases hs
    · rw [show (some b.seg).map MainBuf.bin = some b.seg.bin from rfl, hf] at hs
      simp only at hs
      split at hs
      · cases hs
      · rename_i closed hck
        rw [checkBins_iff] at hck
        rw [hcl] at hck
        obtain ⟨hc1, _⟩ := hck
        cases hc1
        rw [show (some b.seg).map MainBuf.snap = some b.seg.snap from rfl] at hs
        cases hr : runSnaps sn c (p.map pos) (some b.seg.snap) with
        | error e => rw [hr] at hs; cases hs
        | ok y => exact ⟨y.1, y.2, rfl⟩

include H L in
/-- A call that returns, with or without snapshots. -/
theorem step_any {sn : Option Snaps} (hok : ∀ x, sn = some x → Snaps.Ok x) {h p : List R} {b : Buf B A} (hp : p ≠ [])
    (hs : AscOn pos (h ++ p)) (hlab : LabelsOk (spec (h ++ p)))
    (hsep : sn.isSome → Separated (c == .right) pos (spec (h ++ p)))
    (hb : AggOk upd a0 spec ok (fun _ _ => True) h b) {o : Option (Res A) × Option (Buf B A)}
    (hr : cumsegagg upd a0 z fn (some pos) sn false p (some b) = .ok o) :
    ∃ res b', o = (some res, some b') ∧
      binRes upd a0 (spec (h ++ p)) = (binRes upd a0 (spec h)).dropLast ++ res.bins ∧
      AggOk upd a0 spec ok (fun _ _ => True) (h ++ p) b' := by
  cases sn with
  | none =>
    obtain ⟨res, b', h1, _, h3, h4⟩ := step_bins H a0 z L (some pos) hp hs (by rintro o ho; cases ho; exact hs) hlab hb
    rw [h1] at hr
    simp only [Except.ok.injEq] at hr
    exact ⟨res, b', hr.symm, h3, h4⟩
  | some sn =>
    obtain ⟨r, bb, f1, _, f3, _⟩ := L.step h p b.seg.bin hp hs hb.bin
    obtain ⟨ss, sb, hss⟩ := runSnaps_of_ok a0 z hp false f1 f3 hr
    obtain ⟨res, b', h1, h3, h4⟩ := step_anySnaps H a0 z L (hok sn rfl) hp hs hlab (hsep rfl) hb hss
    rw [h1] at hr
    simp only [Except.ok.injEq] at hr
    exact ⟨res, b', hr.symm, h3, h4⟩

end

/-! ### One column of one call -/

section
variable {R B A : Type}

/-- The check of zeros changes nothing in a call that returns. -/
theorem cumsegagg_unchecked {upd : List R → A → Bool → A} {a0 : A} {z : A → Bool} {fn : BinFn R B}
    {ordered : Option (R → Int)} {sn : Option Snaps} {e0 : Bool} {p : List R} {buf : Option (Buf B A)}
    {o : Option (Res A) × Option (Buf B A)} (h : cumsegagg upd a0 z fn ordered sn e0 p buf = .ok o) :
    cumsegagg upd a0 z fn ordered sn false p buf = .ok o := by
  unfold cumsegagg at h ⊢
  split at h
  · rename_i hp; rw [if_pos hp]; exact h
  · rename_i hp
    rw [if_neg hp]
    split at h
    · cases h
    · rename_i heq
      simp only [Bool.false_and, Bool.false_eq_true, if_false]
      simp only at h
      repeat' split at h
      all_goals first | exact h | cases h

end

section
variable {R B V D : Type} [DecidableEq D] (O : D → Ops V) (get : R → Nat → V)
variable {dtype : Nat → Option D} {agg : List (Nat × Nat × Option Fn)} {cfg : List (D × Group)}

theorem shapedOut_of (hc : CfgOk dtype agg cfg) {a : List (List V)} (h : Shaped cfg a) : ShapedOut cfg a := by
  have key : ∀ (cfg' : List (D × Group)) (a' : List (List V)), (∀ p ∈ cfg', p ∈ cfg) → Shaped cfg' a' → ShapedOut cfg' a' := by
    intro cfg' a' hsub h'
    unfold Shaped at h'
    induction h' with
    | nil => exact List.Forall₂.nil
    | @cons p r cfg' rs h1 h2 ih =>
      refine List.Forall₂.cons ?_ (ih fun q hq => hsub q (by simp [hq]))
      have hg := hc.entry p (hsub p (by simp))
      rw [h1, hg.nCols, hg.out, List.length_map]
  exact key cfg a (fun _ h => h) h

theorem shaped_of_out (hc : CfgOk dtype agg cfg) {a : List (List V)} (h : ShapedOut cfg a) : Shaped cfg a := by
  have key : ∀ (cfg' : List (D × Group)) (a' : List (List V)), (∀ p ∈ cfg', p ∈ cfg) → ShapedOut cfg' a' → Shaped cfg' a' := by
    intro cfg' a' hsub h'
    unfold ShapedOut at h'
    induction h' with
    | nil => exact List.Forall₂.nil
    | @cons p r cfg' rs h1 h2 ih =>
      refine List.Forall₂.cons ?_ (ih fun q hq => hsub q (by simp [hq]))
      have hg := hc.entry p (hsub p (by simp))
      rw [h1, hg.nCols, hg.out, List.length_map]
  exact key cfg a (fun _ h => h) h

/-- Output columns of the configuration are those requested. -/
theorem mem_names (hc : CfgOk dtype agg cfg) (n : Nat) : n ∈ names cfg ↔ n ∈ agg.map Prod.fst := by
  constructor
  · intro h
    obtain ⟨p, hp, hn⟩ := List.mem_flatMap.1 h
    rw [(hc.entry p hp).out] at hn
    obtain ⟨e, he, rfl⟩ := List.mem_map.1 hn
    obtain ⟨e', he', h2⟩ := List.mem_filterMap.1 he
    split at h2
    · obtain ⟨f, hf, rfl⟩ := Option.map_eq_some_iff.1 h2
      exact List.mem_map.2 ⟨e', he', rfl⟩
    · cases h2
  · intro h
    obtain ⟨e, he, rfl⟩ := List.mem_map.1 h
    obtain ⟨d, f, g, h1, h2, h3⟩ := hc.all e he
    refine List.mem_flatMap.2 ⟨(d, g), h3, ?_⟩
    have := (hc.entry _ h3).out
    simp only at this
    rw [this]
    refine List.mem_map.2 ⟨(e.1, e.2.1, f), List.mem_filterMap.2 ⟨e, he, ?_⟩, rfl⟩
    simp [h1, h2]

theorem ofDtype_sub (d : D) : ((ofDtype dtype d agg).map Prod.fst).Sublist (agg.map Prod.fst) := by
  unfold ofDtype
  induction agg with
  | nil => simp
  | cons e agg ih =>
    rw [List.filterMap_cons]
    obtain ⟨o, j, f⟩ := e
    simp only
    by_cases hj : dtype j = some d
    · rw [if_pos hj]
      cases f with
      | none => exact ih.cons _
      | some f => exact ih.cons_cons _
    · rw [if_neg hj]
      exact ih.cons _

theorem nodup_names (hc : CfgOk dtype agg cfg) (hout : (agg.map Prod.fst).Nodup) : (names cfg).Nodup := by
  unfold names
  rw [List.nodup_flatMap]
  refine ⟨fun p hp => ?_, ?_⟩
  · rw [(hc.entry p hp).out]
    exact hout.sublist (ofDtype_sub p.1)
  · have hk := hc.keys
    rw [List.Nodup, List.pairwise_map] at hk
    refine List.Pairwise.imp_of_mem ?_ hk
    intro p q hp hq hpq
    simp only [Function.onFun]
    intro n hn hn'
    rw [(hc.entry p hp).out] at hn
    rw [(hc.entry q hq).out] at hn'
    obtain ⟨e, he, h1⟩ := List.mem_map.1 hn
    obtain ⟨e', he', h2⟩ := List.mem_map.1 hn'
    obtain ⟨x, hx, h3⟩ := List.mem_filterMap.1 he
    obtain ⟨y, hy, h4⟩ := List.mem_filterMap.1 he'
    split at h3
    · rename_i hxd
      split at h4
      · rename_i hyd
        obtain ⟨f, hf, rfl⟩ := Option.map_eq_some_iff.1 h3
        obtain ⟨f', hf', rfl⟩ := Option.map_eq_some_iff.1 h4
        simp only at h1 h2
        have := List.inj_on_of_nodup_map hout hx hy (h1.trans h2.symm)
        subst this
        rw [hxd] at hyd
        exact hpq (Option.some.inj hyd)
      · cases h4
    · cases h3

/-- The last results stay as they are during the segmentation. -/
theorem segmentbyD_chunk (b0 : B) (fn : BinFn R B) (left : List R → B → B) (ordered : Option (R → Int)) (sn : Option Snaps)
    (p : List R) (d : DictBuf B V) : (segmentbyD b0 fn left ordered sn p d).2.chunk = d.chunk := by
  have h0 : (setupMainbuffer b0 sn.isSome d).chunk = d.chunk := by
    unfold setupMainbuffer; split <;> rfl
  unfold segmentbyD
  simp only
  generalize setupMainbuffer b0 sn.isSome d = d' at h0
  split
  · exact h0
  · split
    · exact h0
    · split
      · exact h0
      · split
        · exact h0
        · split
          · exact h0
          · split
            · exact h0
            · split
              · exact h0
              · split <;> exact h0

/-- A dict that has bins but no snapshots refuses snapshots. -/
theorem no_snap (cfg : List (D × Group)) (z : List (List V) → Bool) (b0 : B) (fn : BinFn R B) (left : List R → B → B)
    (ordered : Option (R → Int)) (sn : Option Snaps) (e0 : Bool) (p : List R) (hp : p ≠ []) (d : DictBuf B V)
    (hsn : sn.isSome) (hb : d.bin.isSome) (hd : d.snap = none) :
    cumsegaggD O get cfg z b0 fn left ordered sn e0 p d = (.error (.seg .keyError), d) := by
  obtain ⟨b, hb⟩ := Option.isSome_iff_exists.1 hb
  have h0 : setupMainbuffer b0 true d = d := by unfold setupMainbuffer; rw [hb]
  unfold cumsegaggD segmentbyD
  rw [show p.isEmpty = false by simpa using hp]
  simp only [h0, hsn, hd, Option.isNone_none, Bool.and_self, if_true, Bool.false_eq_true, if_false]

/-- A missing column is refused, after the segmentation. -/
theorem not_readable (cfg : List (D × Group)) (z : List (List V) → Bool) (b0 : B) (fn : BinFn R B) (left : List R → B → B)
    (ordered : Option (R → Int)) (sn : Option Snaps) (e0 : Bool) (p : List R) (hp : p ≠ []) (d : DictBuf B V)
    (hr : ¬ Readable cfg d) :
    (∃ e, cumsegaggD O get cfg z b0 fn left ordered sn e0 p d =
      (.error (.seg e), (segmentbyD b0 fn left ordered sn p d).2)) ∧
    ((∃ s, (segmentbyD b0 fn left ordered sn p d).1 = .ok s) →
      (cumsegaggD O get cfg z b0 fn left ordered sn e0 p d).1 = .error (.seg .keyError)) := by
  have hc := segmentbyD_chunk b0 fn left ordered sn p d
  unfold cumsegaggD
  rw [show p.isEmpty = false by simpa using hp]
  simp only [Bool.false_eq_true, if_false]
  obtain ⟨c, hd, hn⟩ : ∃ c, d.chunk = some c ∧ readChunk c cfg = none := by
    by_contra hno
    apply hr
    intro c hc
    by_contra hn
    exact hno ⟨c, hc, by simpa using hn⟩
  generalize segmentbyD b0 fn left ordered sn p d = x at hc
  obtain ⟨x, d'⟩ := x
  cases x with
  | error e => exact ⟨⟨e, rfl⟩, by simp⟩
  | ok s =>
    simp only at hc
    have hp : prevChunk O cfg d' = none := by unfold prevChunk; rw [hc, hd]; exact hn
    simp only [hp]
    exact ⟨⟨_, rfl⟩, by simp⟩

/-- One column of the dict. -/
def colBuf (b0 : B) (out : Nat) (d : DictBuf B V) : Buf B V := ⟨segOf b0 d, d.chunk.bind fun c => c.lookup out⟩

/-- What does not depend on values. -/
def unitBuf (b0 : B) (d : DictBuf B V) : Buf B Unit := ⟨segOf b0 d, d.chunk.map fun _ => ()⟩

theorem frameBuf_unit (b0 : B) (cfg : List (D × Group)) (d : DictBuf B V) (hr : Readable cfg d) :
    (frameBuf b0 cfg d).proj (fun _ => ()) = unitBuf b0 d := by
  simp only [Buf.proj, frameBuf, unitBuf, Buf.mk.injEq, true_and]
  cases hch : d.chunk with
  | none => rfl
  | some c =>
    obtain ⟨a', ha'⟩ := Option.isSome_iff_exists.1 (hr c hch)
    simp [ha']

/-- Facts about a call that returns. -/
theorem dict_call (hc : CfgOk dtype agg cfg) (hout : (agg.map Prod.fst).Nodup) (z : List (List V) → Bool) (b0 : B)
    (fn : BinFn R B) (left : List R → B → B) (ordered : Option (R → Int)) (sn : Option Snaps) (e0 : Bool) (p : List R)
    (hp : p ≠ []) (db db' : DictBuf B V) (hw : WellKept db) {r : Option (Res (List (List V)))}
    (h : cumsegaggD O get cfg z b0 fn left ordered sn e0 p db = (.ok r, db')) :
    ∃ res, r = some res ∧ res.All (Shaped cfg) ∧ db'.bin.isSome ∧
      (sn.isSome → db.bin.isSome → db.snap.isSome) ∧ Readable cfg db ∧
      db'.snap.isSome = (sn.isSome || db.snap.isSome) ∧
      (∃ c, db'.chunk = some c ∧ c.map Prod.fst = names cfg) ∧
      cumsegagg unitUpd () (fun _ => false) fn ordered sn false p (some (unitBuf b0 db)) =
        .ok (some (res.proj fun _ => ()), some (unitBuf b0 db')) ∧
      ∀ out i f d, (out, i, some f) ∈ agg → dtype i = some d →
        cumsegagg (colUpd (O d) f fun r => get r i) (O d).zero (fun _ => false) fn ordered sn false p
          (some (colBuf b0 out db)) = .ok (some (res.proj (colProj O cfg d out)), some (colBuf b0 out db')) := by
  have hs : sn.isSome → db.bin.isSome → db.snap.isSome := by
    intro h1 h2
    cases h3 : db.snap with
    | some x => rfl
    | none => rw [no_snap O get cfg z b0 fn left ordered sn e0 p hp db h1 h2 h3] at h; cases h
  have hr : Readable cfg db := by
    by_contra hr
    obtain ⟨⟨e, h'⟩, _⟩ := not_readable O get cfg z b0 fn left ordered sn e0 p hp db hr
    rw [h'] at h; cases h
  have href := frame_refines O get cfg z b0 fn left ordered sn e0 p hp db hw hs hr
  cases hfc : frameCall O get cfg z fn ordered sn e0 p (some (frameBuf b0 cfg db)) with
  | error e =>
    rw [hfc] at href
    obtain ⟨d', hd⟩ := href
    rw [hd] at h; cases h
  | ok o =>
    obtain ⟨r', m⟩ := o
    rw [hfc] at href
    obtain ⟨mb, a, rfl, ha, hsome, hsn, hd⟩ := href
    rw [hd] at h
    simp only [Prod.mk.injEq, Except.ok.injEq] at h
    obtain ⟨rfl, rfl⟩ := h
    obtain ⟨res, rfl⟩ := Option.isSome_iff_exists.1 hsome
    have hfc' := cumsegagg_unchecked hfc
    have hb : ∀ b, some (frameBuf b0 cfg db) = some b → ∀ a, b.chunk = some a → Shaped cfg a := by
      intro b hb a ha
      cases hb
      simp only [frameBuf, Option.bind_eq_some_iff] at ha
      obtain ⟨c, _, h2⟩ := ha
      exact shaped_of_out hc (readChunk_get h2).1
    have hsegd : segOf b0 (⟨some mb.seg.bin, if sn.isSome then some mb.seg.snap else db.snap, mb.seg.lastBinLabel,
        some (nameCols cfg a)⟩ : DictBuf B V) = mb.seg := by
      obtain ⟨⟨bin, snap, lab⟩, ch⟩ := mb
      simp only at hsn
      simp only [segOf, Option.getD_some, MainBuf.mk.injEq, true_and, and_true]
      cases sn with
      | none => exact (hsn rfl).symm
      | some s => rfl
    obtain ⟨hshape, hunit⟩ : (Shaped cfg a ∧ res.All (Shaped cfg)) ∧
        cumsegagg unitUpd () (fun _ => false) fn ordered sn false p (some (unitBuf b0 db)) =
          .ok (some (res.proj fun _ => ()), some (mb.proj fun _ => ())) := by
      obtain ⟨h1, h2⟩ := cumsegagg_proj (upd := updCfg O get cfg) (upd' := unitUpd) (P := Shaped cfg) (π := fun _ => ())
        (fun _ _ _ _ => rfl) (fun xs a p h => shaped_upd O get cfg xs a p h) (chunkRes0 O cfg) (shaped_zero O cfg) z
        (fun _ => false) fn ordered sn p _ hb
      obtain ⟨h3, h4⟩ := h2 _ hfc'
      rw [hfc', Option.map_some, frameBuf_unit b0 cfg db hr] at h1
      exact ⟨⟨h4 mb rfl a ha, h3 res rfl⟩, h1⟩
    have hso := shapedOut_of hc hshape.1
    refine ⟨res, rfl, hshape.2, rfl, hs, hr, ?_, ⟨_, rfl, mem_nameCols hso⟩, ?_, ?_⟩
    · cases sn <;> simp
    · rw [hunit]
      simp only [Buf.proj, unitBuf, hsegd, ha, Option.map_some]
    · intro out i f d he hd'
      obtain ⟨h3, _⟩ := cumsegagg_proj (upd := updCfg O get cfg) (upd' := colUpd (O d) f (fun r => get r i))
        (P := Shaped cfg) (π := colProj O cfg d out) (fun xs a p h => col_proj O get hc hout he hd' xs a p h)
        (fun xs a p h => shaped_upd O get cfg xs a p h) (chunkRes0 O cfg) (shaped_zero O cfg) z
        (fun _ => false) fn ordered sn p _ hb
      rw [hfc', zeros_col O hc hout he hd'] at h3
      have hmem : out ∈ names cfg := (mem_names hc out).2 (List.mem_map.2 ⟨_, he, rfl⟩)
      have e1 : (some (frameBuf b0 cfg db)).map (Buf.proj (colProj O cfg d out)) = some (colBuf b0 out db) := by
        simp only [Option.map_some, Buf.proj, frameBuf, colBuf, Option.some.injEq, Buf.mk.injEq, true_and]
        cases hch : db.chunk with
        | none => rfl
        | some c =>
          obtain ⟨a', ha'⟩ := Option.isSome_iff_exists.1 (hr c hch)
          obtain ⟨_, g2⟩ := readChunk_get ha'
          have hl := (readChunk_iff c cfg).1 (hr c hch) out hmem
          obtain ⟨v, hv⟩ := Option.isSome_iff_exists.1 hl
          simp only [Option.bind_some, ha', Option.map_some, colProj, g2 out hmem, hv, Option.getD_some]
      have e2 : mb.proj (colProj O cfg d out) = colBuf b0 out ⟨some mb.seg.bin,
          if sn.isSome then some mb.seg.snap else db.snap, mb.seg.lastBinLabel, some (nameCols cfg a)⟩ := by
        have hl : ((nameCols cfg a).lookup out).isSome := by
          rw [lookup_isSome_iff, mem_nameCols hso]; exact hmem
        obtain ⟨v, hv⟩ := Option.isSome_iff_exists.1 hl
        have hv' := hv
        rw [lookup_nameCols hso] at hv'
        simp only [Buf.proj, colBuf, hsegd, ha, Option.getD_some, Option.map_some, Option.bind_some, colProj, hv, hv']
      rw [e1] at h3
      rw [h3]
      simp only [Except.map, Option.map_some, e2]

end
end Oups.Agg
