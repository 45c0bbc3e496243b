import Verif.Proofs.AggregateOne
/-! Whole result frames: all columns of `cumsegagg`, in one call and over successive calls. -/
set_option linter.unusedSimpArgs false
namespace Oups.Agg
open Oups.Segment Spec Oups.Segment.Spec

section
variable {R B V D : Type} [DecidableEq D] (O : D → Ops V) (get : R → Nat → V)

/-- `cumsegagg` with the configuration `cfg` returned by `setup_cumsegagg`. -/
def frameCall (cfg : List (D × Group)) (z : List (List V) → Bool) (fn : BinFn R B) (ordered : Option (R → Int))
    (sn : Option Snaps) (e0 : Bool) : List R → Option (Buf B (List (List V))) →
    Except AggErr (Option (Res (List (List V))) × Option (Buf B (List (List V)))) :=
  cumsegagg (updCfg O get cfg) (chunkRes0 O cfg) z fn ordered sn e0

/-- The result rows hold, for each requested column, the aggregates of `bins`. -/
def HasBins (dtype : Nat → Option D) (agg : List (Nat × Nat × Option Fn)) (cfg : List (D × Group))
    (bins : List (Bin R)) (rows : List (Int × Option (List (List V)))) : Prop :=
  rows.map Prod.fst = bins.map Bin.label ∧
  ∀ out i f d, (out, i, some f) ∈ agg → dtype i = some d →
    column cfg out rows = colBins (O d) f (fun r => get r i) bins

/-- The result rows hold, for each requested column, the aggregates of the snapshots `pts`. -/
def HasSnaps (dtype : Nat → Option D) (agg : List (Nat × Nat × Option Fn)) (cfg : List (D × Group))
    (right : Bool) (pos : R → Int) (bins : List (Bin R)) (pts : List (Int × Int))
    (rows : List (Int × Option (List (List V)))) : Prop :=
  rows.map Prod.fst = pts.map Prod.fst ∧
  ∀ out i f d, (out, i, some f) ∈ agg → dtype i = some d →
    column cfg out rows = colSnaps (O d) f (fun r => get r i) right pos bins pts

end

section
variable {R B V D : Type} [DecidableEq D] (O : D → Ops V) (get : R → Nat → V)
variable {dtype : Nat → Option D} {agg : List (Nat × Nat × Option Fn)} {cfg : List (D × Group)}

/-- Nothing is computed: labels and nulls only. -/
def unitUpd : List R → Unit → Bool → Unit := fun _ _ _ => ()

theorem unitHom : Hom (unitUpd (R := R)) := ⟨fun _ _ _ _ _ _ => rfl, fun _ _ _ _ => rfl⟩

theorem projRows_fst {A A' : Type} (π : A → A') (l : List (Int × Option A)) :
    (projRows π l).map Prod.fst = l.map Prod.fst := by
  unfold projRows; rw [List.map_map]; rfl

theorem binRes_col (O : Ops V) (f : Fn) (col : R → V) (a0 : V) (bins : List (Bin R)) :
    binRes (colUpd O f col) a0 bins = colBins O f col bins := by
  unfold binRes colBins
  apply List.map_congr_left
  intro b _
  rw [value_col]

theorem snapRes_col (O : Ops V) (f : Fn) (col : R → V) (a0 : V) (right : Bool) (pos : R → Int) (bins : List (Bin R))
    (pts : List (Int × Int)) :
    snapRes (colUpd O f col) a0 right pos bins pts = colSnaps O f col right pos bins pts := by
  unfold snapRes colSnaps
  apply List.map_congr_left
  intro b _
  rw [value_col]

theorem except_map_ok {E X Y : Type} {f : X → Y} {e : Except E X} {y : Y} (h : e.map f = .ok y) :
    ∃ x, e = .ok x ∧ f x = y := by
  cases e with
  | error _ => cases h
  | ok x => exact ⟨x, rfl, by simpa [Except.map] using h⟩

/-- A run on labels only gives a run on the frame, each column of which is a run on the column. -/
theorem frame_stream (hc : CfgOk dtype agg cfg) (hout : (agg.map Prod.fst).Nodup) (z : List (List V) → Bool)
    (fn : BinFn R B) (ordered : Option (R → Int)) (sn : Option Snaps) (b0 : B) (pieces : List (List R))
    {ru : Res Unit} {bu : Option (Buf B Unit)}
    (hu : streamAgg (cumsegagg unitUpd () (fun _ => false) fn ordered sn false) ⟨[], none⟩ (some (Buf.init b0)) pieces =
      .ok (ru, bu)) :
    ∃ res b, streamAgg (frameCall O get cfg z fn ordered sn false) ⟨[], none⟩ (some (Buf.init b0)) pieces =
        .ok (res, b) ∧ res.proj (fun _ => ()) = ru ∧ res.All (Shaped cfg) ∧
      ∀ out i f d, (out, i, some f) ∈ agg → dtype i = some d → ∃ b',
        streamAgg (cumsegagg (colUpd (O d) f (fun r => get r i)) (O d).zero (fun _ => false) fn ordered sn false)
          ⟨[], none⟩ (some (Buf.init b0)) pieces = .ok (res.proj (colProj O cfg d out), b') := by
  have hacc : (⟨[], none⟩ : Res (List (List V))).All (Shaped cfg) := ⟨by simp, by simp⟩
  have hb : ∀ b : Buf B (List (List V)), some (Buf.init b0) = some b → ∀ a, b.chunk = some a → Shaped cfg a := by
    intro b h a ha; cases h; simp [Buf.init] at ha
  obtain ⟨h1, h2⟩ := stream_proj (upd := updCfg O get cfg) (upd' := unitUpd) (P := Shaped cfg) (π := fun _ => ())
    (fun _ _ _ _ => rfl) (fun xs a p h => shaped_upd O get cfg xs a p h) (chunkRes0 O cfg) (shaped_zero O cfg) z
    (fun _ => false) fn ordered sn pieces ⟨[], none⟩ hacc (some (Buf.init b0)) hb
  have h1' : (streamAgg (cumsegagg (updCfg O get cfg) (chunkRes0 O cfg) z fn ordered sn false) ⟨[], none⟩
      (some (Buf.init b0)) pieces).map (fun o => (o.1.proj (fun _ => ()), o.2.map (Buf.proj (fun _ => ())))) =
      .ok (ru, bu) := by rw [← h1]; exact hu
  obtain ⟨⟨res, b⟩, hr1, hr2⟩ := except_map_ok h1'
  refine ⟨res, b, hr1, congrArg Prod.fst hr2, h2 _ hr1, ?_⟩
  intro out i f d he hd
  obtain ⟨h3, _⟩ := stream_proj (upd := updCfg O get cfg) (upd' := colUpd (O d) f (fun r => get r i)) (P := Shaped cfg)
    (π := colProj O cfg d out) (fun xs a p h => col_proj O get hc hout he hd xs a p h)
    (fun xs a p h => shaped_upd O get cfg xs a p h) (chunkRes0 O cfg) (shaped_zero O cfg) z
    (fun _ => false) fn ordered sn pieces ⟨[], none⟩ hacc (some (Buf.init b0)) hb
  rw [hr1, zeros_col O hc hout he hd] at h3
  exact ⟨_, h3⟩

/-- The same for one call, from any buffer. -/
theorem frame_call (hc : CfgOk dtype agg cfg) (hout : (agg.map Prod.fst).Nodup) (z : List (List V) → Bool)
    (fn : BinFn R B) (ordered : Option (R → Int)) (sn : Option Snaps) (data : List R)
    (buf : Option (Buf B (List (List V)))) (hb : ∀ b, buf = some b → ∀ a, b.chunk = some a → Shaped cfg a)
    {ru : Res Unit} {bu : Option (Buf B Unit)}
    (hu : cumsegagg unitUpd () (fun _ => false) fn ordered sn false data (buf.map (Buf.proj fun _ => ())) =
      .ok (some ru, bu)) :
    ∃ res b, frameCall O get cfg z fn ordered sn false data buf = .ok (some res, b) ∧
      res.proj (fun _ => ()) = ru ∧ res.All (Shaped cfg) ∧
      ∀ out i f d, (out, i, some f) ∈ agg → dtype i = some d → ∃ b',
        cumsegagg (colUpd (O d) f (fun r => get r i)) (O d).zero (fun _ => false) fn ordered sn false data
          (buf.map (Buf.proj (colProj O cfg d out))) = .ok (some (res.proj (colProj O cfg d out)), b') := by
  obtain ⟨h1, h2⟩ := cumsegagg_proj (upd := updCfg O get cfg) (upd' := unitUpd) (P := Shaped cfg) (π := fun _ => ())
    (fun _ _ _ _ => rfl) (fun xs a p h => shaped_upd O get cfg xs a p h) (chunkRes0 O cfg) (shaped_zero O cfg) z
    (fun _ => false) fn ordered sn data buf hb
  rw [hu] at h1
  obtain ⟨⟨o, b⟩, hr1, hr2⟩ := except_map_ok h1.symm
  simp only [Prod.mk.injEq] at hr2
  cases o with
  | none => simp at hr2
  | some res =>
    refine ⟨res, b, hr1, by simpa using hr2.1, (h2 _ hr1).1 res rfl, ?_⟩
    intro out i f d he hd
    obtain ⟨h3, _⟩ := cumsegagg_proj (upd := updCfg O get cfg) (upd' := colUpd (O d) f (fun r => get r i))
      (P := Shaped cfg) (π := colProj O cfg d out) (fun xs a p h => col_proj O get hc hout he hd xs a p h)
      (fun xs a p h => shaped_upd O get cfg xs a p h) (chunkRes0 O cfg) (shaped_zero O cfg) z
      (fun _ => false) fn ordered sn data buf hb
    rw [hr1, zeros_col O hc hout he hd] at h3
    exact ⟨_, h3⟩

section
variable {fn : BinFn R B} {pos : R → Int} {c : Closed} {b0 : B} {spec : List R → List (Bin R)}
variable {ok : List R → B → Prop} (L : Lawful fn pos c b0 spec ok)

include L in
theorem frame_stream_bins (hc : CfgOk dtype agg cfg) (hout : (agg.map Prod.fst).Nodup) (z : List (List V) → Bool)
    (ordered : Option (R → Int)) (pieces : List (List R)) (hs : AscOn pos pieces.flatten)
    (ho : ∀ o, ordered = some o → AscOn o pieces.flatten) (hlab : ∀ q, q <+: pieces.flatten → LabelsOk (spec q)) :
    ∃ res b, streamAgg (frameCall O get cfg z fn ordered none false) ⟨[], none⟩ (some (Buf.init b0)) pieces =
        .ok (res, b) ∧ res.snaps = none ∧ HasBins O get dtype agg cfg (spec pieces.flatten) res.bins := by
  have hinit : ∀ {A : Type} (upd : List R → A → Bool → A) (a0 : A),
      (⟨[], none⟩ : Res A) = ⟨binRes upd a0 (spec []), none⟩ := by
    intro A upd a0; rw [L.spec_nil]; rfl
  obtain ⟨bu, hu⟩ := stream_bins unitHom () (fun _ => false) L ordered pieces [] ⟨[], none⟩ (Buf.init b0)
    (by simpa using hs) (by simpa using ho) (by simpa using hlab) (aggOk_init () L trivial) (hinit _ _)
  obtain ⟨res, b, h1, h2, h3, h4⟩ := frame_stream O get hc hout z fn ordered none b0 pieces hu
  refine ⟨res, b, h1, ?_, ?_, ?_⟩
  · have := congrArg Res.snaps h2
    simpa [Res.proj] using this
  · have := congrArg Res.bins h2
    simp only [Res.proj] at this
    rw [← projRows_fst (fun _ => ()) res.bins, this, List.nil_append]
    unfold binRes; rw [List.map_map]; rfl
  · intro out i f d he hd
    obtain ⟨b', h5⟩ := h4 out i f d he hd
    obtain ⟨b'', h6⟩ := stream_bins (colUpd_hom (O d) f (fun r => get r i)) (O d).zero (fun _ => false) L ordered pieces []
      ⟨[], none⟩ (Buf.init b0) (by simpa using hs) (by simpa using ho) (by simpa using hlab) (aggOk_init _ L trivial)
      (hinit _ _)
    rw [h5] at h6
    simp only [Except.ok.injEq, Prod.mk.injEq, List.nil_append] at h6
    have h7 := congrArg Res.bins h6.1
    simp only [Res.proj] at h7
    rw [column_eq O get hc hout he hd _ h3.1, h7, binRes_col]

include L in
theorem frame_stream_snaps (hc : CfgOk dtype agg cfg) (hout : (agg.map Prod.fst).Nodup) (z : List (List V) → Bool)
    {sok : List R → ScaleBuf → Prop} {sn : Snaps} {pts : List R → List (Int × Int)}
    (SL : SnapLaw sn c pos pts sok) (pieces : List (List R)) (hs : AscOn pos pieces.flatten)
    (hlab : ∀ q, q <+: pieces.flatten → LabelsOk (spec q))
    (hsep : ∀ q, q <+: pieces.flatten → Separated (c == .right) pos (spec q)) :
    ∃ res b, streamAgg (frameCall O get cfg z fn (some pos) (some sn) false) ⟨[], none⟩ (some (Buf.init b0)) pieces =
        .ok (res, b) ∧ HasBins O get dtype agg cfg (spec pieces.flatten) res.bins ∧
      HasSnaps O get dtype agg cfg (c == .right) pos (spec pieces.flatten) (pts pieces.flatten) (res.snaps.getD []) ∧
      (pieces.flatten ≠ [] → res.snaps.isSome) := by
  have hinit : ∀ {A : Type} (upd : List R → A → Bool → A) (a0 : A),
      (⟨[], none⟩ : Res A).bins = binRes upd a0 (spec []) ∧
        (⟨[], none⟩ : Res A).snaps.getD [] = snapRes upd a0 (c == .right) pos (spec []) (pts []) := by
    intro A upd a0; rw [L.spec_nil, SL.pts_nil]; exact ⟨rfl, rfl⟩
  obtain ⟨ru, bu, hu, u1, u2, u3, _⟩ := stream_snaps unitHom () (fun _ => false) L SL pieces [] ⟨[], none⟩ (Buf.init b0)
    (by simpa using hs) (by simpa using hlab) (by simpa using hsep) (aggOk_init () L SL.init) (hinit _ _)
  obtain ⟨res, b, h1, h2, h3, h4⟩ := frame_stream O get hc hout z fn (some pos) (some sn) b0 pieces hu
  have hgetD : ∀ {A' : Type} (π : List (List V) → A'), (res.proj π).snaps.getD [] = projRows π (res.snaps.getD []) := by
    intro A' π; simp only [Res.proj]; cases res.snaps <;> rfl
  have hshape : ∀ x ∈ res.snaps.getD [], ∀ a, x.2 = some a → Shaped cfg a := by
    cases hsn : res.snaps with
    | none => simp
    | some l => exact h3.2 l hsn
  refine ⟨res, b, h1, ⟨?_, ?_⟩, ⟨?_, ?_⟩, ?_⟩
  · rw [← projRows_fst (fun _ => ()) res.bins, show projRows (fun _ => ()) res.bins = ru.bins from congrArg Res.bins h2, u1,
      List.nil_append]
    unfold binRes; rw [List.map_map]; rfl
  · intro out i f d he hd
    obtain ⟨b', h5⟩ := h4 out i f d he hd
    obtain ⟨r', b'', h6, h7, _⟩ := stream_snaps (colUpd_hom (O d) f (fun r => get r i)) (O d).zero (fun _ => false) L SL pieces
      [] ⟨[], none⟩ (Buf.init b0) (by simpa using hs) (by simpa using hlab) (by simpa using hsep)
      (aggOk_init _ L SL.init) (hinit _ _)
    rw [h5] at h6
    simp only [Except.ok.injEq, Prod.mk.injEq] at h6
    rw [← h6.1, List.nil_append] at h7
    rw [column_eq O get hc hout he hd _ h3.1]
    simp only [Res.proj] at h7
    rw [h7, binRes_col]
  · rw [← projRows_fst (fun _ => ()) (res.snaps.getD []), ← hgetD, h2, u2, List.nil_append]
    unfold snapRes; rw [List.map_map]; rfl
  · intro out i f d he hd
    obtain ⟨b', h5⟩ := h4 out i f d he hd
    obtain ⟨r', b'', h6, _, h7, _⟩ := stream_snaps (colUpd_hom (O d) f (fun r => get r i)) (O d).zero (fun _ => false) L SL pieces
      [] ⟨[], none⟩ (Buf.init b0) (by simpa using hs) (by simpa using hlab) (by simpa using hsep)
      (aggOk_init _ L SL.init) (hinit _ _)
    rw [h5] at h6
    simp only [Except.ok.injEq, Prod.mk.injEq] at h6
    rw [← h6.1, List.nil_append, hgetD] at h7
    rw [column_eq O get hc hout he hd _ hshape, h7, snapRes_col]
  · intro hne
    have := u3 hne
    rw [← h2] at this
    simpa [Res.proj] using this

include L in
/-- One call without buffer. -/
theorem frame_oneshot_bins (hc : CfgOk dtype agg cfg) (hout : (agg.map Prod.fst).Nodup) (z : List (List V) → Bool)
    (ordered : Option (R → Int)) (w : List R) (hw : w ≠ []) (hs : AscOn pos w)
    (ho : ∀ o, ordered = some o → AscOn o w) (hlab : ∀ q, q <+: w → LabelsOk (spec q)) :
    ∃ res, frameCall O get cfg z fn ordered none false w none = .ok (some res, none) ∧ res.snaps = none ∧
      HasBins O get dtype agg cfg (spec w) res.bins := by
  obtain ⟨res, b, h1, h2, h3⟩ := frame_stream_bins O get L hc hout z ordered [w] (by simpa using hs) (by simpa using ho)
    (by simpa using hlab)
  simp only [streamAgg] at h1
  cases hcall : frameCall O get cfg z fn ordered none false w (some (Buf.init b0)) with
  | error e => rw [hcall] at h1; cases h1
  | ok o =>
    obtain ⟨r, b'⟩ := o
    rw [hcall] at h1
    simp only [Except.ok.injEq, Prod.mk.injEq] at h1
    cases r with
    | none =>
      exfalso
      unfold frameCall cumsegagg at hcall
      rw [show w.isEmpty = false by simpa using hw] at hcall
      simp only [Bool.false_eq_true, if_false] at hcall
      split at hcall
      · cases hcall
      · simp at hcall
    | some r =>
      have hglue : glueRes ⟨[], none⟩ (some r) = r := by
        unfold glueRes; obtain ⟨a, s⟩ := r; cases s <;> simp
      rw [hglue] at h1
      rw [h1.1] at hcall
      have := cumsegagg_noBuf (upd := updCfg O get cfg) (chunkRes0 O cfg) z L pos none (by simp) ordered (by simp) false w hw hs hcall
      rw [List.flatten_singleton] at h3
      exact ⟨res, this, h2, h3⟩

include L in
theorem frame_oneshot_snaps (hc : CfgOk dtype agg cfg) (hout : (agg.map Prod.fst).Nodup) (z : List (List V) → Bool)
    {sok : List R → ScaleBuf → Prop} {sn : Snaps} {pts : List R → List (Int × Int)}
    (SL : SnapLaw sn c pos pts sok) (w : List R) (hw : w ≠ []) (hs : AscOn pos w)
    (hlab : ∀ q, q <+: w → LabelsOk (spec q))
    (hsep : ∀ q, q <+: w → Separated (c == .right) pos (spec q)) :
    ∃ res, frameCall O get cfg z fn (some pos) (some sn) false w none = .ok (some res, none) ∧
      HasBins O get dtype agg cfg (spec w) res.bins ∧
      HasSnaps O get dtype agg cfg (c == .right) pos (spec w) (pts w) (res.snaps.getD []) ∧ res.snaps.isSome := by
  obtain ⟨res, b, h1, h2, h3, h4⟩ := frame_stream_snaps O get L hc hout z SL [w] (by simpa using hs)
    (by simpa using hlab) (by simpa using hsep)
  simp only [streamAgg] at h1
  cases hcall : frameCall O get cfg z fn (some pos) (some sn) false w (some (Buf.init b0)) with
  | error e => rw [hcall] at h1; cases h1
  | ok o =>
    obtain ⟨r, b'⟩ := o
    rw [hcall] at h1
    simp only [Except.ok.injEq, Prod.mk.injEq] at h1
    cases r with
    | none =>
      exfalso
      unfold frameCall cumsegagg at hcall
      rw [show w.isEmpty = false by simpa using hw] at hcall
      simp only [Bool.false_eq_true, if_false] at hcall
      split at hcall
      · cases hcall
      · simp at hcall
    | some r =>
      have hglue : glueRes ⟨[], none⟩ (some r) = r := by
        unfold glueRes; obtain ⟨a, s⟩ := r; cases s <;> simp
      rw [hglue] at h1
      rw [h1.1] at hcall
      have := cumsegagg_noBuf (upd := updCfg O get cfg) (chunkRes0 O cfg) z L pos (some sn)
        (by intro x hx; cases hx; exact SL.noBuf) (some pos) (by simp) false w hw hs hcall
      rw [List.flatten_singleton] at h2 h3
      exact ⟨res, this, h2, h3, h4 (by simpa using hw)⟩

end
end

/-! ### One call with snapshots, any binning -/

section
variable {R B V D : Type} [DecidableEq D] (O : D → Ops V) (get : R → Nat → V)
variable {dtype : Nat → Option D} {agg : List (Nat × Nat × Option Fn)} {cfg : List (D × Group)}

theorem frame_call_snaps (hc : CfgOk dtype agg cfg) (hout : (agg.map Prod.fst).Nodup) (z : List (List V) → Bool)
    (fn : BinFn R B) (pos : R → Int) (sn : Snaps) (hok : Snaps.Ok sn) (p : List R) (hp : p ≠ []) (hs : AscOn pos p)
    (r : BinRes) (b' : Option B) (hf : fn p none = .ok (r, b')) (c : Closed) (hcl : r.closed = some c)
    (hl1 : r.labels.length = r.starts.length) (hl2 : r.ends.length = r.starts.length)
    (hm : r.starts.Pairwise (· ≤ ·)) (hl : r.starts.getLast? = some p.length)
    (hsep : Separated (c == .right) pos (readBins r.starts r.labels r.ends r.unknownLast p))
    (hlab : LabelsOk (readBins r.starts r.labels r.ends r.unknownLast p))
    (ss : Seg) (sb : Option ScaleBuf) (hss : runSnaps sn c (p.map pos) none = .ok (ss, sb)) (hnd : ss.labels.Nodup) :
    ∃ res b, frameCall O get cfg z fn (some pos) (some sn) false p none = .ok (some res, b) ∧
      HasBins O get dtype agg cfg (readBins r.starts r.labels r.ends r.unknownLast p) res.bins ∧
      HasSnaps O get dtype agg cfg (c == .right) pos (readBins r.starts r.labels r.ends r.unknownLast p)
        (ss.labels.zip ss.ends) (res.snaps.getD []) ∧ res.snaps.isSome := by
  have hne : r.starts ≠ [] := by intro h; rw [h] at hl; simp at hl
  have hlen := runSnaps_labels sn c (p.map pos) (by rw [Asc, List.pairwise_map]; exact hs) (by simpa using hp) hok _ ss sb hss
  have hcons : ∀ {A : Type}, Consistent p.length (none : Option (Buf B A)).isSome
      (((none : Option (Buf B A)).map Buf.seg).bind MainBuf.lastBinLabel) r := by
    intro A
    exact ⟨by simp [hcl], hl1, hl2, by simp, by simp, by simp⟩
  have hbl := readBins_labels (u := r.unknownLast) (rows := p) hl1 hl2 hne
  have hblen := readBins_length (u := r.unknownLast) (rows := p) hl1 hl2 hne
  have hbins : ∀ {A : Type} (upd : List R → A → Bool → A) (a0 : A),
      setNulls r.labels (binVals upd a0 (before a0 (none : Option (Buf B A)) r.labels)
        (readBins r.starts r.labels r.ends r.unknownLast p)) =
      binRes upd a0 (readBins r.starts r.labels r.ends r.unknownLast p) := by
    intro A upd a0
    rw [show before a0 (none : Option (Buf B A)) r.labels = none from rfl, binVals_none, setNulls_eq]
    · unfold binRes
      generalize readBins r.starts r.labels r.ends r.unknownLast p = bins at hbl
      rw [← hbl, List.zip_map']
    · rcases hlab with hlab | hlab
      · exact Or.inl (hbl ▸ hlab)
      · right
        intro x hx
        obtain ⟨b, hb, rfl⟩ := List.mem_map.1 hx
        simp [value, hlab b hb]
    · rw [List.length_map, hblen, hl1]
  have hsnaps : ∀ {A : Type} (upd : List R → A → Bool → A) (a0 : A),
      setNulls ss.labels (ss.ends.map fun s => snapVal upd a0 (c == .right) pos s
        (before a0 (none : Option (Buf B A)) r.labels) (readBins r.starts r.labels r.ends r.unknownLast p)) =
      snapRes upd a0 (c == .right) pos (readBins r.starts r.labels r.ends r.unknownLast p) (ss.labels.zip ss.ends) := by
    intro A upd a0
    rw [show before a0 (none : Option (Buf B A)) r.labels = none from rfl, setNulls_eq _ _ (Or.inl hnd) (by simpa using hlen)]
    unfold snapRes
    rw [List.zip_map_right]
    apply List.map_congr_left
    rintro ⟨l, e⟩ _
    simp only [Prod.map, id, snapVal_none]
  obtain ⟨bu, hu⟩ := call_snaps (A := Unit) unitHom () (fun _ => false) fn pos sn hok p hp none r b' hf hs c hcl hcons hm hl
    hsep ss sb hss hlen
  rw [hbins, hsnaps] at hu
  obtain ⟨res, b, h1, h2, h3, h4⟩ := frame_call O get hc hout z fn (some pos) (some sn) p none (by simp) hu
  have hcol : ∀ out i f d, (out, i, some f) ∈ agg → dtype i = some d →
      res.proj (colProj O cfg d out) = ⟨binRes (colUpd (O d) f fun r => get r i) (O d).zero
          (readBins r.starts r.labels r.ends r.unknownLast p), some (snapRes (colUpd (O d) f fun r => get r i) (O d).zero
          (c == .right) pos (readBins r.starts r.labels r.ends r.unknownLast p) (ss.labels.zip ss.ends))⟩ := by
    intro out i f d he hd
    obtain ⟨b'', h5⟩ := h4 out i f d he hd
    obtain ⟨b3, h6⟩ := call_snaps (colUpd_hom (O d) f fun r => get r i) (O d).zero (fun _ => false) fn pos sn hok p hp
      none r b' hf hs c hcl hcons hm hl hsep ss sb hss hlen
    rw [hbins, hsnaps] at h6
    simp only [Option.map_none] at h5
    rw [h6] at h5
    simp only [Except.ok.injEq, Prod.mk.injEq, Option.some.injEq] at h5
    exact h5.1.symm
  cases hsn : res.snaps with
  | none =>
    have := congrArg Res.snaps h2
    simp [Res.proj, hsn] at this
  | some l =>
    refine ⟨res, b, h1, ⟨?_, ?_⟩, ?_, by simp [hsn]⟩
    on_goal 3 => rw [hsn]; constructor
    · rw [← projRows_fst (fun _ => ()) res.bins, show projRows (fun _ => ()) res.bins = _ from congrArg Res.bins h2]
      simp only [binRes]; rw [List.map_map]; rfl
    · intro out i f d he hd
      rw [column_eq O get hc hout he hd _ h3.1,
        show projRows _ res.bins = _ from congrArg Res.bins (hcol out i f d he hd), binRes_col]
    · have := congrArg Res.snaps h2
      simp only [Res.proj, hsn, Option.map_some, Option.some.injEq] at this
      rw [Option.getD_some, ← projRows_fst (fun _ => ()) l, this]
      simp only [snapRes]; rw [List.map_map]; rfl
    · intro out i f d he hd
      have := congrArg Res.snaps (hcol out i f d he hd)
      simp only [Res.proj, hsn, Option.map_some, Option.some.injEq] at this
      rw [Option.getD_some, column_eq O get hc hout he hd _ (h3.2 l hsn), this, snapRes_col]

end

/-- Explicit points, without buffer: those up to the first one that covers all rows. -/
theorem points_once (l e : List Int) (hlen : l.length = e.length) (he : Asc e) (c : Closed) (on : List Int) (hs : Asc on)
    (hne : on ≠ []) :
    ∃ (ss : Seg) (k : Nat), runSnaps (.values l e) c on none = .ok (ss, none) ∧ ss.labels = l.take k ∧ ss.ends = e.take k ∧
      ∀ x ∈ e.drop k, ∃ y ∈ e.take k, ∀ v ∈ on, within (c == .right) y v = true := by
  unfold runSnaps bySeries seriesFinish
  simp only [hlen, ne_eq, not_true_eq_false, if_false]
  by_cases h0 : e = []
  · subst h0
    refine ⟨_, 0, rfl, ?_, by simp, by simp⟩
    simp only [List.isEmpty_nil, if_true, List.take_zero]
    exact List.length_eq_zero_iff.1 (by simpa using hlen)
  · rw [if_neg (by simpa using h0)]
    unfold scaleFinish
    rw [nextChunkStarts_eq on e (c == .right) hs he hne]
    simp only
    set ranks := e.map fun x => on.countP (within (c == .right) x) with hr
    split
    · rename_i ht
      have ht : on.length ∈ ranks := by simpa using ht
      refine ⟨_, (upTo on.length ranks).length, rfl, rfl, rfl, ?_⟩
      intro x _
      have hlast := upTo_getLast ht
      have hpre : upTo on.length ranks = (e.take (upTo on.length ranks).length).map
          fun x => on.countP (within (c == .right) x) := by
        rw [List.map_take, ← hr]; exact List.prefix_iff_eq_take.1 (upTo_prefix _ _)
      have hmem := List.mem_of_getLast? hlast
      rw [hpre] at hmem
      obtain ⟨y, hy, hy'⟩ := List.mem_map.1 hmem
      exact ⟨y, hy, fun v hv => List.countP_eq_length.1 hy' v hv⟩
    · refine ⟨_, e.length, rfl, ?_, by simp, by simp⟩
      simp only
      rw [← hlen, List.take_length]

/-! ### Zeros -/

section
variable {V D : Type} [DecidableEq D]

/-- Some column of the row equals 0. -/
def rowZero (eq0 : D → V → Bool) (cfg : List (D × Group)) (row : List (List V)) : Bool :=
  (cfg.zip row).any fun p => p.2.any (eq0 p.1.1)

theorem rowZero_iff {dtype : Nat → Option D} {agg : List (Nat × Nat × Option Fn)} {cfg : List (D × Group)}
    (h : CfgOk dtype agg cfg) (hout : (agg.map Prod.fst).Nodup) (eq0 : D → V → Bool) (row : List (List V))
    (hs : Shaped cfg row) :
    rowZero eq0 cfg row = true ↔ ∃ out i f d v, (out, i, some f) ∈ agg ∧ dtype i = some d ∧
      readCol out cfg row = some v ∧ eq0 d v = true := by
  -- columns of an entry are those of its dtype
  have hcol : ∀ p ∈ cfg, ∀ (k : Nat) out, p.2.colsOut[k]? = some out →
      ∃ i f, (out, i, some f) ∈ agg ∧ dtype i = some p.1 := by
    intro p hp k out hk
    rw [(h.entry p hp).out, List.getElem?_map] at hk
    cases he : (ofDtype dtype p.1 agg)[k]? with
    | none => rw [he] at hk; cases hk
    | some e =>
      rw [he] at hk
      have hmem := List.mem_of_getElem? he
      obtain ⟨e', he', hfe⟩ := List.mem_filterMap.1 hmem
      obtain ⟨o, i, f⟩ := e'
      simp only at hfe
      split at hfe
      · rename_i hd
        cases f with
        | none => simp at hfe
        | some f =>
          simp only [Option.map_some, Option.some.injEq] at hfe hk
          subst hfe
          simp only at hk
          subst hk
          exact ⟨i, f, he', hd⟩
      · cases hfe
  have huniq : ∀ p ∈ cfg, ∀ q ∈ cfg, ∀ out, out ∈ p.2.colsOut → out ∈ q.2.colsOut → p.1 = q.1 := by
    intro p hp q hq out h1 h2
    obtain ⟨k1, hk1⟩ := List.getElem?_of_mem h1
    obtain ⟨k2, hk2⟩ := List.getElem?_of_mem h2
    obtain ⟨i1, f1, a1, b1⟩ := hcol p hp k1 out hk1
    obtain ⟨i2, f2, a2, b2⟩ := hcol q hq k2 out hk2
    have := List.inj_on_of_nodup_map hout a1 a2 rfl
    simp only [Prod.mk.injEq, true_and] at this
    rw [this.1, b2] at b1
    exact (Option.some.inj b1).symm
  have hnod : ∀ p ∈ cfg, p.2.colsOut.Nodup := by
    intro p hp
    rw [(h.entry p hp).out]
    have hsub : ∀ l : List (Nat × Nat × Option Fn), ((ofDtype dtype p.1 l).map Prod.fst).Sublist (l.map Prod.fst) := by
      intro l
      induction l with
      | nil => exact List.Sublist.slnil
      | cons e l ih =>
        unfold ofDtype at ih ⊢
        rw [List.filterMap_cons]
        split
        · rw [List.map_cons]; exact ih.cons _
        · rename_i b hb
          split at hb
          · cases hf : e.2.2 with
            | none => rw [hf] at hb; cases hb
            | some f =>
              rw [hf] at hb
              simp only [Option.map_some, Option.some.injEq] at hb
              subst hb
              rw [List.map_cons, List.map_cons]
              exact ih.cons_cons _
          · cases hb
    exact hout.sublist (hsub agg)
  have hlen : ∀ p ∈ cfg, p.2.nCols = p.2.colsOut.length := by
    intro p hp
    rw [(h.entry p hp).nCols, (h.entry p hp).out, List.length_map]
  -- by induction on entries
  have key : ∀ (cfg' : List (D × Group)) (row' : List (List V)), Shaped cfg' row' → (∀ p ∈ cfg', p ∈ cfg) →
      (cfg'.map Prod.fst).Nodup →
      (rowZero eq0 cfg' row' = true ↔ ∃ p ∈ cfg', ∃ out ∈ p.2.colsOut, ∃ v, readCol out cfg' row' = some v ∧ eq0 p.1 v = true) := by
    intro cfg' row' hs'
    unfold Shaped at hs'
    induction hs' with
    | nil => intro _ _; simp [rowZero]
    | @cons p r cfg' row' hpr hrest ih =>
      intro hsub hn
      rw [List.map_cons, List.nodup_cons] at hn
      have hp := hsub p (by simp)
      have ih' := ih (fun q hq => hsub q (by simp [hq])) hn.2
      rw [show rowZero eq0 (p :: cfg') (r :: row') = (r.any (eq0 p.1) || rowZero eq0 cfg' row') from rfl, Bool.or_eq_true, ih']
      obtain ⟨d, g⟩ := p
      simp only at hpr hp hn
      constructor
      · rintro (hz | ⟨q, hq, out, ho, v, hv, hz⟩)
        · rw [List.any_eq_true] at hz
          obtain ⟨v, hv, hz⟩ := hz
          obtain ⟨k, hk, hkv⟩ := List.getElem_of_mem hv
          have hk' : k < g.colsOut.length := by rw [← hlen _ hp, ← hpr]; exact hk
          refine ⟨(d, g), by simp, g.colsOut[k], List.getElem_mem _, v, ?_, hz⟩
          simp only [readCol]
          rw [if_pos (List.getElem_mem _), List.Nodup.idxOf_getElem (hnod _ hp), List.getElem?_eq_getElem hk, hkv]
        · refine ⟨q, by simp [hq], out, ho, v, ?_, hz⟩
          simp only [readCol]
          rw [if_neg, hv]
          intro hmem
          have := huniq _ hp q (hsub q (by simp [hq])) out hmem ho
          simp only at this
          exact hn.1 (this ▸ List.mem_map.2 ⟨q, hq, rfl⟩)
      · rintro ⟨q, hq, out, ho, v, hv, hz⟩
        rcases List.mem_cons.1 hq with rfl | hq
        · left
          simp only [readCol] at hv ho hz
          rw [if_pos ho] at hv
          exact List.any_eq_true.2 ⟨v, List.mem_of_getElem? hv, hz⟩
        · right
          simp only [readCol] at hv
          rw [if_neg] at hv
          · exact ⟨q, hq, out, ho, v, hv, hz⟩
          · intro hmem
            have := huniq _ hp q (hsub q (by simp [hq])) out hmem ho
            simp only at this
            exact hn.1 (this ▸ List.mem_map.2 ⟨q, hq, rfl⟩)
  rw [key cfg row hs (fun _ h => h) h.keys]
  constructor
  · rintro ⟨p, hp, out, ho, v, hv, hz⟩
    obtain ⟨k, hk⟩ := List.getElem?_of_mem ho
    obtain ⟨i, f, h1, h2⟩ := hcol p hp k out hk
    exact ⟨out, i, f, p.1, v, h1, h2, hv, hz⟩
  · rintro ⟨out, i, f, d, v, h1, h2, hv, hz⟩
    obtain ⟨d', f', g, h3, h4, h5⟩ := h.all _ h1
    simp only at h3 h4
    rw [h2] at h3
    cases h3
    refine ⟨(d, g), h5, out, ?_, v, hv, hz⟩
    simp only
    rw [(h.entry _ h5).out]
    refine List.mem_map.2 ⟨(out, i, f), ?_, rfl⟩
    exact List.mem_filterMap.2 ⟨_, h1, by simp [h2]⟩

end
end Oups.Agg
