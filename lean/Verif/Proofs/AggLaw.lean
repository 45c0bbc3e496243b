import Verif.Proofs.AggregateFrame
import Verif.Proofs.AggregateLaws
import Verif.Proofs.AggKey
/-! The laws of `Spec.AggStream` hold for `cumsegagg`. -/
set_option linter.unusedSimpArgs false
namespace Oups.Agg
open Oups.Segment Oups.Segment.Spec Spec

/-! ### Accumulators of a frame -/

section
variable {D R V : Type} [DecidableEq D]

theorem updGroup_split (O : Ops V) (get : R → Nat → V) {g : Group} {l : List (Nat × Nat × Fn)} (hg : GroupOk g l)
    (xs ys : List R) (r : List V) (p : Bool) (hr : r.length = g.nCols) (hx : xs ≠ []) :
    updGroup O g (ys.map fun row => g.colsIn.map (get row))
      (updGroup O g (xs.map fun row => g.colsIn.map (get row)) r p) true =
      updGroup O g ((xs ++ ys).map fun row => g.colsIn.map (get row)) r p := by
  apply List.ext_getElem?
  intro k
  have hr' : (updGroup O g (xs.map fun row => g.colsIn.map (get row)) r p).length = g.nCols := by
    rw [length_updGroup, hr]
  cases hk : l[k]? with
  | some e =>
    rw [updGroup_get O get hg ys _ true hr' k e hk, updGroup_get O get hg (xs ++ ys) r p hr k e hk,
      List.getD_eq_getElem?_getD, updGroup_get O get hg xs r p hr k e hk, List.map_append]
    simp only [Option.getD_some]
    rw [jagg_append O _ _ _ _ _ (by simpa using hx)]
  | none =>
    have hlen : g.nCols ≤ k := by rw [hg.nCols]; exact List.getElem?_eq_none_iff.1 hk
    rw [List.getElem?_eq_none (by rw [length_updGroup, hr']; exact hlen),
      List.getElem?_eq_none (by rw [length_updGroup, hr]; exact hlen)]

theorem updGroup_fresh (O : Ops V) (get : R → Nat → V) {g : Group} {l : List (Nat × Nat × Fn)} (hg : GroupOk g l)
    (xs : List R) (r s : List V) (hr : r.length = g.nCols) (hs : s.length = g.nCols) (hx : xs ≠ []) :
    updGroup O g (xs.map fun row => g.colsIn.map (get row)) r false =
      updGroup O g (xs.map fun row => g.colsIn.map (get row)) s false := by
  apply List.ext_getElem?
  intro k
  cases hk : l[k]? with
  | some e =>
    have hx' : (xs.map fun row => get row e.2.1) ≠ [] := by simpa using hx
    rw [updGroup_get O get hg xs r false hr k e hk, updGroup_get O get hg xs s false hs k e hk,
      jagg_fresh O _ _ _ hx', jagg_fresh O _ _ _ hx']
  | none =>
    have hlen : g.nCols ≤ k := by rw [hg.nCols]; exact List.getElem?_eq_none_iff.1 hk
    rw [List.getElem?_eq_none (by rw [length_updGroup, hr]; exact hlen),
      List.getElem?_eq_none (by rw [length_updGroup, hs]; exact hlen)]

variable (O : D → Ops V) (get : R → Nat → V)

theorem updCfg_split {dtype : Nat → Option D} {agg : List (Nat × Nat × Option Fn)} {cfg : List (D × Group)}
    (h : ∀ p ∈ cfg, GroupOk p.2 (ofDtype dtype p.1 agg)) (xs ys : List R) (res : List (List V)) (p : Bool)
    (hs : Shaped cfg res) (hx : xs ≠ []) :
    updCfg O get cfg ys (updCfg O get cfg xs res p) true = updCfg O get cfg (xs ++ ys) res p := by
  unfold Shaped at hs
  unfold updCfg
  induction hs with
  | nil => rfl
  | @cons q r cfg res h1 h2 ih =>
    simp only [List.zip_cons_cons, List.map_cons]
    rw [ih (fun p hp => h p (by simp [hp])), updGroup_split (O q.1) get (h q (by simp)) xs ys r p h1 hx]

theorem updCfg_fresh {dtype : Nat → Option D} {agg : List (Nat × Nat × Option Fn)} {cfg : List (D × Group)}
    (h : ∀ p ∈ cfg, GroupOk p.2 (ofDtype dtype p.1 agg)) (xs : List R) (r s : List (List V))
    (hr : Shaped cfg r) (hs : Shaped cfg s) (hx : xs ≠ []) :
    updCfg O get cfg xs r false = updCfg O get cfg xs s false := by
  unfold Shaped at hr hs
  unfold updCfg
  induction hr generalizing s with
  | nil => cases hs; rfl
  | @cons q r cfg res h1 h2 ih =>
    cases hs with
    | cons h3 h4 =>
      simp only [List.zip_cons_cons, List.map_cons]
      rw [ih (fun p hp => h p (by simp [hp])) _ h4, updGroup_fresh (O q.1) get (h q (by simp)) xs _ _ h1 h3 hx]

/-- Accumulators of the right shape. -/
abbrev Acc (V : Type) (cfg : List (D × Group)) := { a : List (List V) // Shaped cfg a }

def accUpd (cfg : List (D × Group)) (xs : List R) (a : Acc V cfg) (p : Bool) : Acc V cfg :=
  ⟨updCfg O get cfg xs a.1 p, shaped_upd O get cfg xs a.1 p a.2⟩

def acc0 (cfg : List (D × Group)) : Acc V cfg := ⟨chunkRes0 O cfg, shaped_zero O cfg⟩

theorem accHom {dtype : Nat → Option D} {agg : List (Nat × Nat × Option Fn)} {cfg : List (D × Group)}
    (h : CfgOk dtype agg cfg) : Hom (accUpd O get cfg) where
  split xs ys a p hx _ := Subtype.ext (updCfg_split O get h.entry xs ys a.1 p a.2 hx)
  fresh xs a b hx := Subtype.ext (updCfg_fresh O get h.entry xs a.1 b.1 a.2 b.2 hx)

theorem value_val (cfg : List (D × Group)) (rows : List R) :
    (value (accUpd O get cfg) (acc0 O cfg) none rows).map Subtype.val =
      value (updCfg O get cfg) (chunkRes0 O cfg) none rows := by
  unfold value
  split <;> rfl

theorem binRes_val (cfg : List (D × Group)) (bins : List (Bin R)) :
    projRows Subtype.val (binRes (accUpd O get cfg) (acc0 O cfg) bins) =
      binRes (updCfg O get cfg) (chunkRes0 O cfg) bins := by
  unfold projRows binRes
  rw [List.map_map]
  apply List.map_congr_left
  intro b _
  simp only [Function.comp, value_val]

theorem snapRes_val (cfg : List (D × Group)) (right : Bool) (pos : R → Int) (bins : List (Bin R)) (pts : List (Int × Int)) :
    projRows Subtype.val (snapRes (accUpd O get cfg) (acc0 O cfg) right pos bins pts) =
      snapRes (updCfg O get cfg) (chunkRes0 O cfg) right pos bins pts := by
  unfold projRows snapRes
  rw [List.map_map]
  apply List.map_congr_left
  intro b _
  simp only [Function.comp, value_val]

/-- Calls on accumulators of the right shape. -/
theorem frameCall_val {B : Type} (cfg : List (D × Group)) (z : List (List V) → Bool) (z' : Acc V cfg → Bool)
    (fn : BinFn R B) (ordered : Option (R → Int)) (sn : Option Snaps) (data : List R) (buf : Option (Buf B (Acc V cfg))) :
    frameCall O get cfg z fn ordered sn false data (buf.map (Buf.proj Subtype.val)) =
      (cumsegagg (accUpd O get cfg) (acc0 O cfg) z' fn ordered sn false data buf).map
        (fun o => (o.1.map (Res.proj Subtype.val), o.2.map (Buf.proj Subtype.val))) :=
  (cumsegagg_proj (upd := accUpd O get cfg) (upd' := updCfg O get cfg) (P := fun _ => True) (π := Subtype.val)
    (fun _ _ _ _ => rfl) (fun _ _ _ _ => trivial) (acc0 O cfg) trivial z' z fn ordered sn data buf
    (fun _ _ _ _ => trivial)).1

end

/-! ### Labels -/

section
variable {R B : Type} {fn : BinFn R B} {pos : R → Int} {c : Closed} {b0 : B} {spec : List R → List (Bin R)}
  {ok : List R → B → Prop}

theorem _root_.Oups.Segment.Lawful.reach (L : Lawful fn pos c b0 spec ok) (h : List R) (hs : AscOn pos h) : ∃ b, ok h b := by
  by_cases hh : h = []
  · exact ⟨b0, hh ▸ L.init⟩
  · obtain ⟨_, b, _, h2, _⟩ := L.step [] h b0 hh (by simpa using hs) L.init
    exact ⟨b, by simpa using h2⟩

/-- Labels of bins do not change as rows are added. -/
theorem _root_.Oups.Segment.Lawful.labels_prefix (L : Lawful fn pos c b0 spec ok) (h p : List R) (hs : AscOn pos (h ++ p)) :
    (spec h).map Bin.label <+: (spec (h ++ p)).map Bin.label := by
  by_cases hp : p = []
  · subst hp; simp
  obtain ⟨b, hb⟩ := L.reach h (hs.sublist (List.sublist_append_left _ _))
  obtain ⟨r, b', h1, h2, h3, h4⟩ := L.step h p b hp hs hb
  obtain ⟨f, tl, hft, hcase⟩ := step_cases L hs h4
  rcases hcase with ⟨rfl, _⟩ | ⟨hne, bs, l, h5, h6, _⟩
  · rw [L.spec_nil]; simp
  · have hl := readBins_labels (u := r.unknownLast) (rows := p) h4.labels_len h4.ends_len h4.ne
    have hf := h4.first_label hne
    rw [hft] at hl
    rw [← hl, h5] at hf
    simp only [List.map_cons, List.head?_cons, List.getLast?_append, List.getLast?_singleton, Option.some_or,
      Option.map_some, Option.some.injEq] at hf
    rw [h5, h6]
    refine ⟨tl.map Bin.label, ?_⟩
    simp [hf]

theorem _root_.Oups.Segment.Lawful.spec_ne (L : Lawful fn pos c b0 spec ok) {h : List R} (hh : h ≠ []) (hs : AscOn pos h) : spec h ≠ [] := by
  obtain ⟨l, hl, _⟩ := spec_last L h hh hs
  intro h0
  rw [h0] at hl; cases hl

theorem glue_ne {α : Type} {X Y n : List α} (hY : Y ≠ []) (hl : X.length ≤ Y.length) (h : Y = X.dropLast ++ n) :
    n ≠ [] := by
  rintro rfl
  have := congrArg List.length h
  have := List.length_pos_iff.2 hY
  simp at *
  omega

/-- Labels in strict order. -/
def StrictLabels (bins : List (Bin R)) : Prop := (bins.map Bin.label).Pairwise (· < ·)

theorem strictLabels_ok {bins : List (Bin R)} (h : StrictLabels bins) : LabelsOk bins :=
  Or.inl (h.imp fun hab => by omega)

theorem gridSpec_strict (right lr : Bool) (a f : Int) (pos : R → Int) (rows : List R) (hf : 0 < f) :
    StrictLabels (gridSpec right lr a f pos rows) := by
  unfold gridSpec
  split
  · unfold StrictLabels gridBins
    rw [List.map_map, List.pairwise_map]
    refine List.Pairwise.imp ?_ List.pairwise_lt_range
    intro i j hij
    generalize cellOf right a f _ = c0
    have h1 := mul_mono hf (show c0 + (i : Int) + 1 ≤ c0 + j by omega)
    have h2 := mul_mono hf (show c0 + (i : Int) + 1 + 1 ≤ c0 + j + 1 by omega)
    simp only [Function.comp]
    rw [Int.mul_add f (c0 + (i : Int)) 1] at h1
    rw [Int.mul_add f (c0 + (i : Int) + 1) 1] at h2
    split <;> omega
  · exact List.Pairwise.nil

theorem gridPts_fst (right lr : Bool) (a f : Int) (pos : R → Int) (rows : List R) :
    (gridPts right lr a f pos rows).map Prod.fst = (gridSpec right lr a f pos rows).map Bin.label := by
  unfold gridPts
  rw [List.map_map]; rfl

end
end Oups.Agg

namespace Oups.AggStream
open Oups.Agg Oups.Agg.Spec Oups.Segment Oups.Segment.Spec
open Oups.Writer (Table Params RG Col DupOn dupCols readRows StrictOn)

section
variable {R A A' B S : Type}

/-- Rows on which results are as expected: in order, with bins in strict order of labels if they are stored. -/
def BinsValid (pos : R → Int) (ordered : Option (R → Int)) (spec : List R → List (Bin R)) (h : List R) : Prop :=
  AscOn pos h ∧ (∀ o, ordered = some o → AscOn o h) ∧ ∀ q, q <+: h → StrictLabels (spec q)

theorem AscOn.left {k : R → Int} {h p : List R} (hs : AscOn k (h ++ p)) : AscOn k h :=
  hs.sublist (List.sublist_append_left _ _)

theorem BinsValid.left {pos : R → Int} {ordered : Option (R → Int)} {spec : List R → List (Bin R)} {h p : List R}
    (hv : BinsValid pos ordered spec (h ++ p)) : BinsValid pos ordered spec h :=
  ⟨AscOn.left hv.1, fun o ho => AscOn.left (hv.2.1 o ho), fun q hq => hv.2.2 q (hq.trans ⟨p, rfl⟩)⟩

/-- Same, with snapshots. -/
def SnapsValid (pos : R → Int) (right needBins : Bool) (spec : List R → List (Bin R)) (pts : List R → List (Int × Int))
    (h : List R) : Prop :=
  AscOn pos h ∧ ∀ q, q <+: h → LabelsOk (spec q) ∧ Separated right pos (spec q) ∧
    (needBins = true → StrictLabels (spec q)) ∧ ((pts q).map Prod.fst).Pairwise (· < ·)

theorem SnapsValid.left {pos : R → Int} {right nb : Bool} {spec : List R → List (Bin R)} {pts : List R → List (Int × Int)}
    {h p : List R} (hv : SnapsValid pos right nb spec pts (h ++ p)) : SnapsValid pos right nb spec pts h :=
  ⟨AscOn.left hv.1, fun q hq => hv.2 q (hq.trans ⟨p, rfl⟩)⟩

section
variable {upd : List R → A → Bool → A} (H : Hom upd) (a0 : A) (z : A → Bool)
variable {fn : BinFn R B} {pos : R → Int} {c : Closed} {b0 : B} {spec : List R → List (Bin R)}
variable {okb : List R → B → Prop} (L : Lawful fn pos c b0 spec okb)

include H L in
theorem callLaw_bins (ordered : Option (R → Int)) :
    CallLaw (BinsValid pos ordered spec) (inPlace (cumsegagg upd a0 z fn ordered none false))
      (fun h => binRes upd a0 (spec h)) none (AggOk upd a0 spec okb (fun _ _ => True)) where
  step := by
    intro h p s res s' hok hp hv hc
    obtain ⟨r, b', h1, h2, h3, h4⟩ := step_bins H a0 z L ordered hp hv.1 hv.2.1
      (strictLabels_ok (hv.2.2 _ (List.prefix_refl _))) hok
    simp only [inPlace, h1, Except.ok.injEq, Prod.mk.injEq, Option.getD_some] at hc
    obtain ⟨rfl, rfl⟩ := hc
    refine ⟨h4, r, rfl, ?_, h3, h2⟩
    refine glue_ne ?_ ?_ h3
    · have := L.spec_ne (h := h ++ p) (by simp [hp]) hv.1
      simpa [binRes] using this
    · simpa [binRes] using (L.labels_prefix h p hv.1).length_le

include H L in
theorem callLaw_snaps {sn : Snaps} {pts : List R → List (Int × Int)} {sok : List R → ScaleBuf → Prop}
    (SL : SnapLaw sn c pos pts sok)
    (hpts : ∀ h p, AscOn pos (h ++ p) → (pts h).map Prod.fst <+: (pts (h ++ p)).map Prod.fst)
    (hne : ∀ h, h ≠ [] → AscOn pos h → pts h ≠ []) (nb : Bool) :
    CallLaw (SnapsValid pos (c == .right) nb spec pts) (inPlace (cumsegagg upd a0 z fn (some pos) (some sn) false))
      (fun h => binRes upd a0 (spec h)) (some fun h => snapRes upd a0 (c == .right) pos (spec h) (pts h))
      (AggOk upd a0 spec okb sok) where
  step := by
    intro h p s res s' hok hp hv hc
    have hv1 := hv.2 _ (List.prefix_refl _)
    obtain ⟨r, b', news, h1, h2, h3, h4, h5⟩ := step_snaps H a0 z L SL hp hv.1 hv1.1
      (hv.2 h ⟨p, rfl⟩).2.1 hv1.2.1 hok
    simp only [inPlace, h1, Except.ok.injEq, Prod.mk.injEq, Option.getD_some] at hc
    obtain ⟨rfl, rfl⟩ := hc
    refine ⟨h5, r, rfl, ?_, h3, news, h2, ?_, h4⟩
    · refine glue_ne ?_ ?_ h3
      · have := L.spec_ne (h := h ++ p) (by simp [hp]) hv.1
        simpa [binRes] using this
      · simpa [binRes] using (L.labels_prefix h p hv.1).length_le
    · refine glue_ne ?_ ?_ h4
      · have := hne (h ++ p) (by simp [hp]) hv.1
        simpa [snapRes] using this
      · simpa [snapRes] using (hpts h p hv.1).length_le

/-! ### Stored rows -/

theorem keys_of_labels {T : Table (Row A)} {on : Col} {d : DupOn} {g : Row A → Row A} (h : ByLabel T on d g)
    {X Y : List (Row A)} (hp : X.map Prod.fst <+: Y.map Prod.fst) :
    (X.map g).map (T.key (dupCols T.cols on d)) <+: (Y.map g).map (T.key (dupCols T.cols on d)) := by
  have e : ∀ l : List (Row A), (l.map g).map (T.key (dupCols T.cols on d)) =
      (l.map Prod.fst).map fun i => T.key (dupCols T.cols on d) (g (i, none)) := by
    intro l
    rw [List.map_map, List.map_map]
    apply List.map_congr_left
    intro r _
    exact h.dup r (r.1, none) rfl
  rw [e, e]
  exact hp.map _

theorem strict_of_labels {T : Table (Row A)} {on : Col} {d : DupOn} {g : Row A → Row A} (h : ByLabel T on d g)
    {X : List (Row A)} (hs : (X.map Prod.fst).Pairwise (· < ·)) : StrictOn (T.get on) (X.map g) := by
  unfold StrictOn
  rw [List.pairwise_map] at hs ⊢
  exact hs.imp fun hab => by rw [h.label, h.label]; exact hab

theorem binRes_fst (upd : List R → A → Bool → A) (a0 : A) (bins : List (Bin R)) :
    (binRes upd a0 bins).map Prod.fst = bins.map Bin.label := by
  unfold binRes; rw [List.map_map]; rfl

theorem snapRes_fst (upd : List R → A → Bool → A) (a0 : A) (right : Bool) (pos : R → Int) (bins : List (Bin R))
    (pts : List (Int × Int)) : (snapRes upd a0 right pos bins pts).map Prod.fst = pts.map Prod.fst := by
  unfold snapRes; rw [List.map_map]; rfl

include L in
theorem streamLaw_bins {V : List R → Prop} (hV : ∀ h, V h → AscOn pos h ∧ StrictLabels (spec h))
    {T : Table (Row A)} {on : Col} {d : DupOn} {g : Row A → Row A}
    (hT : ByLabel T on d g) : StreamLaw V (fun h => binRes upd a0 (spec h)) g T on d where
  nil := by simp [L.spec_nil, binRes]
  keys h p hv := by
    apply keys_of_labels hT
    rw [binRes_fst, binRes_fst]
    exact L.labels_prefix h p (hV _ hv).1
  strict h hv := by
    apply strict_of_labels hT
    rw [binRes_fst]
    exact (hV _ hv).2

theorem streamLaw_snaps {V : List R → Prop} {right : Bool} {pts : List R → List (Int × Int)} (hnil : pts [] = [])
    (hpts : ∀ h p, AscOn pos (h ++ p) → (pts h).map Prod.fst <+: (pts (h ++ p)).map Prod.fst)
    (hV : ∀ h, V h → AscOn pos h ∧ ((pts h).map Prod.fst).Pairwise (· < ·))
    {T : Table (Row A)} {on : Col} {d : DupOn} {g : Row A → Row A} (hT : ByLabel T on d g) :
    StreamLaw V (fun h => snapRes upd a0 right pos (spec h) (pts h)) g T on d where
  nil := by simp [hnil, snapRes]
  keys h p hv := by
    apply keys_of_labels hT
    rw [snapRes_fst, snapRes_fst]
    exact hpts h p (hV _ hv).1
  strict h hv := by
    apply strict_of_labels hT
    rw [snapRes_fst]
    exact (hV _ hv).2

end

/-! ### From accumulators of the right shape to frames -/

theorem projRows_ne {π : A → A'} {l : List (Row A)} (h : l ≠ []) : projRows π l ≠ [] := by
  simpa [projRows] using h

theorem projRows_append (π : A → A') (l m : List (Row A)) : projRows π (l ++ m) = projRows π l ++ projRows π m := by
  simp [projRows]

theorem projRows_dropLast (π : A → A') (l : List (Row A)) : projRows π l.dropLast = (projRows π l).dropLast := by
  simp [projRows, List.map_dropLast]

/-- A law is kept by projection of results and buffers. -/
theorem CallLaw.proj {S' : Type} {V : List R → Prop} {call : List R → S → Except AggErr (Option (Res A) × S)}
    {call' : List R → S' → Except AggErr (Option (Res A') × S')} {FB : List R → List (Row A)}
    {FS : Option (List R → List (Row A))} {ok : List R → S → Prop} (L : CallLaw V call FB FS ok) (π : A → A') (ρ : S → S')
    (hc : ∀ p s, call' p (ρ s) = (call p s).map fun o => (o.1.map (Res.proj π), ρ o.2)) :
    CallLaw V call' (fun h => projRows π (FB h)) (FS.map fun f h => projRows π (f h))
      (fun h s' => ∃ s, s' = ρ s ∧ ok h s) where
  step := by
    intro h p s' res s1 hok hp hv hcall
    obtain ⟨s, rfl, hs⟩ := hok
    rw [hc] at hcall
    obtain ⟨⟨r0, s0⟩, h1, h2⟩ := except_map_ok hcall
    simp only [Prod.mk.injEq] at h2
    obtain ⟨rfl, rfl⟩ := h2
    obtain ⟨h3, r, rfl, h4, h5, h6⟩ := L.step hs hp hv h1
    refine ⟨⟨s0, rfl, h3⟩, r.proj π, rfl, projRows_ne h4, ?_, ?_⟩
    · simp only [Res.proj]
      rw [h5, projRows_append, projRows_dropLast]
    · cases FS with
      | none => simp only [Option.map_none] at *; simp [Res.proj, h6]
      | some f =>
        simp only [Option.map_some] at *
        obtain ⟨sn, h7, h8, h9⟩ := h6
        exact ⟨projRows π sn, by simp [Res.proj, h7], projRows_ne h8, by rw [h9, projRows_append, projRows_dropLast]⟩

end

section
variable {R B D V : Type} [DecidableEq D] (O : D → Ops V) (get : R → Nat → V) {dtype : Nat → Option D}
  {agg : List (Nat × Nat × Option Fn)} {cfg : List (D × Group)} (hc : CfgOk dtype agg cfg)
variable (z : List (List V) → Bool)
variable {fn : BinFn R B} {pos : R → Int} {c : Closed} {b0 : B} {spec : List R → List (Bin R)}
variable {okb : List R → B → Prop} (L : Lawful fn pos c b0 spec okb)

/-- A state of `segagg_buffer` reached by aggregating rows `h`. -/
def FrameOk (cfg : List (D × Group)) (spec : List R → List (Bin R)) (okb : List R → B → Prop)
    (sok : List R → ScaleBuf → Prop) (h : List R) (s : Buf B (List (List V))) : Prop :=
  ∃ s' : Buf B (Acc V cfg), s = s'.proj Subtype.val ∧ AggOk (accUpd O get cfg) (acc0 O cfg) spec okb sok h s'

theorem inPlace_val (z' : Acc V cfg → Bool) (ordered : Option (R → Int)) (sn : Option Snaps) (p : List R)
    (s : Buf B (Acc V cfg)) :
    inPlace (frameCall O get cfg z fn ordered sn false) p (s.proj Subtype.val) =
      (inPlace (cumsegagg (accUpd O get cfg) (acc0 O cfg) z' fn ordered sn false) p s).map
        fun o => (o.1.map (Res.proj Subtype.val), o.2.proj Subtype.val) := by
  have := frameCall_val O get cfg z z' fn ordered sn p (some s)
  simp only [Option.map_some] at this
  unfold inPlace
  rw [this]
  cases cumsegagg (accUpd O get cfg) (acc0 O cfg) z' fn ordered sn false p (some s) with
  | error e => rfl
  | ok o =>
    obtain ⟨r, b⟩ := o
    cases b <;> rfl

theorem frameOk_init {sok : List R → ScaleBuf → Prop} (hs : sok [] {}) (L : Lawful fn pos c b0 spec okb) :
    FrameOk O get cfg spec okb sok [] (Buf.init b0) :=
  ⟨Buf.init b0, rfl, aggOk_init (acc0 O cfg) L hs⟩

/-- The check of zeros (`cumsegagg.py:570`). -/
def zeroCheck {A β : Type} (z : A → Bool) (e0 : Bool) (o : Option (Res A) × β) : Except AggErr (Option (Res A) × β) :=
  match o.1 with
  | none => .ok o
  | some r => if e0 && anyZero z (r.snaps.getD []) then .error .zeroSnap else if e0 && anyZero z r.bins then .error .zeroBin
    else .ok o

theorem zeroCheck_ok {A β : Type} {z : A → Bool} {e0 : Bool} {o o' : Option (Res A) × β} (h : zeroCheck z e0 o = .ok o') :
    o = o' := by
  unfold zeroCheck at h
  split at h
  · simpa using h
  · split at h
    · cases h
    · split at h
      · cases h
      · simpa using h

theorem inPlace_check {A B : Type} (upd : List R → A → Bool → A) (a0 : A) (z : A → Bool) (fn : BinFn R B)
    (ordered : Option (R → Int)) (sn : Option Snaps) (e0 : Bool) (p : List R) (s : Buf B A) :
    inPlace (cumsegagg upd a0 z fn ordered sn e0) p s =
      match inPlace (cumsegagg upd a0 z fn ordered sn false) p s with
      | .error e => .error e
      | .ok o => zeroCheck z e0 o := by
  unfold inPlace cumsegagg
  by_cases hp : p.isEmpty = true
  · simp only [hp, if_true, zeroCheck]
  · simp only [hp, Bool.false_eq_true, if_false]
    cases segmentby fn ordered sn p ((some s).map Buf.seg) with
    | error e => rfl
    | ok x =>
      obtain ⟨g, seg⟩ := x
      simp only [Bool.false_and, Bool.false_eq_true, if_false, zeroCheck]
      generalize jcsagg upd p g.starts g.binIndices _ _ _ = j
      cases g.snapLabels with
      | none =>
        simp only [Option.map_none, Option.getD_none, show anyZero z [] = false from rfl, Bool.and_false, Bool.false_eq_true,
          if_false]
        cases e0 && anyZero z (setNulls g.binLabels j.1) <;> rfl
      | some l =>
        simp only [Option.map_some, Option.getD_some]
        cases e0 && anyZero z (setNulls l j.2.1) <;> cases e0 && anyZero z (setNulls g.binLabels j.1) <;> rfl

theorem CallLaw.check {A B : Type} {upd : List R → A → Bool → A} {a0 : A} {z : A → Bool} {fn : BinFn R B}
    {ordered : Option (R → Int)} {sn : Option Snaps} {V : List R → Prop} {FB : List R → List (Row A)}
    {FS : Option (List R → List (Row A))} {ok : List R → Buf B A → Prop}
    (L : CallLaw V (inPlace (cumsegagg upd a0 z fn ordered sn false)) FB FS ok) (e0 : Bool) :
    CallLaw V (inPlace (cumsegagg upd a0 z fn ordered sn e0)) FB FS ok where
  step := by
    intro h p s res s' hok hp hv hc
    rw [inPlace_check] at hc
    cases hr : inPlace (cumsegagg upd a0 z fn ordered sn false) p s with
    | error e => rw [hr] at hc; cases hc
    | ok o =>
      rw [hr] at hc
      rw [zeroCheck_ok hc] at hr
      exact L.step hok hp hv hr

include hc L in
/-- `cumsegagg` on a frame, without snapshots. -/
theorem frameLaw_bins (ordered : Option (R → Int)) (e0 : Bool) :
    CallLaw (BinsValid pos ordered spec) (inPlace (frameCall O get cfg z fn ordered none e0))
      (fun h => binRes (updCfg O get cfg) (chunkRes0 O cfg) (spec h)) none
      (FrameOk O get cfg spec okb (fun _ _ => True)) := by
  have h1 := callLaw_bins (accHom O get hc) (acc0 O cfg) (fun _ => false) L ordered
  have h2 := h1.proj Subtype.val (Buf.proj Subtype.val)
    (fun p s => inPlace_val O get z (fun _ => false) ordered none p s)
  simp only [binRes_val] at h2
  exact CallLaw.check h2 e0

include hc L in
/-- `cumsegagg` on a frame, with snapshots. -/
theorem frameLaw_snaps {sn : Snaps} {pts : List R → List (Int × Int)} {sok : List R → ScaleBuf → Prop}
    (SL : SnapLaw sn c pos pts sok)
    (hpts : ∀ h p, AscOn pos (h ++ p) → (pts h).map Prod.fst <+: (pts (h ++ p)).map Prod.fst)
    (hne : ∀ h, h ≠ [] → AscOn pos h → pts h ≠ []) (nb e0 : Bool) :
    CallLaw (SnapsValid pos (c == .right) nb spec pts) (inPlace (frameCall O get cfg z fn (some pos) (some sn) e0))
      (fun h => binRes (updCfg O get cfg) (chunkRes0 O cfg) (spec h))
      (some fun h => snapRes (updCfg O get cfg) (chunkRes0 O cfg) (c == .right) pos (spec h) (pts h))
      (FrameOk O get cfg spec okb sok) := by
  have h1 := callLaw_snaps (accHom O get hc) (acc0 O cfg) (fun _ => false) L SL hpts hne nb
  have h2 := h1.proj Subtype.val (Buf.proj Subtype.val)
    (fun p s => inPlace_val O get z (fun _ => false) (some pos) (some sn) p s)
  simp only [binRes_val, snapRes_val, Option.map_some] at h2
  exact CallLaw.check h2 e0

/-! ### One call on all rows -/

include L in
theorem binsValid_of {ordered : Option (R → Int)} {h : List R} (hs : AscOn pos h) (ho : ∀ o, ordered = some o → AscOn o h)
    (hl : StrictLabels (spec h)) : BinsValid pos ordered spec h := by
  refine ⟨hs, ho, ?_⟩
  rintro q ⟨t, rfl⟩
  exact List.Pairwise.sublist (L.labels_prefix q t hs).sublist hl

include hc L in
theorem frame_once_bins (ordered : Option (R → Int)) {w : List R} (hw : w ≠ []) (hs : AscOn pos w)
    (ho : ∀ o, ordered = some o → AscOn o w) (hlab : LabelsOk (spec w)) :
    ∃ one, frameCall O get cfg z fn ordered none false w none = .ok (some one, none) ∧
      one.bins = binRes (updCfg O get cfg) (chunkRes0 O cfg) (spec w) ∧ one.snaps = none := by
  obtain ⟨r, b', h1, h2, h3, h4⟩ := step_bins (accHom O get hc) (acc0 O cfg) (fun _ => false) L ordered
    (h := []) (p := w) (b := Buf.init b0) hw (by simpa using hs) (by simpa using ho) (by simpa using hlab)
    (aggOk_init (acc0 O cfg) L trivial)
  have h5 := frameCall_val O get cfg z (fun _ => false) fn ordered none w (some (Buf.init b0))
  rw [h1] at h5
  simp only [Option.map_some, Except.map] at h5
  have h6 := cumsegagg_noBuf (chunkRes0 O cfg) z L (fun _ => 0) none (by simp) ordered (by simp) false w hw hs h5
  refine ⟨_, h6, ?_, ?_⟩
  · rw [List.nil_append, L.spec_nil] at h3
    simp only [Res.proj]
    rw [← binRes_val, h3]; rfl
  · simp [Res.proj, h2]

include hc L in
theorem frame_once_snaps {sn : Snaps} {pts : List R → List (Int × Int)} {sok : List R → ScaleBuf → Prop}
    (SL : SnapLaw sn c pos pts sok) {w : List R} (hw : w ≠ []) (hs : AscOn pos w) (hlab : LabelsOk (spec w))
    (hsep : Separated (c == .right) pos (spec w)) :
    ∃ one sns, frameCall O get cfg z fn (some pos) (some sn) false w none = .ok (some one, none) ∧
      one.bins = binRes (updCfg O get cfg) (chunkRes0 O cfg) (spec w) ∧ one.snaps = some sns ∧
      sns = snapRes (updCfg O get cfg) (chunkRes0 O cfg) (c == .right) pos (spec w) (pts w) := by
  obtain ⟨r, b', news, h1, h2, h3, h4, h5⟩ := step_snaps (accHom O get hc) (acc0 O cfg) (fun _ => false) L SL
    (h := []) (p := w) (b := Buf.init b0) hw (by simpa using hs) (by simpa using hlab)
    (by rw [L.spec_nil]; trivial) (by simpa using hsep) (aggOk_init (acc0 O cfg) L SL.init)
  have h6 := frameCall_val O get cfg z (fun _ => false) fn (some pos) (some sn) w (some (Buf.init b0))
  rw [h1] at h6
  simp only [Option.map_some, Except.map] at h6
  have h7 := cumsegagg_noBuf (chunkRes0 O cfg) z L pos (some sn)
    (by intro x hx; simp only [Option.some.injEq] at hx; subst hx; exact SL.noBuf) (some pos) (by simp) false w hw hs h6
  refine ⟨_, projRows Subtype.val news, h7, ?_, by simp [Res.proj, h2], ?_⟩
  · rw [List.nil_append, L.spec_nil] at h3
    simp only [Res.proj]
    rw [← binRes_val, h3]; rfl
  · rw [List.nil_append, L.spec_nil, SL.pts_nil] at h4
    rw [← snapRes_val, h4]; rfl

/-! ### Laws of a key -/

variable {K Q S : Type} {key : KeyCfg K R (List (List V)) S Q} {emb : Buf B (List (List V)) → S}

theorem projRows_id {A : Type} (l : List (Row A)) : projRows id l = l := by
  unfold projRows
  conv_rhs => rw [← List.map_id l]
  apply List.map_congr_left
  rintro ⟨i, a⟩ _
  simp

theorem CallLaw.embed {S' A : Type} {V : List R → Prop} {f : List R → S' → Except AggErr (Option (Res A) × S')}
    {call : List R → S → Except AggErr (Option (Res A) × S)} {FB : List R → List (Row A)}
    {FS : Option (List R → List (Row A))} {ok : List R → S' → Prop} (L : CallLaw V f FB FS ok) {emb : S' → S}
    (h : Embeds emb f call) : CallLaw V call FB FS (fun h s => ∃ b, s = emb b ∧ ok h b) := by
  have h1 := L.proj (call' := call) id emb (fun p s => by
    rw [h p s]
    congr 1
    funext o
    cases ho : o.1 with
    | none => rfl
    | some r =>
      obtain ⟨bins, snaps⟩ := r
      cases snaps <;> simp [Res.proj, projRows_id])
  simp only [projRows_id] at h1
  cases FS <;> exact h1

include L in
theorem keyLaws_bins_of {ordered : Option (R → Int)} {ok : List R → S → Prop}
    (hcall : CallLaw (BinsValid pos ordered spec) key.call
      (fun h => binRes (updCfg O get cfg) (chunkRes0 O cfg) (spec h)) none ok)
    (hres : key.resType = .bins) {gB gS : Row (List (List V)) → Row (List (List V))} (hpost : PostRow key gB gS)
    {on : Col} {d : DupOn} (hw : WriteOk key.table key.params on d) (hT : ByLabel key.table on d gB) :
    KeyLaws key (BinsValid pos ordered spec) (fun h => binRes (updCfg O get cfg) (chunkRes0 O cfg) (spec h)) none
      ok gB gS on d where
  call := hcall
  post := hpost
  distinct := by simp [hres]
  wmain := hw
  wsnap := by simpa [KeyCfg.snapPars, hres] using hw
  bins _ := streamLaw_bins _ L (fun h hv => ⟨hv.1, hv.2.2 _ (List.prefix_refl _)⟩) hT
  snaps := by simp [hres]
  valid _ _ hv := hv.left

include hc L in
theorem keyLaws_bins {ordered : Option (R → Int)} {e0 : Bool}
    (hcall : Embeds emb (inPlace (frameCall O get cfg z fn ordered none e0)) key.call)
    (hres : key.resType = .bins) {gB gS : Row (List (List V)) → Row (List (List V))} (hpost : PostRow key gB gS)
    {on : Col} {d : DupOn} (hw : WriteOk key.table key.params on d) (hT : ByLabel key.table on d gB) :
    KeyLaws key (BinsValid pos ordered spec) (fun h => binRes (updCfg O get cfg) (chunkRes0 O cfg) (spec h)) none
      (fun h s => ∃ b, s = emb b ∧ FrameOk O get cfg spec okb (fun _ _ => True) h b) gB gS on d :=
  keyLaws_bins_of O get L ((frameLaw_bins O get hc z L ordered e0).embed hcall) hres hpost hw hT

include L in
theorem keyLaws_snaps_of {sn : Snaps} {pts : List R → List (Int × Int)} {sok : List R → ScaleBuf → Prop}
    (SL : SnapLaw sn c pos pts sok)
    (hpts : ∀ h p, AscOn pos (h ++ p) → (pts h).map Prod.fst <+: (pts (h ++ p)).map Prod.fst) {ok : List R → S → Prop}
    (hcall : CallLaw (SnapsValid pos (c == .right) (decide (key.resType = .both)) spec pts) key.call
      (fun h => binRes (updCfg O get cfg) (chunkRes0 O cfg) (spec h))
      (some fun h => snapRes (updCfg O get cfg) (chunkRes0 O cfg) (c == .right) pos (spec h) (pts h)) ok)
    (hres : key.resType ≠ .bins) (hd : key.resType = .both → key.main ≠ key.snap)
    {gB gS : Row (List (List V)) → Row (List (List V))} (hpost : PostRow key gB gS)
    {on : Col} {d : DupOn} (hw : WriteOk key.table key.params on d)
    (hws : key.resType = .both → WriteOk key.table key.snapParams on d)
    (hT : key.resType = .both → ByLabel key.table on d gB) (hTs : ByLabel key.table on d gS) :
    KeyLaws key (SnapsValid pos (c == .right) (decide (key.resType = .both)) spec pts)
      (fun h => binRes (updCfg O get cfg) (chunkRes0 O cfg) (spec h))
      (some fun h => snapRes (updCfg O get cfg) (chunkRes0 O cfg) (c == .right) pos (spec h) (pts h))
      ok gB gS on d where
  call := hcall
  post := hpost
  distinct := hd
  wmain := hw
  wsnap := by
    unfold KeyCfg.snapPars
    split
    · rename_i h; exact hws h
    · exact hw
  bins hr := by
    have hb : key.resType = .both := by cases h : key.resType <;> simp_all
    exact streamLaw_bins _ L (fun h hv => ⟨hv.1, (hv.2 _ (List.prefix_refl _)).2.2.1 (by simp [hb])⟩) (hT hb)
  snaps _ := ⟨_, rfl, streamLaw_snaps _ SL.pts_nil hpts (fun h hv => ⟨hv.1, (hv.2 _ (List.prefix_refl _)).2.2.2⟩) hTs⟩
  valid _ _ hv := hv.left

include hc L in
theorem keyLaws_snaps {sn : Snaps} {pts : List R → List (Int × Int)} {sok : List R → ScaleBuf → Prop}
    (SL : SnapLaw sn c pos pts sok)
    (hpts : ∀ h p, AscOn pos (h ++ p) → (pts h).map Prod.fst <+: (pts (h ++ p)).map Prod.fst)
    (hne : ∀ h, h ≠ [] → AscOn pos h → pts h ≠ [])
    {e0 : Bool} (hcall : Embeds emb (inPlace (frameCall O get cfg z fn (some pos) (some sn) e0)) key.call)
    (hres : key.resType ≠ .bins) (hd : key.resType = .both → key.main ≠ key.snap)
    {gB gS : Row (List (List V)) → Row (List (List V))} (hpost : PostRow key gB gS)
    {on : Col} {d : DupOn} (hw : WriteOk key.table key.params on d)
    (hws : key.resType = .both → WriteOk key.table key.snapParams on d)
    (hT : key.resType = .both → ByLabel key.table on d gB) (hTs : ByLabel key.table on d gS) :
    KeyLaws key (SnapsValid pos (c == .right) (decide (key.resType = .both)) spec pts)
      (fun h => binRes (updCfg O get cfg) (chunkRes0 O cfg) (spec h))
      (some fun h => snapRes (updCfg O get cfg) (chunkRes0 O cfg) (c == .right) pos (spec h) (pts h))
      (fun h s => ∃ b, s = emb b ∧ FrameOk O get cfg spec okb sok h b) gB gS on d :=
  keyLaws_snaps_of O get L SL hpts ((frameLaw_snaps O get hc z L SL hpts hne _ e0).embed hcall) hres hd hpost hw hws hT hTs

end
end Oups.AggStream
