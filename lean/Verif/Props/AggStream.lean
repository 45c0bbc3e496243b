import Verif.Proofs.AggLaw
import Verif.Proofs.AggRun
import Verif.Props.Aggregate
import Verif.Props.SeedIter
/-! Results stored by an aggregation stream: C48 to C53, C55. -/
set_option linter.unusedSimpArgs false
namespace Oups.AggStream
open Oups.Agg Oups.Agg.Spec Oups.Segment Oups.Segment.Spec
open Oups.Writer (Table Params RG Col DupOn dupCols readRows StrictOn)

/-! ### C48: stored results are those of one aggregation of all rows -/

section
variable {K R A S P Q F : Type} [DecidableEq K] [DecidableEq F]

/-- **C48** For a key whose `cumsegagg` streams results `FB` (`FS` for snapshots), what is stored after calls to `agg` ending
with a final write are the results on all rows received, whatever the calls, their chunks, the memory limit. -/
theorem C48_stored {c : Config K R A S P Q F} (hk : Apart c.keys) {i : Nat} {f : F} {cfg : KeyCfg K R A S Q}
    (hi : c.keys[i]? = some (f, cfg)) {V : List R → Prop} {FB : List R → List (Row A)}
    {FS : Option (List R → List (Row A))} {ok : List R → S → Prop} {gB gS : Row A → Row A} {on : Col} {d : DupOn}
    (L : KeyLaws cfg V FB FS ok gB gS on d) {s s' : State A S P Q} {w w' : World K A (Md S P Q)}
    (hl : s.bufs.length = c.keys.length) {s0 : S} {q0 : Q} (hb : s.bufs[i]? = some { seg := s0, post := q0 })
    (h0 : ok [] s0) (hm : (w cfg.main).rgs = []) (hs : (w cfg.snapKey).rgs = []) {as : List (Call R)} {a : Call R}
    (ha : a.finalWrite = true) (hV : V (received c f (as ++ [a]) s.restart s.pre))
    (h : aggs c (as ++ [a]) s w = .ok (s', w')) :
    (cfg.resType ≠ .snaps →
      readRows (w' cfg.main).rgs = (FB (received c f (as ++ [a]) s.restart s.pre)).map gB) ∧
    (cfg.resType ≠ .bins → ∀ fs, FS = some fs →
      readRows (w' cfg.snapKey).rgs = (fs (received c f (as ++ [a]) s.restart s.pre)).map gS) := by
  obtain ⟨b', w1, h1, h2, h3⟩ := aggs_key hk h hl hi hb
  obtain ⟨ops, r', pb', hops⟩ := keyOpsAll_final c f as ha s.restart s.pre
  have hrows := opRows_keyOpsAll c f (as ++ [a]) s.restart s.pre
  have hok := keyOpsAll_ok c f (as ++ [a]) s.restart s.pre
  simp only at h1
  rw [hops] at h1 hrows hok
  rw [opRows_append] at hrows
  simp only [opRows, List.append_nil] at hrows
  obtain ⟨_, _, e1, e2⟩ := keyRun_final L (h := []) (h0 := []) (ops := ops)
    (fun ch hc => hok ch (List.mem_append_left _ hc)) (by rw [List.nil_append, hrows]; exact hV)
    (KInv.init L h0 hm hs _) h1
  rw [List.nil_append, hrows] at e1 e2
  have m1 := h3 cfg.main (touches_main cfg)
  have m2 := h3 cfg.snapKey (touches_snapKey cfg)
  rw [← m1, ← m2]
  exact ⟨e1, e2⟩

/-- **C48** Two histories, of streams that may differ by chunks, memory limit, row group size, other keys, calls with a
final write: if a key receives the same rows, the same results are stored. -/
theorem C48_same_rows {F' : Type} [DecidableEq F'] {c1 : Config K R A S P Q F} {c2 : Config K R A S P Q F'}
    (hk1 : Apart c1.keys) (hk2 : Apart c2.keys) {i1 i2 : Nat} {f1 : F} {f2 : F'} {k1 k2 : KeyCfg K R A S Q}
    (hi1 : c1.keys[i1]? = some (f1, k1)) (hi2 : c2.keys[i2]? = some (f2, k2)) (ht : k1.resType = k2.resType)
    {V : List R → Prop} {FB : List R → List (Row A)} {FS : Option (List R → List (Row A))} {ok : List R → S → Prop}
    {gB gS : Row A → Row A} {on : Col} {d : DupOn} (L1 : KeyLaws k1 V FB FS ok gB gS on d)
    (L2 : KeyLaws k2 V FB FS ok gB gS on d) {s1 s1' s2 s2' : State A S P Q} {w1 w1' w2 w2' : World K A (Md S P Q)}
    (hl1 : s1.bufs.length = c1.keys.length) (hl2 : s2.bufs.length = c2.keys.length) {s0 : S} {q0 : Q}
    (hb1 : s1.bufs[i1]? = some { seg := s0, post := q0 }) (hb2 : s2.bufs[i2]? = some { seg := s0, post := q0 })
    (h0 : ok [] s0) (hm1 : (w1 k1.main).rgs = []) (hs1 : (w1 k1.snapKey).rgs = [])
    (hm2 : (w2 k2.main).rgs = []) (hs2 : (w2 k2.snapKey).rgs = []) {as1 as2 : List (Call R)} {a1 a2 : Call R}
    (ha1 : a1.finalWrite = true) (ha2 : a2.finalWrite = true)
    (hrows : received c1 f1 (as1 ++ [a1]) s1.restart s1.pre = received c2 f2 (as2 ++ [a2]) s2.restart s2.pre)
    (hV : V (received c1 f1 (as1 ++ [a1]) s1.restart s1.pre))
    (h1 : aggs c1 (as1 ++ [a1]) s1 w1 = .ok (s1', w1')) (h2 : aggs c2 (as2 ++ [a2]) s2 w2 = .ok (s2', w2')) :
    readRows (w1' k1.main).rgs = readRows (w2' k2.main).rgs ∧
      readRows (w1' k1.snapKey).rgs = readRows (w2' k2.snapKey).rgs := by
  obtain ⟨e1, e2⟩ := C48_stored hk1 hi1 L1 hl1 hb1 h0 hm1 hs1 ha1 hV h1
  obtain ⟨e3, e4⟩ := C48_stored hk2 hi2 L2 hl2 hb2 h0 hm2 hs2 ha2 (hrows ▸ hV) h2
  rw [← hrows] at e3 e4
  rw [← ht] at e3 e4
  cases hr : k1.resType with
  | bins =>
    have hr2 : k2.resType = .bins := by rw [← ht, hr]
    have m1 : k1.snapKey = k1.main := by simp [KeyCfg.snapKey, hr]
    have m2 : k2.snapKey = k2.main := by simp [KeyCfg.snapKey, hr2]
    rw [m1, m2, e1 (by simp [hr]), e3 (by simp [hr])]
    exact ⟨rfl, rfl⟩
  | snaps =>
    have hr2 : k2.resType = .snaps := by rw [← ht, hr]
    obtain ⟨fs, hfs, _⟩ := L1.snaps (by simp [hr])
    have m1 : k1.snapKey = k1.main := by simp [KeyCfg.snapKey, hr]
    have m2 : k2.snapKey = k2.main := by simp [KeyCfg.snapKey, hr2]
    have g1 := e2 (by simp [hr]) fs hfs
    have g2 := e4 (by simp [hr]) fs hfs
    rw [m1] at g1 ⊢
    rw [m2] at g2 ⊢
    rw [g1, g2]
    exact ⟨rfl, rfl⟩
  | both =>
    obtain ⟨fs, hfs, _⟩ := L1.snaps (by simp [hr])
    rw [e1 (by simp [hr]), e3 (by simp [hr]), e2 (by simp [hr]) fs hfs, e4 (by simp [hr]) fs hfs]
    exact ⟨rfl, rfl⟩

end

section
variable {K R B D V S P Q F : Type} [DecidableEq K] [DecidableEq F] [DecidableEq D]
variable (O : D → Ops V) (get : R → Nat → V) {dtype : Nat → Option D} {agg : List (Nat × Nat × Option Fn)}
  {gc : List (D × Group)} (z : List (List V) → Bool)
variable {c : Config K R (List (List V)) S P Q F} {i : Nat} {f : F} {cfg : KeyCfg K R (List (List V)) S Q}
  {gB gS : Row (List (List V)) → Row (List (List V))} {on : Col} {d : DupOn}
  {s s' : State (List (List V)) S P Q} {w w' : World K (List (List V)) (Md S P Q)} {q0 : Q} {as : List (Call R)} {a : Call R}

/-- **C48** Key with a `TimeGrouper` for `bin_by`: what is stored is what `cumsegagg` returns on all rows at once, transformed
by `post` if there is one. With or without the check of zeros in the stream (`e0`). -/
theorem C48_time_bins (hk : Apart c.keys) (hi : c.keys[i]? = some (f, cfg))
    (hagg : setupCumsegagg agg dtype = .ok gc) (g : Grouper) (hg : Fixed g) (pos : R → Int) (ordered : Option (R → Int))
    {emb : Buf ScaleBuf (List (List V)) → S}
    {e0 : Bool} (hcall : Embeds emb (inPlace (frameCall O get gc z (grouperFn g pos) ordered none e0)) cfg.call)
    (hres : cfg.resType = .bins) (hpost : PostRow cfg gB gS) (hw : WriteOk cfg.table cfg.params on d)
    (hT : ByLabel cfg.table on d gB) (hl : s.bufs.length = c.keys.length)
    (hb : s.bufs[i]? = some { seg := emb (Buf.init {}), post := q0 }) (hm : (w cfg.main).rgs = [])
    (ha : a.finalWrite = true) (hne : received c f (as ++ [a]) s.restart s.pre ≠ [])
    (hasc : AscOn pos (received c f (as ++ [a]) s.restart s.pre))
    (ho : ∀ o, ordered = some o → AscOn o (received c f (as ++ [a]) s.restart s.pre))
    (h : aggs c (as ++ [a]) s w = .ok (s', w')) :
    ∃ one, frameCall O get gc z (grouperFn g pos) ordered none false (received c f (as ++ [a]) s.restart s.pre) none =
        .ok (some one, none) ∧ readRows (w' cfg.main).rgs = one.bins.map gB := by
  have hc := cfgOk_of hagg
  have hL := grouper_lawful g g.origin0 hg.anchored pos
  have hst := gridSpec_strict (g.closed == .right) g.labelRight g.origin0 g.freq pos
    (received c f (as ++ [a]) s.restart s.pre) hg.anchored.1
  obtain ⟨one, h1, h2, _⟩ := frame_once_bins O get hc z hL ordered hne hasc ho (strictLabels_ok hst)
  have hKL := keyLaws_bins O get hc z hL (ordered := ordered) hcall hres hpost hw hT
  have hms : (w cfg.snapKey).rgs = [] := by simpa [KeyCfg.snapKey, hres] using hm
  obtain ⟨e1, _⟩ := C48_stored hk hi hKL hl hb ⟨_, rfl, frameOk_init O get trivial hL⟩ hm hms ha
    (binsValid_of hL hasc ho hst) h
  exact ⟨one, h1, by rw [e1 (by simp [hres]), h2]⟩

/-- **C48** Key with `by_x_rows` for `bin_by`: same, if results of `cumsegagg` on all rows have labels in strict order. -/
theorem C48_rows_bins (hk : Apart c.keys) (hi : c.keys[i]? = some (f, cfg))
    (hagg : setupCumsegagg agg dtype = .ok gc) (n : Nat) (hn : 0 < n) (cl : Closed) (pos : R → Int)
    (ordered : Option (R → Int)) {emb : Buf (Option RowsBuf) (List (List V)) → S}
    {e0 : Bool} (hcall : Embeds emb (inPlace (frameCall O get gc z (rowsFn n cl pos) ordered none e0)) cfg.call)
    (hres : cfg.resType = .bins) (hpost : PostRow cfg gB gS) (hw : WriteOk cfg.table cfg.params on d)
    (hT : ByLabel cfg.table on d gB) (hl : s.bufs.length = c.keys.length)
    (hb : s.bufs[i]? = some { seg := emb (Buf.init none), post := q0 }) (hm : (w cfg.main).rgs = [])
    (ha : a.finalWrite = true) (hne : received c f (as ++ [a]) s.restart s.pre ≠ [])
    (ho : ∀ o, ordered = some o → AscOn o (received c f (as ++ [a]) s.restart s.pre))
    (h : aggs c (as ++ [a]) s w = .ok (s', w')) :
    ∃ one, frameCall O get gc z (rowsFn n cl pos) ordered none false (received c f (as ++ [a]) s.restart s.pre) none =
        .ok (some one, none) ∧
      ((one.bins.map Prod.fst).Pairwise (· < ·) → readRows (w' cfg.main).rgs = one.bins.map gB) := by
  have hc := cfgOk_of hagg
  have hL := rows_lawful n hn cl pos (fun _ => 0)
  have hasc : AscOn (fun _ => 0) (received c f (as ++ [a]) s.restart s.pre) := by
    unfold AscOn
    exact List.Pairwise.imp (R := fun _ _ => True) (by simp) (List.pairwise_of_forall (by simp))
  obtain ⟨one, h1, h2, _⟩ := frame_once_bins O get hc z hL ordered hne hasc ho (xBins_labels _ n hn pos _)
  have hKL := keyLaws_bins O get hc z hL (ordered := ordered) hcall hres hpost hw hT
  have hms : (w cfg.snapKey).rgs = [] := by simpa [KeyCfg.snapKey, hres] using hm
  refine ⟨one, h1, fun hst => ?_⟩
  rw [h2, binRes_fst] at hst
  obtain ⟨e1, _⟩ := C48_stored hk hi hKL hl hb ⟨_, rfl, frameOk_init O get trivial hL⟩ hm hms ha
    (binsValid_of hL hasc ho hst) h
  rw [e1 (by simp [hres]), h2]

theorem gridPts_prefix (gs : Grouper) (hgs : Fixed gs) (cl : Closed) (pos : R → Int) (h p : List R)
    (hs : AscOn pos (h ++ p)) :
    (gridPts (cl == .right) gs.labelRight gs.origin0 gs.freq pos h).map Prod.fst <+:
      (gridPts (cl == .right) gs.labelRight gs.origin0 gs.freq pos (h ++ p)).map Prod.fst := by
  rw [gridPts_fst, gridPts_fst]
  have hgs' : Fixed { gs with closed := cl } := hgs
  exact (grouper_lawful { gs with closed := cl } gs.origin0 hgs'.anchored pos).labels_prefix h p hs

theorem gridPts_ne (gs : Grouper) (hgs : Fixed gs) (cl : Closed) (pos : R → Int) (h : List R) (hne : h ≠ [])
    (hs : AscOn pos h) : gridPts (cl == .right) gs.labelRight gs.origin0 gs.freq pos h ≠ [] := by
  have hgs' : Fixed { gs with closed := cl } := hgs
  have := (grouper_lawful { gs with closed := cl } gs.origin0 hgs'.anchored pos).spec_ne hne hs
  simpa [gridPts] using this

/-- **C48** Key with snapshots from a `TimeGrouper`, bins from another one: what is stored for snapshots, and for bins with a
pair of keys, is what `cumsegagg` returns on all rows at once. -/
theorem C48_time_snaps (hk : Apart c.keys) (hi : c.keys[i]? = some (f, cfg))
    (hagg : setupCumsegagg agg dtype = .ok gc) (g : Grouper) (hg : Fixed g) (gs : Grouper) (hgs : Fixed gs) (pos : R → Int)
    {emb : Buf ScaleBuf (List (List V)) → S}
    {e0 : Bool}
    (hcall : Embeds emb (inPlace (frameCall O get gc z (grouperFn g pos) (some pos) (some (.grouper gs)) e0)) cfg.call)
    (hres : cfg.resType ≠ .bins) (hd : cfg.resType = .both → cfg.main ≠ cfg.snap) (hpost : PostRow cfg gB gS)
    (hw : WriteOk cfg.table cfg.params on d) (hws : cfg.resType = .both → WriteOk cfg.table cfg.snapParams on d)
    (hT : cfg.resType = .both → ByLabel cfg.table on d gB) (hTs : ByLabel cfg.table on d gS)
    (hl : s.bufs.length = c.keys.length)
    (hb : s.bufs[i]? = some { seg := emb (Buf.init {}), post := q0 }) (hm : (w cfg.main).rgs = [])
    (hms : cfg.resType = .both → (w cfg.snap).rgs = [])
    (ha : a.finalWrite = true) (hne : received c f (as ++ [a]) s.restart s.pre ≠ [])
    (hasc : AscOn pos (received c f (as ++ [a]) s.restart s.pre))
    (h : aggs c (as ++ [a]) s w = .ok (s', w')) :
    ∃ one sns, frameCall O get gc z (grouperFn g pos) (some pos) (some (.grouper gs)) false
        (received c f (as ++ [a]) s.restart s.pre) none = .ok (some one, none) ∧ one.snaps = some sns ∧
      (cfg.resType = .snaps → readRows (w' cfg.main).rgs = sns.map gS) ∧
      (cfg.resType = .both → readRows (w' cfg.main).rgs = one.bins.map gB ∧ readRows (w' cfg.snap).rgs = sns.map gS) := by
  have hc := cfgOk_of hagg
  have hL := grouper_lawful g g.origin0 hg.anchored pos
  have hSL := grouper_snaps gs gs.origin0 hgs.anchored g.closed pos
  have hst : ∀ q, StrictLabels (gridSpec (g.closed == .right) g.labelRight g.origin0 g.freq pos q) := fun q =>
    gridSpec_strict _ _ _ _ _ _ hg.1
  obtain ⟨one, sns, h1, h2, h3, h4⟩ := frame_once_snaps O get hc z hL hSL hne hasc (strictLabels_ok (hst _))
    (gridSpec_sep _ _ _ _ _ _ hg.1)
  have hKL := keyLaws_snaps O get hc z hL hSL (gridPts_prefix gs hgs g.closed pos) (gridPts_ne gs hgs g.closed pos)
    hcall hres hd hpost hw hws hT hTs
  have hms' : (w cfg.snapKey).rgs = [] := by
    unfold KeyCfg.snapKey
    split
    · rename_i h; exact hms h
    · exact hm
  obtain ⟨e1, e2⟩ := C48_stored hk hi hKL hl hb ⟨_, rfl, frameOk_init O get hSL.init hL⟩ hm hms' ha
    ⟨hasc, fun q _ => ⟨strictLabels_ok (hst q), gridSpec_sep _ _ _ _ _ _ hg.1, fun _ => hst q, by
      rw [gridPts_fst]; exact gridSpec_strict _ _ _ _ _ _ hgs.1⟩⟩ h
  refine ⟨one, sns, h1, h3, fun hr => ?_, fun hr => ?_⟩
  · have := e2 hres _ rfl
    rw [show cfg.snapKey = cfg.main by simp [KeyCfg.snapKey, hr]] at this
    rw [this, h4]
  · have := e2 hres _ rfl
    rw [show cfg.snapKey = cfg.snap by simp [KeyCfg.snapKey, hr]] at this
    rw [this, h4, e1 (by simp [hr]), h2]
    exact ⟨rfl, rfl⟩

/-- **C48** Key with snapshots from a `TimeGrouper`, bins from `by_x_rows`: same, for left-closed bins or rows at distinct
positions, and when bins are stored also, if their labels are in strict order. -/
theorem C48_rows_snaps (hk : Apart c.keys) (hi : c.keys[i]? = some (f, cfg))
    (hagg : setupCumsegagg agg dtype = .ok gc) (n : Nat) (hn : 0 < n) (cl : Closed) (gs : Grouper) (hgs : Fixed gs)
    (pos : R → Int) {emb : Buf (Option RowsBuf) (List (List V)) → S}
    {e0 : Bool}
    (hcall : Embeds emb (inPlace (frameCall O get gc z (rowsFn n cl pos) (some pos) (some (.grouper gs)) e0)) cfg.call)
    (hres : cfg.resType ≠ .bins) (hd : cfg.resType = .both → cfg.main ≠ cfg.snap) (hpost : PostRow cfg gB gS)
    (hw : WriteOk cfg.table cfg.params on d) (hws : cfg.resType = .both → WriteOk cfg.table cfg.snapParams on d)
    (hT : cfg.resType = .both → ByLabel cfg.table on d gB) (hTs : ByLabel cfg.table on d gS)
    (hl : s.bufs.length = c.keys.length)
    (hb : s.bufs[i]? = some { seg := emb (Buf.init none), post := q0 }) (hm : (w cfg.main).rgs = [])
    (hms : cfg.resType = .both → (w cfg.snap).rgs = [])
    (ha : a.finalWrite = true) (hne : received c f (as ++ [a]) s.restart s.pre ≠ [])
    (hasc : AscOn pos (received c f (as ++ [a]) s.restart s.pre))
    (hties : cl = .right → (received c f (as ++ [a]) s.restart s.pre).Pairwise (fun x y => pos x < pos y))
    (h : aggs c (as ++ [a]) s w = .ok (s', w')) :
    ∃ one sns, frameCall O get gc z (rowsFn n cl pos) (some pos) (some (.grouper gs)) false
        (received c f (as ++ [a]) s.restart s.pre) none = .ok (some one, none) ∧ one.snaps = some sns ∧
      (cfg.resType = .snaps → readRows (w' cfg.main).rgs = sns.map gS) ∧
      (cfg.resType = .both → (one.bins.map Prod.fst).Pairwise (· < ·) →
        readRows (w' cfg.main).rgs = one.bins.map gB ∧ readRows (w' cfg.snap).rgs = sns.map gS) := by
  have hc := cfgOk_of hagg
  have hL := rows_lawful n hn cl pos pos
  have hSL := grouper_snaps gs gs.origin0 hgs.anchored cl pos
  have hsep : ∀ q, q <+: received c f (as ++ [a]) s.restart s.pre → Separated (cl == .right) pos
      (xBins (cl == .right) n pos q) := fun q hq =>
    xBins_sep _ n hn pos q (List.Pairwise.sublist hq.sublist hasc)
      (fun hr => List.Pairwise.sublist hq.sublist (hties (by simpa using hr)))
  obtain ⟨one, sns, h1, h2, h3, h4⟩ := frame_once_snaps O get hc z hL hSL hne hasc (xBins_labels _ n hn pos _)
    (hsep _ (List.prefix_refl _))
  have hKL := keyLaws_snaps O get hc z hL hSL (gridPts_prefix gs hgs cl pos) (gridPts_ne gs hgs cl pos)
    hcall hres hd hpost hw hws hT hTs
  have hms' : (w cfg.snapKey).rgs = [] := by
    unfold KeyCfg.snapKey
    split
    · rename_i h; exact hms h
    · exact hm
  have hmain := fun hv => C48_stored hk hi hKL hl hb ⟨_, rfl, frameOk_init O get hSL.init hL⟩ hm hms' ha
    (V := SnapsValid pos (cl == .right) (decide (cfg.resType = .both)) (xBins (cl == .right) n pos) _) ⟨hasc, hv⟩ h
  have hpts : ∀ q : List R, ((gridPts (cl == .right) gs.labelRight gs.origin0 gs.freq pos q).map Prod.fst).Pairwise
      (· < ·) := fun q => by rw [gridPts_fst]; exact gridSpec_strict _ _ _ _ _ _ hgs.1
  refine ⟨one, sns, h1, h3, fun hr => ?_, fun hr hst => ?_⟩
  · obtain ⟨e1, e2⟩ := hmain fun q hq => ⟨xBins_labels _ n hn pos _, hsep q hq, by simp [hr], hpts q⟩
    have := e2 hres _ rfl
    rw [show cfg.snapKey = cfg.main by simp [KeyCfg.snapKey, hr]] at this
    rw [this, h4]
  · rw [h2, binRes_fst] at hst
    obtain ⟨e1, e2⟩ := hmain fun q hq => ⟨xBins_labels _ n hn pos _, hsep q hq, fun _ =>
      (binsValid_of (ordered := none) hL hasc (by simp) hst).2.2 q hq, hpts q⟩
    have := e2 hres _ rfl
    rw [show cfg.snapKey = cfg.snap by simp [KeyCfg.snapKey, hr]] at this
    rw [this, h4, e1 (by simp [hr]), h2]
    exact ⟨rfl, rfl⟩

end

/-! ### C48: which rows are received -/

section
variable {K R A S P Q F : Type} [DecidableEq K] [DecidableEq F]

/-- Calls without `trim_start` nor `discard_last`, on seeds in order: no exception is raised while iterating. -/
def PlainCalls (c : Config K R A S P Q F) : List (Call R) → Option Int → P → Prop
  | [], _, _ => True
  | a :: as, r, pb => a.trimStart = false ∧ a.discardLast = false ∧ Ascending c.ord a.seed.flatten ∧
    ∃ ys pb', iterData c.ord r c.pre pb c.filters a.trimStart a.discardLast a.seed = (ys, pb', none) ∧
      PlainCalls c as (restartAfter r ys) pb'

/-- **C48** Without `pre`, calls without `trim_start` nor `discard_last` bring to a key the rows of all seeds that pass its
filter, however they are cut in chunks and in calls. -/
theorem C48_received {c : Config K R A S P Q F} (hpre : c.pre = none) (hn : (c.filters.map Prod.fst).Nodup)
    (p : F → R → Bool) (hf : ∀ f ∈ c.filters, RowFilter f.2 (p f.1)) {f : F × Filt R} (hfm : f ∈ c.filters)
    {as : List (Call R)} {r : Option Int} {pb : P} (h : PlainCalls c as r pb) :
    received c f.1 as r pb = (as.flatMap fun a => a.seed.flatten).filter (p f.1) := by
  have hid : ∀ (pb : P) (l : List (List R)), preprocessed (none : Option (Pre R P)) pb l = l := by
    intro pb l
    induction l with
    | nil => rfl
    | cons x l ih => rw [preprocessed, ih]
  induction as generalizing r pb with
  | nil => rfl
  | cons a as ih =>
    obtain ⟨h1, h2, h3, ys, pb', h4, h5⟩ := h
    simp only [received, h4, List.flatMap_cons, List.filter_append]
    rw [hpre] at h4
    have := C47_delivered hn p hf h4 (by rw [hid]; exact h3) hfm
    rw [ih h5, this, hid, h1, h2]
    simp [notBefore]

/-- Calls with `trim_start` and `discard_last` over a stream `T` that grows: each seed (after `pre`) is made of the first rows
of `T`, possibly without rows that are before the restart index. -/
def GrowingCalls (c : Config K R A S P Q F) (T : List R) : List (Call R) → Option Int → P → Prop
  | [], _, _ => True
  | a :: as, r, pb => a.trimStart = true ∧ a.discardLast = true ∧
    (∃ n d, (preprocessed c.pre pb a.seed).flatten = (T.take n).drop d ∧ ∀ x ∈ T.take d, ∃ t, r = some t ∧ c.ord x < t) ∧
    ∃ ys pb', iterData c.ord r c.pre pb c.filters a.trimStart a.discardLast a.seed = (ys, pb', none) ∧
      GrowingCalls c T as (restartAfter r ys) pb'

theorem growing_runs {c : Config K R A S P Q F} {T : List R} {as : List (Call R)} {r : Option Int} {pb : P}
    (h : GrowingCalls c T as r pb) {ys : List (Yield F R)} (hr : Runs (P := P) c.ord c.pre c.filters T r ys) :
    ∃ ys', Runs (P := P) c.ord c.pre c.filters T (iterAfter c as r pb).1 ys' ∧
      ∀ f, delivered f ys' = delivered f ys ++ received c f as r pb := by
  induction as generalizing r pb ys with
  | nil => exact ⟨ys, hr, fun f => by simp [received]⟩
  | cons a as ih =>
    obtain ⟨h1, h2, ⟨n, d, h3, h4⟩, new, pb', h5, h6⟩ := h
    have h5' := h5
    rw [h1, h2] at h5
    obtain ⟨ys', g1, g2⟩ := ih h6 (.run hr h5 h3 h4)
    refine ⟨ys', by simpa only [iterAfter, h5'] using g1, fun f => ?_⟩
    rw [g2 f, delivered_append]
    simp only [received, h5', List.append_assoc]

/-- **C48** Calls over a growing stream, from the start, followed by one over its first `n` rows, these being not fewer than
what gave the restart index: a key receives, once, the rows that pass its filter, except the last row group. -/
theorem C48_received_growing {c : Config K R A S P Q F} {T : List R} (hT : Ascending c.ord T)
    (hn : (c.filters.map Prod.fst).Nodup) (p : F → R → Bool) (hf : ∀ f ∈ c.filters, RowFilter f.2 (p f.1))
    {f : F × Filt R} (hfm : f ∈ c.filters) {as : List (Call R)} {a : Call R} {pb : P}
    (h : GrowingCalls c T as none pb) (h1 : a.trimStart = true) (h2 : a.discardLast = true) {n d : Nat}
    (hs : (preprocessed c.pre (iterAfter c as none pb).2 a.seed).flatten = (T.take n).drop d)
    (hd : ∀ x ∈ T.take d, ∃ t, (iterAfter c as none pb).1 = some t ∧ c.ord x < t)
    (hgrow : ∀ t, (iterAfter c as none pb).1 = some t → ∃ x ∈ T.take n, c.ord x = t) {ys : List (Yield F R)} {pb' : P}
    (hit : iterData c.ord (iterAfter c as none pb).1 c.pre (iterAfter c as none pb).2 c.filters true true a.seed =
      (ys, pb', none)) :
    received c f.1 (as ++ [a]) none pb = (T.take n).filter fun x => notLast c.ord (T.take n) x && p f.1 x := by
  obtain ⟨ys', g1, g2⟩ := growing_runs h .nil
  have g3 := g2 f.1
  have hsplit : ∀ (as : List (Call R)) (r : Option Int) (pb : P), received c f.1 (as ++ [a]) r pb =
      received c f.1 as r pb ++ received c f.1 [a] (iterAfter c as r pb).1 (iterAfter c as r pb).2 := by
    intro as
    induction as with
    | nil => intro r pb; rfl
    | cons b as ih =>
      intro r pb
      simp only [List.cons_append, received, iterAfter]
      rw [ih, List.append_assoc]
      simp [received]
  have := C46_growing hn p hf hT g1 hit hs hd hgrow hfm
  rw [delivered_append, g3] at this
  rw [hsplit, ← this]
  simp [received, h1, h2, hit, delivered]

end

/-! ### C48: examples -/

/-- Columns: 0 for the label, 1 for the first aggregate. -/
def exT : Table (Row (List (List Int))) :=
  ⟨[0, 1], fun c r => if c = 0 then r.1 else ((r.2.bind List.head?).bind List.head?).getD 0⟩

/-- A sum or a last value is 0. -/
def exZ : List (List Int) → Bool := rowZero (fun _ v => decide (v = 0)) ex_cfg

abbrev ExBuf := Buf ScaleBuf (List (List Int))

/-- Sum and last value for bins of length 10; the memory usage of results is their number of rows. -/
def exKey (main maxSize : Nat) : KeyCfg Nat (Int × Int) (List (List Int)) ExBuf Unit where
  main := main
  snap := main
  call := inPlace (frameCall (fun _ => intOps) ex_get ex_cfg exZ (grouperFn { freq := 10 } Prod.fst) none none true)
  mem := List.length
  maxSize := maxSize
  table := exT
  params := { orderedOn := some (.col 0), dupOn := some (.one 0) }

variable {S : Type}

def exConf (keys : List (Nat × KeyCfg Nat (Int × Int) (List (List Int)) S Unit)) :
    Config Nat (Int × Int) (List (List Int)) S Unit Unit Nat where
  ord := Prod.fst
  filters := [(0, none)]
  keys := keys
  truthy := fun i => decide (i ≠ 0)

/-- `n` new keys. -/
def exState (n : Nat) (s0 : S) : State (List (List Int)) S Unit Unit :=
  ⟨none, (), List.replicate n { seg := s0, post := () }⟩

abbrev ExWorld (S : Type) := World Nat (List (List Int)) (Md S Unit Unit)

def exWorld : ExWorld S := fun _ => {}

/-- Row groups of dataset `k`. -/
def exStored (k : Nat) (r : Except Err (State (List (List Int)) S Unit Unit × ExWorld S)) :
    Option (List (List (Row (List (List Int))))) :=
  r.toOption.map fun x => (x.2 k).rgs.map RG.rows

def exSeed1 : List (List (Int × Int)) := [[(1, 1), (12, 2)], [(13, 4), (25, 8)]]
def exSeed2 : List (List (Int × Int)) := [[(26, 16), (38, 32)], [(39, 64), (41, 128)]]

-- results are kept in memory, or written on the way, or written at the end of each call
example :
    exStored 0 (aggs (exConf [(0, exKey 0 100)]) [⟨exSeed1 ++ exSeed2, false, false, true⟩] (exState 1 (Buf.init {})) exWorld) =
      some [[(0, some [[1, 1]]), (10, some [[6, 4]]), (20, some [[24, 16]]), (30, some [[96, 64]]), (40, some [[128, 128]])]] ∧
    exStored 0 (aggs (exConf [(0, exKey 0 1)]) [⟨exSeed1 ++ exSeed2, false, false, true⟩] (exState 1 (Buf.init {})) exWorld) =
      some [[(0, some [[1, 1]]), (10, some [[6, 4]])],
        [(20, some [[24, 16]]), (30, some [[96, 64]]), (40, some [[128, 128]])]] ∧
    exStored 0 (aggs (exConf [(0, exKey 0 1)]) [⟨exSeed1, false, false, true⟩, ⟨exSeed2, false, false, true⟩] (exState 1 (Buf.init {})) exWorld) =
      some [[(0, some [[1, 1]]), (10, some [[6, 4]]), (20, some [[24, 16]]), (30, some [[96, 64]]), (40, some [[128, 128]])]] ∧
    ((frameCall (fun _ => intOps) ex_get ex_cfg exZ (grouperFn { freq := 10 } Prod.fst) none none false
      (exSeed1 ++ exSeed2).flatten none).toOption.bind Prod.fst).map Res.bins =
      some [(0, some [[1, 1]]), (10, some [[6, 4]]), (20, some [[24, 16]]), (30, some [[96, 64]]), (40, some [[128, 128]])] :=
  ⟨rfl, rfl, rfl, rfl⟩

theorem exKey_byLabel : ByLabel exT 0 (.one 0) id where
  label r := rfl
  dup r r' h := by
    rw [show dupCols exT.cols 0 (.one 0) = [0] by decide]
    simp [Table.key, exT, h]

-- hypotheses of `C48_time_bins` and `C48_received` hold for this key
example : Apart (exConf [(0, exKey 0 1)]).keys ∧
    Embeds id (inPlace (frameCall (fun _ => intOps) ex_get ex_cfg exZ (grouperFn { freq := 10 } Prod.fst) none none
      true)) (exKey 0 1).call ∧
    PostRow (exKey 0 1) id id ∧ WriteOk (exKey 0 1).table (exKey 0 1).params 0 (.one 0) ∧
    PlainCalls (exConf [(0, exKey 0 1)]) [⟨exSeed1, false, false, true⟩, ⟨exSeed2, false, false, true⟩] none () := by
  refine ⟨by simp [Apart, exConf], fun p b => ?_, ⟨rfl, rfl⟩, ⟨rfl, rfl, by decide, by decide⟩, rfl, rfl, ?_, _, _, rfl, rfl, rfl, ?_,
    _, _, rfl, trivial⟩
  · simp only [exKey, id]
    cases inPlace (frameCall (fun _ => intOps) ex_get ex_cfg exZ (grouperFn { freq := 10 } Prod.fst) none none
      true) p b <;> rfl
  · simp [Ascending, exSeed1, exConf]
  · simp [Ascending, exSeed2, exConf]

/-- A write on the way when there is no definitive row yet: the frame is empty, and writing it in a dataset that has rows
raises `IndexError`. Here the second call goes on in the last bin. -/
theorem C48_empty_write_fails :
    aggs (exConf [(0, exKey 0 0)]) [⟨[[(1, 1)]], false, false, true⟩, ⟨[[(2, 2)], [(3, 4)], [(4, 8)]], false, false, true⟩]
      (exState 1 (Buf.init {})) exWorld = .error (.write .indexError) ∧
    exStored 0 (aggs (exConf [(0, exKey 0 100)])
      [⟨[[(1, 1)]], false, false, true⟩, ⟨[[(2, 2)], [(3, 4)], [(4, 8)]], false, false, true⟩]
      (exState 1 (Buf.init {})) exWorld) = some [[(0, some [[15, 8]])]] := by
  constructor <;> rfl

/-- Bins of `n` rows, labelled by their first row. -/
def exRows (n maxSize : Nat) : KeyCfg Nat (Int × Int) (List (List Int)) (Buf (Option RowsBuf) (List (List Int))) Unit where
  main := 0
  snap := 0
  call := inPlace (frameCall (fun _ => intOps) ex_get ex_cfg exZ (rowsFn n .left Prod.fst) none none true)
  mem := List.length
  maxSize := maxSize
  table := exT
  params := { orderedOn := some (.col 0), dupOn := some (.one 0) }

-- bins of two rows, the last one being completed by the second call
example : exStored 0 (aggs (exConf [(0, exRows 2 0)])
      [⟨[[(1, 1), (2, 2)], [(3, 4)]], false, false, true⟩, ⟨[[(4, 8)], [(5, 16)]], false, false, true⟩]
      (exState 1 (Buf.init none)) exWorld) =
    some [[(1, some [[3, 2]]), (3, some [[12, 8]]), (5, some [[16, 16]])]] := rfl

/-- Bins with the same label are duplicates for the store: the aggregates of the first bin `(1, 1), (1, 2)` are lost by the
second write, though not if all is written at once. -/
theorem C48_tied_labels_fails :
    exStored 0 (aggs (exConf [(0, exRows 2 100)])
      [⟨[[(1, 1), (1, 2), (1, 4)]], false, false, true⟩, ⟨[[(1, 8), (2, 16)]], false, false, true⟩]
      (exState 1 (Buf.init none)) exWorld) = some [[(1, some [[12, 8]]), (2, some [[16, 16]])]] ∧
    exStored 0 (aggs (exConf [(0, exRows 2 100)])
      [⟨[[(1, 1), (1, 2), (1, 4)], [(1, 8), (2, 16)]], false, false, true⟩]
      (exState 1 (Buf.init none)) exWorld) =
        some [[(1, some [[3, 2]]), (1, some [[12, 8]]), (2, some [[16, 16]])]] := ⟨rfl, rfl⟩

/-- With `ordered_on` being an aggregate that changes as rows are added, here the sum, the row of the bin in progress is
not recognized as a duplicate and remains. -/
theorem C48_ordered_on_fails :
    exStored 0 (aggs (exConf [(0, { exKey 0 100 with params := { orderedOn := some (.col 1), dupOn := some (.one 0) } })])
      [⟨[[(1, 1), (2, 2)]], false, false, true⟩, ⟨[[(3, 4), (12, 8)]], false, false, true⟩]
      (exState 1 (Buf.init {})) exWorld) = some [[(0, some [[3, 2]])], [(0, some [[7, 4]]), (10, some [[8, 8]])]] ∧
    exStored 0 (aggs (exConf [(0, exKey 0 100)])
      [⟨[[(1, 1), (2, 2)]], false, false, true⟩, ⟨[[(3, 4), (12, 8)]], false, false, true⟩]
      (exState 1 (Buf.init {})) exWorld) = some [[(0, some [[7, 4]]), (10, some [[8, 8]])]] := ⟨rfl, rfl⟩

/-- `exKey` with `max_nirgs`. -/
def exNirgs (maxSize maxRg maxNirgs : Nat) : KeyCfg Nat (Int × Int) (List (List Int)) ExBuf Unit :=
  { exKey 0 maxSize with
    params := { orderedOn := some (.col 0), dupOn := some (.one 0), maxRg := some maxRg, maxNirgs := some maxNirgs } }

-- C48 with `max_nirgs`: the hypotheses on writes hold, and row groups are coalesced
example : WriteOk (exNirgs 0 4 2).table (exNirgs 0 4 2).params 0 (.one 0) ∧
    exStored 0 (aggs (exConf [(0, exNirgs 0 4 2)]) [⟨[[(1, 1)]], false, false, true⟩,
      ⟨[[(2, 2), (12, 4)], [(23, 8)], [(34, 16)]], false, false, true⟩,
      ⟨[[(35, 32), (46, 64)], [(57, 128)]], false, false, true⟩] (exState 1 (Buf.init {})) exWorld) =
    some [[(0, some [[3, 2]]), (10, some [[4, 4]]), (20, some [[8, 8]])],
      [(30, some [[48, 32]]), (40, some [[64, 64]]), (50, some [[128, 128]])]] :=
  ⟨⟨rfl, rfl, by decide, by decide⟩, rfl⟩

/-- With `max_nirgs`, a write that appends to a dataset whose row groups are all complete raises. -/
theorem C48_max_nirgs_fails :
    aggs (exConf [(0, { exKey 0 100 with
        params := { orderedOn := some (.col 0), dupOn := some (.one 0), maxRg := some 2, maxNirgs := some 0 } })])
      [⟨[[(1, 1), (12, 2)]], false, false, true⟩, ⟨[[(23, 4), (34, 8)], [(45, 16)]], false, false, true⟩]
      (exState 1 (Buf.init {})) exWorld = .error (.write .noFiles) := rfl

/-- Snapshots every 5, bins of 10. -/
def exBoth (maxSize : Nat) (post : Option (Post (Row (List (List Int))) Unit)) :
    KeyCfg Nat (Int × Int) (List (List Int)) ExBuf Unit where
  main := 0
  snap := 1
  resType := .both
  call := inPlace (frameCall (fun _ => intOps) ex_get ex_cfg exZ (grouperFn { freq := 10 } Prod.fst)
    (some Prod.fst) (some (.grouper { freq := 5, labelRight := true })) true)
  mem := List.length
  maxSize := maxSize
  table := exT
  params := { orderedOn := some (.col 0), dupOn := some (.one 0) }
  post := post

def exSeedB : List (List (Int × Int)) := [[(1, 1), (2, 2)], [(7, 4), (12, 8)], [(13, 16)]]

-- bins and snapshots; writes on the way or not
example :
    exStored 0 (aggs (exConf [(0, exBoth 100 none)]) [⟨exSeedB, false, false, true⟩] (exState 1 (Buf.init {})) exWorld) =
      some [[(0, some [[7, 4]]), (10, some [[24, 16]])]] ∧
    exStored 1 (aggs (exConf [(0, exBoth 100 none)]) [⟨exSeedB, false, false, true⟩] (exState 1 (Buf.init {})) exWorld) =
      some [[(5, some [[3, 2]]), (10, some [[7, 4]]), (15, some [[24, 16]])]] ∧
    exStored 1 (aggs (exConf [(0, exBoth 3 none)]) [⟨exSeedB, false, false, true⟩] (exState 1 (Buf.init {})) exWorld) =
      some [[(5, some [[3, 2]]), (10, some [[7, 4]]), (15, some [[24, 16]])]] ∧
    ((frameCall (fun _ => intOps) ex_get ex_cfg exZ (grouperFn { freq := 10 } Prod.fst)
      (some Prod.fst) (some (.grouper { freq := 5, labelRight := true })) false exSeedB.flatten none).toOption.bind Prod.fst) =
      some ⟨[(0, some [[7, 4]]), (10, some [[24, 16]])],
        some [(5, some [[3, 2]]), (10, some [[7, 4]]), (15, some [[24, 16]])]⟩ := ⟨rfl, rfl, rfl, rfl⟩

/-- For a pair of keys, a `post` that returns one frame of two columns instead of two frames: nothing is stored, without any
exception. -/
theorem C48_post_frame_fails :
    exStored 0 (aggs (exConf [(0, exBoth 100 (some fun q bins _ => (q, .one bins)))]) [⟨exSeedB, false, false, true⟩]
      (exState 1 (Buf.init {})) exWorld) = some [] ∧
    exStored 1 (aggs (exConf [(0, exBoth 100 (some fun q bins _ => (q, .one bins)))]) [⟨exSeedB, false, false, true⟩]
      (exState 1 (Buf.init {})) exWorld) = some [] := ⟨rfl, rfl⟩

theorem exEmbeds {R S A : Type} (call : List R → S → Except AggErr (Option (Res A) × S)) : Embeds id call call := by
  intro p b
  simp only [id]
  cases call p b <;> rfl

/-- Two calls on `exSeed1` and `exSeed2`. -/
def exTwoCalls : List (Call (Int × Int)) := [⟨exSeed1, false, false, true⟩, ⟨exSeed2, false, false, true⟩]

-- `C48_time_bins` for two calls, with a write on the way
example : ∃ s' w', aggs (exConf [(0, exKey 0 1)]) exTwoCalls (exState 1 (Buf.init {})) exWorld = .ok (s', w') ∧
    ∃ one, frameCall (fun _ => intOps) ex_get ex_cfg exZ (grouperFn { freq := 10 } Prod.fst) none none false
        (received (exConf [(0, exKey 0 1)]) 0 exTwoCalls none ()) none = .ok (some one, none) ∧
      readRows (w' 0).rgs = one.bins.map id := by
  refine ⟨_, _, rfl, C48_time_bins (emb := id) (e0 := true) (gB := id) (gS := id) (on := 0) (d := .one 0) (q0 := ())
    (s := exState 1 (Buf.init {})) (w := exWorld) (i := 0) (f := 0) (c := exConf [(0, exKey 0 1)]) (cfg := exKey 0 1)
    (as := [⟨exSeed1, false, false, true⟩]) (a := ⟨exSeed2, false, false, true⟩) (fun _ : Unit => intOps) ex_get
    (dtype := fun _ => some ()) (agg := [(0, 0, some .sum), (1, 0, some .last)]) (gc := ex_cfg) exZ (by simp [Apart, exConf]) rfl rfl
    { freq := 10 } ⟨by decide, .inr (.inr ⟨rfl, by decide⟩)⟩ Prod.fst none (exEmbeds _) rfl ⟨rfl, rfl⟩
    ⟨rfl, rfl, by decide, by decide⟩ exKey_byLabel rfl rfl rfl rfl ?_ ?_ (by simp) rfl⟩
  · show [((1 : Int), (1 : Int)), (12, 2), (13, 4), (25, 8), (26, 16), (38, 32), (39, 64), (41, 128)] ≠ []
    simp
  · show AscOn _ [((1 : Int), (1 : Int)), (12, 2), (13, 4), (25, 8), (26, 16), (38, 32), (39, 64), (41, 128)]
    simp [AscOn]

-- `C48_rows_bins` for the same calls, in bins of three rows
example : ∃ s' w', aggs (exConf [(0, exRows 3 1)]) exTwoCalls (exState 1 (Buf.init none)) exWorld = .ok (s', w') ∧
    ∃ one, frameCall (fun _ => intOps) ex_get ex_cfg exZ (rowsFn 3 .left Prod.fst) none none false
        (received (exConf [(0, exRows 3 1)]) 0 exTwoCalls none ()) none = .ok (some one, none) ∧
      ((one.bins.map Prod.fst).Pairwise (· < ·) → readRows (w' 0).rgs = one.bins.map id) := by
  refine ⟨_, _, rfl, C48_rows_bins (emb := id) (e0 := true) (gB := id) (gS := id) (on := 0) (d := .one 0) (q0 := ())
    (s := exState 1 (Buf.init none)) (w := exWorld) (i := 0) (f := 0) (c := exConf [(0, exRows 3 1)]) (cfg := exRows 3 1)
    (as := [⟨exSeed1, false, false, true⟩]) (a := ⟨exSeed2, false, false, true⟩) (fun _ : Unit => intOps) ex_get
    (dtype := fun _ => some ()) (agg := [(0, 0, some .sum), (1, 0, some .last)]) (gc := ex_cfg) exZ (by simp [Apart, exConf]) rfl rfl
    3 (by decide) .left Prod.fst none (exEmbeds _) rfl ⟨rfl, rfl⟩
    ⟨rfl, rfl, by decide, by decide⟩ exKey_byLabel rfl rfl rfl rfl ?_ (by simp) rfl⟩
  show [((1 : Int), (1 : Int)), (12, 2), (13, 4), (25, 8), (26, 16), (38, 32), (39, 64), (41, 128)] ≠ []
  simp

-- `C48_time_snaps` for a pair of keys, bins and snapshots
example : ∃ s' w', aggs (exConf [(0, exBoth 3 none)]) [⟨exSeedB, false, false, true⟩] (exState 1 (Buf.init {})) exWorld = .ok (s', w') ∧
    ∃ one sns, frameCall (fun _ => intOps) ex_get ex_cfg exZ (grouperFn { freq := 10 } Prod.fst) (some Prod.fst)
        (some (.grouper { freq := 5, labelRight := true })) false
        (received (exConf [(0, exBoth 3 none)]) 0 [⟨exSeedB, false, false, true⟩] none ()) none = .ok (some one, none) ∧
      one.snaps = some sns ∧ (ResType.both = .snaps → readRows (w' 0).rgs = sns.map id) ∧
      (ResType.both = .both → readRows (w' 0).rgs = one.bins.map id ∧ readRows (w' 1).rgs = sns.map id) := by
  refine ⟨_, _, rfl, C48_time_snaps (emb := id) (e0 := true) (gB := id) (gS := id) (on := 0) (d := .one 0) (q0 := ())
    (s := exState 1 (Buf.init {})) (w := exWorld) (i := 0) (f := 0) (c := exConf [(0, exBoth 3 none)]) (cfg := exBoth 3 none)
    (as := []) (a := ⟨exSeedB, false, false, true⟩) (fun _ : Unit => intOps) ex_get
    (dtype := fun _ => some ()) (agg := [(0, 0, some .sum), (1, 0, some .last)]) (gc := ex_cfg) exZ (by simp [Apart, exConf]) rfl rfl
    { freq := 10 } ⟨by decide, .inr (.inr ⟨rfl, by decide⟩)⟩ { freq := 5, labelRight := true }
    ⟨by decide, .inr (.inr ⟨rfl, by decide⟩)⟩ Prod.fst (exEmbeds _) (by simp [exBoth]) (by simp [exBoth])
    ⟨rfl, rfl⟩ ⟨rfl, rfl, by decide, by decide⟩ (fun _ => ⟨rfl, rfl, by decide, by decide⟩) (fun _ => exKey_byLabel)
    exKey_byLabel rfl rfl rfl (fun _ => rfl) rfl ?_ ?_ rfl⟩
  · show [((1 : Int), (1 : Int)), (2, 2), (7, 4), (12, 8), (13, 16)] ≠ []
    simp
  · show AscOn _ [((1 : Int), (1 : Int)), (2, 2), (7, 4), (12, 8), (13, 16)]
    simp [AscOn]

/-- Snapshots every 5 alone, bins of two rows. -/
def exRowSnaps (maxSize : Nat) : KeyCfg Nat (Int × Int) (List (List Int)) (Buf (Option RowsBuf) (List (List Int))) Unit where
  main := 0
  snap := 0
  resType := .snaps
  call := inPlace (frameCall (fun _ => intOps) ex_get ex_cfg exZ (rowsFn 2 .left Prod.fst)
    (some Prod.fst) (some (.grouper { freq := 5, labelRight := true })) true)
  mem := List.length
  maxSize := maxSize
  table := exT
  params := { orderedOn := some (.col 0), dupOn := some (.one 0) }

-- `C48_rows_snaps` for snapshots of bins of two rows
example : ∃ s' w', aggs (exConf [(0, exRowSnaps 3)]) [⟨exSeedB, false, false, true⟩] (exState 1 (Buf.init none)) exWorld = .ok (s', w') ∧
    ∃ one sns, frameCall (fun _ => intOps) ex_get ex_cfg exZ (rowsFn 2 .left Prod.fst) (some Prod.fst)
        (some (.grouper { freq := 5, labelRight := true })) false
        (received (exConf [(0, exRowSnaps 3)]) 0 [⟨exSeedB, false, false, true⟩] none ()) none = .ok (some one, none) ∧
      one.snaps = some sns ∧ (ResType.snaps = .snaps → readRows (w' 0).rgs = sns.map id) ∧
      (ResType.snaps = .both → (one.bins.map Prod.fst).Pairwise (· < ·) →
        readRows (w' 0).rgs = one.bins.map id ∧ readRows (w' 0).rgs = sns.map id) := by
  refine ⟨_, _, rfl, C48_rows_snaps (emb := id) (e0 := true) (gB := id) (gS := id) (on := 0) (d := .one 0) (q0 := ())
    (s := exState 1 (Buf.init none)) (w := exWorld) (i := 0) (f := 0) (c := exConf [(0, exRowSnaps 3)]) (cfg := exRowSnaps 3)
    (as := []) (a := ⟨exSeedB, false, false, true⟩) (fun _ : Unit => intOps) ex_get
    (dtype := fun _ => some ()) (agg := [(0, 0, some .sum), (1, 0, some .last)]) (gc := ex_cfg) exZ (by simp [Apart, exConf]) rfl rfl
    2 (by decide) .left { freq := 5, labelRight := true }
    ⟨by decide, .inr (.inr ⟨rfl, by decide⟩)⟩ Prod.fst (exEmbeds _) (by simp [exRowSnaps]) (by simp [exRowSnaps])
    ⟨rfl, rfl⟩ ⟨rfl, rfl, by decide, by decide⟩ (fun _ => ⟨rfl, rfl, by decide, by decide⟩) (fun _ => exKey_byLabel)
    exKey_byLabel rfl rfl rfl (fun _ => rfl) rfl ?_ ?_ (by simp) rfl⟩
  · show [((1 : Int), (1 : Int)), (2, 2), (7, 4), (12, 8), (13, 16)] ≠ []
    simp
  · show AscOn _ [((1 : Int), (1 : Int)), (2, 2), (7, 4), (12, 8), (13, 16)]
    simp [AscOn]

-- `C48_received` for two calls
example : received (exConf [(0, exKey 0 1)]) 0 exTwoCalls none () =
    (exTwoCalls.flatMap fun a => a.seed.flatten).filter fun _ => true :=
  C48_received (c := exConf [(0, exKey 0 1)]) rfl (by simp [exConf]) (fun _ _ => true)
    (fun f hf => by obtain rfl : f = (0, none) := by simpa [exConf] using hf
                    exact fun _ => rfl)
    (f := (0, none)) (by simp [exConf])
    ⟨rfl, rfl, by simp [Ascending, exSeed1, exConf], _, _, rfl, rfl, rfl, by simp [Ascending, exSeed2, exConf], _, _, rfl, trivial⟩

-- `C48_received_growing`: the second call is given a seed with one more row
example : received (exConf [(0, exKey 0 1)]) 0 [⟨[[(1, 1), (2, 2)]], true, true, true⟩, ⟨[[(1, 1), (2, 2)], [(3, 4)]], true, true, true⟩]
      none () =
    ([(1, 1), (2, 2), (3, 4)] : List (Int × Int)).filter fun x => notLast Prod.fst [(1, 1), (2, 2), (3, 4)] x && true := by
  refine C48_received_growing (c := exConf [(0, exKey 0 1)]) (T := [(1, 1), (2, 2), (3, 4), (4, 8)]) (by simp [Ascending, exConf])
    (by simp [exConf]) (fun _ _ => true) (fun f hf => ?_) (f := (0, none)) (by simp [exConf])
    (as := [⟨[[(1, 1), (2, 2)]], true, true, true⟩]) (a := ⟨[[(1, 1), (2, 2)], [(3, 4)]], true, true, true⟩) (pb := ()) (n := 3) (d := 0)
    ⟨rfl, rfl, ⟨2, 0, rfl, by simp⟩, _, _, rfl, trivial⟩ rfl rfl rfl (by simp) (fun t ht => ?_) rfl
  · obtain rfl : f = (0, none) := by simpa [exConf] using hf
    exact fun _ => rfl
  · obtain rfl : (2 : Int) = t := by simpa using (show some 2 = some t from ht)
    exact ⟨(2, 2), by simp, rfl⟩

end Oups.AggStream
