import Verif.Props.AggLife
import Verif.Props.Calendar
/-! C67: any number of sessions and stops, and which calls do not raise, for `TimeGrouper`s of fixed and calendar frequencies. -/
set_option linter.unusedSimpArgs false
namespace Oups.AggStream
open Oups.Writer (Table Params RG Col DupOn dupCols readRows StrictOn)
open Oups.Agg Oups.Agg.Spec Oups.Segment Oups.Segment.Spec

/-! ### Frequencies -/

/-- A `TimeGrouper`, of a fixed or of a calendar frequency. -/
inductive Freq where
  | fixed (g : Grouper)
  | calendar (c : Calendar)

namespace Freq

/-- As `bin_by`. -/
def fn {R : Type} (pos : R → Int) : Freq → BinFn R ScaleBuf
  | fixed g => grouperFn g pos
  | calendar c => calendarFn c pos

/-- As `snap_by`. -/
def snaps : Freq → Snaps
  | fixed g => .grouper g
  | calendar c => .calendar c

/-- Its own closure. -/
def closed : Freq → Closed
  | fixed g => g.closed
  | calendar c => c.closed

/-- Edges do not depend on where a call starts, for bins or snapshots of closure `cl`. -/
def Ok (cl : Closed) : Freq → Prop
  | fixed g => Fixed g
  | calendar c => c.Ok ∧ (c.n = 1 ∨ cl = .right)

/-- The bins between its edges, from that of the first row to that of the last one. -/
def IsBins {R : Type} (cl : Closed) (pos : R → Int) (rows : List R) (bins : List (Bin R)) : Freq → Prop
  | fixed g => IsGrid (cl == .right) g.labelRight g.origin0 g.freq pos rows bins
  | calendar c => IsCalendar (cl == .right) c.labelRight c.off.date c.n c.day pos rows bins

end Freq

/-- Two frames in a row end between different dates, dates being taken every `n` of them from that of the first row. -/
def NewSpan {R : Type} (right : Bool) (date : Int → Int) (n day : Int) (pos : R → Int) (fs : List (List R)) : Prop :=
  ∀ pre p q post, fs = pre ++ p :: q :: post → ∀ o ∈ fs.flatten.head?, ∀ x ∈ p.getLast?, ∀ y ∈ q.getLast?,
    ∀ i k, FirstDate right date n day i (pos o) → InSpan right (everyDate date n i) k (pos x) →
      ¬ InSpan right (everyDate date n i) k (pos y)

/-- Two frames in a row end in different bins. -/
def Freq.New {R : Type} (cl : Closed) (pos : R → Int) (fs : List (List R)) : Freq → Prop
  | .fixed g => NewCell (cl == .right) g.origin0 g.freq pos fs
  | .calendar c => NewSpan (cl == .right) c.off.date c.n c.day pos fs

section
variable {R : Type}

theorem calSpec_len (c : Calendar) (hc : c.Ok) (cl : Closed) (pos : R → Int) {rows : List R} {x y : R} (hx : rows.head? = some x)
    (hy : rows.getLast? = some y) : (calSpec c hc cl pos rows).length =
      ((c.off.every hc.off c.n hc.n (c.startIdx cl (pos x))).cell (cl == .right) (pos y) + 1).toNat := by
  simp only [calSpec, hx, Grid.bins, hy, spanBins, List.length_map, List.length_range]

theorem eachAdds_cal (c : Calendar) (hc : c.Ok) (cl : Closed) {pos : R → Int} {fs : List (List R)}
    (hne : ∀ p ∈ fs, p ≠ []) (hs : AscOn pos fs.flatten) (hn : NewSpan (cl == .right) c.off.date c.n c.day pos fs) :
    EachAdds (calSpec c hc cl pos) fs := by
  intro pre q post he hpre
  obtain ⟨pre', p, rfl⟩ := List.eq_nil_or_concat pre |>.resolve_left hpre
  rw [List.concat_eq_append] at *
  have hp : p ≠ [] := hne p (by simp [he])
  have hq : q ≠ [] := hne q (by simp [he])
  have hx := List.getLast?_eq_some_getLast hp
  have hy := List.getLast?_eq_some_getLast hq
  generalize p.getLast hp = x at hx
  generalize q.getLast hq = y at hy
  have h1 : (pre' ++ [p]).flatten.getLast? = some x := by simp [List.getLast?_append, hx]
  have h2 : ((pre' ++ [p]).flatten ++ q).getLast? = some y := by rw [List.getLast?_append, hy]; rfl
  have hfl : fs.flatten = (pre' ++ [p]).flatten ++ q ++ post.flatten := by rw [he]; simp
  have hs' : AscOn pos ((pre' ++ [p]).flatten ++ q) := by rw [hfl] at hs; exact AscOn.left hs
  have hn' := hn pre' p q post (by rw [he]; simp)
  generalize hw : (pre' ++ [p]).flatten = w at *
  cases hz : w.head? with
  | none =>
    rw [List.head?_eq_none_iff] at hz
    subst hz; cases h1
  | some o =>
    have hz2 : (w ++ q).head? = some o := by rw [List.head?_append, hz]; rfl
    have hz3 : fs.flatten.head? = some o := by rw [hfl, List.head?_append, hz2]; rfl
    have hxy : pos x ≤ pos y :=
      (List.pairwise_append.1 hs').2.2 x (List.mem_of_getLast? h1) y (List.mem_of_getLast? hy)
    rw [calSpec_len c hc cl pos hz h1, calSpec_len c hc cl pos hz2 h2]
    have hf := startIdx_first hc cl (pos o)
    have h0 := start_cell_le hc cl (pos o)
    set i := c.startIdx cl (pos o)
    set G := c.off.every hc.off c.n hc.n i with hG
    have hcell := hn' o hz3 x hx y hy i (G.cell (cl == .right) (pos x)) hf (G.inSpan_iff.2 rfl)
    have h3 := G.cell_mono (right := cl == .right) hxy
    have h4 := G.cell_mono (right := cl == .right) (ascOn_le_last (AscOn.left hs') h1 o (List.mem_of_head? hz))
    have h5 : G.cell (cl == .right) (pos y) ≠ G.cell (cl == .right) (pos x) := fun h => hcell (G.inSpan_iff.2 h)
    omega

/-- Bins of a frequency. -/
theorem Freq.law (x : Freq) (hx : x.Ok x.closed) (pos : R → Int) : ∃ (spec : List R → List (Bin R)) (okb : List R → ScaleBuf → Prop),
    Lawful (x.fn pos) pos x.closed {} spec okb ∧ (okb [] {}) ∧ (∀ q, StrictLabels (spec q)) ∧
    (∀ q, Separated (x.closed == .right) pos (spec q)) ∧ (∀ q, AscOn pos q → x.IsBins x.closed pos q (spec q)) ∧
    ∀ fs : List (List R), (∀ p ∈ fs, p ≠ []) → AscOn pos fs.flatten → x.New x.closed pos fs → EachAdds spec fs := by
  cases x with
  | fixed g =>
    exact ⟨_, _, grouper_lawful g g.origin0 (Fixed.anchored hx) pos, (grouper_lawful g g.origin0 (Fixed.anchored hx) pos).init,
      fun q => gridSpec_strict _ _ _ _ _ _ hx.1, fun q => gridSpec_sep _ _ _ _ _ _ hx.1,
      fun q hq => gridSpec_isGrid _ _ _ _ _ _ hx.1 hq, fun fs h1 h2 h3 => eachAdds_grid hx.1 h1 h2 h3⟩
  | calendar c =>
    exact ⟨_, _, calendar_lawful c hx.1 hx.2 pos, (calendar_lawful c hx.1 hx.2 pos).init,
      fun q => calSpec_strict c hx.1 c.closed pos q, fun q => calSpec_sep c hx.1 c.closed pos q,
      fun q hq => calSpec_isCalendar c hx.1 c.closed pos q hq, fun fs h1 h2 h3 => eachAdds_cal c hx.1 c.closed h1 h2 h3⟩

/-- Snapshots of a frequency. -/
theorem Freq.snapLaw (x : Freq) (cl : Closed) (hx : x.Ok cl) (pos : R → Int) :
    ∃ (pts : List R → List (Int × Int)) (sok : List R → ScaleBuf → Prop), SnapLaw x.snaps cl pos pts sok ∧
    (∀ h p, AscOn pos (h ++ p) → (pts h).map Prod.fst <+: (pts (h ++ p)).map Prod.fst) ∧
    (∀ h, h ≠ [] → AscOn pos h → pts h ≠ []) ∧ (∀ q, ((pts q).map Prod.fst).Pairwise (· < ·)) ∧
    (∀ q, AscOn pos q → ∃ bins, x.IsBins cl pos q bins ∧ bins.length = (pts q).length) ∧
    ∀ fs : List (List R), (∀ p ∈ fs, p ≠ []) → AscOn pos fs.flatten → x.New cl pos fs → EachAdds pts fs := by
  cases x with
  | fixed g =>
    exact ⟨_, _, grouper_snaps g g.origin0 (Fixed.anchored hx) cl pos, gridPts_prefix g hx cl pos, gridPts_ne g hx cl pos,
      fun q => by rw [gridPts_fst]; exact gridSpec_strict _ _ _ _ _ _ hx.1,
      fun q hq => ⟨_, gridSpec_isGrid _ _ _ _ _ _ hx.1 hq, by simp [gridPts]⟩,
      fun fs h1 h2 h3 => EachAdds.map_length (G := gridSpec (cl == .right) g.labelRight g.origin0 g.freq pos)
        (fun _ => by simp [gridPts]) (eachAdds_grid hx.1 h1 h2 h3)⟩
  | calendar c =>
    exact ⟨_, _, calendar_snaps c hx.1 cl hx.2 pos, calPts_prefix c hx.1 cl hx.2 pos, calPts_ne c hx.1 cl hx.2 pos,
      fun q => by rw [calPts_fst]; exact calSpec_strict c hx.1 cl pos q,
      fun q hq => ⟨_, calSpec_isCalendar c hx.1 cl pos q hq, by simp [calPts]⟩,
      fun fs h1 h2 h3 => EachAdds.map_length (G := calSpec c hx.1 cl pos) (fun _ => by simp [calPts])
        (eachAdds_cal c hx.1 cl h1 h2 h3)⟩

end

/-! ### Any bins and snapshots -/

section
variable {K R B D V S P Q F : Type} [DecidableEq K] [DecidableEq F] [DecidableEq D]
variable (O : D → Ops V) (get : R → Nat → V) {dtype : Nat → Option D} {agg : List (Nat × Nat × Option Fn)}
  {gc : List (D × Group)} (z : List (List V) → Bool)
variable {gB gS : Row (List (List V)) → Row (List (List V))} {on : Col} {d : DupOn}
variable {k : KeyCfg K R (List (List V)) S Q} {p0 : P} {q0 : Q} {w : World K (List (List V)) (Md S P Q)}
  {rows front : List R} {last : Option (Int × P)} {sure : Bool} {L : KeyCfg K R (List (List V)) S Q → Prop}

theorem life_bins (hc : CfgOk dtype agg gc) {fn : BinFn R B} {pos : R → Int} {cl : Closed} {b0 : B} {spec : List R → List (Bin R)}
    {okb : List R → B → Prop} (hL : Lawful fn pos cl b0 spec okb) (hst : StrictLabels (spec rows))
    (ordered : Option (R → Int)) {emb : Buf B (List (List V)) → S}
    (hJ : ∀ cfg, L cfg → SameBins O get z gc fn ordered emb gB gS on d cfg) (hk : L k) (hne : rows ≠ []) (hasc : AscOn pos rows)
    (ho : ∀ o, ordered = some o → AscOn o rows)
    (h : Life (emb (Buf.init b0)) p0 q0 k L w rows rows last sure) :
    ∃ one, frameCall O get gc z fn ordered none false rows none = .ok (some one, none) ∧
      readRows (w k.main).rgs = one.bins.map gB := by
  obtain ⟨one, h1, h2, _⟩ := frame_once_bins O get hc z hL ordered hne hasc ho (strictLabels_ok hst)
  have := C72_stored (fun cfg hcfg => let hcfg := hJ cfg hcfg; keyLaws_bins O get hc z hL (ordered := ordered)
    hcfg.call.choose_spec hcfg.bins hcfg.post hcfg.write hcfg.label) hk ⟨_, rfl, frameOk_init O get trivial hL⟩
    (binsValid_of hL hasc ho hst) h
  exact ⟨one, h1, by rw [this.1 (by simp [(hJ k hk).bins]), h2]⟩

theorem life_snaps (hc : CfgOk dtype agg gc) {fn : BinFn R B} {pos : R → Int} {cl : Closed} {b0 : B} {spec : List R → List (Bin R)}
    {okb : List R → B → Prop} (hL : Lawful fn pos cl b0 spec okb) {sn : Snaps} {pts : List R → List (Int × Int)}
    {sok : List R → ScaleBuf → Prop} (hSL : SnapLaw sn cl pos pts sok)
    (hpp : ∀ h p, AscOn pos (h ++ p) → (pts h).map Prod.fst <+: (pts (h ++ p)).map Prod.fst)
    (hpn : ∀ h, h ≠ [] → AscOn pos h → pts h ≠ []) {emb : Buf B (List (List V)) → S} {t : ResType} (ht : t ≠ .bins)
    (hJ : ∀ cfg, L cfg → SameSnaps O get z gc fn pos sn emb gB gS on d t cfg) (hk : L k) (hne : rows ≠ [])
    (hv : SnapsValid pos (cl == .right) (decide (t = .both)) spec pts rows)
    (h : Life (emb (Buf.init b0)) p0 q0 k L w rows rows last sure) :
    ∃ one sns, frameCall O get gc z fn (some pos) (some sn) false rows none = .ok (some one, none) ∧
      one.snaps = some sns ∧ (t = .snaps → readRows (w k.main).rgs = sns.map gS) ∧
      (t = .both → readRows (w k.main).rgs = one.bins.map gB ∧ readRows (w k.snap).rgs = sns.map gS) := by
  obtain ⟨v1, v2, -, -⟩ := hv.2 _ (List.prefix_refl _)
  obtain ⟨one, sns, g1, g2, g3, g4⟩ := frame_once_snaps O get hc z hL hSL hne hv.1 v1 v2
  have hkt := (hJ k hk).type
  have hkl := fun (cfg : KeyCfg K R (List (List V)) S Q) (hcfg : SameSnaps O get z gc fn pos sn emb gB gS on d t cfg) =>
    keyLaws_snaps O get hc z hL hSL hpp hpn hcfg.call.choose_spec (by rw [hcfg.type]; exact ht) hcfg.pair hcfg.post hcfg.write
      hcfg.writeSnap hcfg.label hcfg.labelSnap
  have hkl' : ∀ cfg : KeyCfg K R (List (List V)) S Q, L cfg → KeyLaws cfg _ _ _ _ gB gS on d := fun cfg hcfg =>
    (hJ cfg hcfg).type ▸ hkl cfg (hJ cfg hcfg)
  obtain ⟨h1, h2⟩ := C72_stored hkl' hk ⟨_, rfl, frameOk_init O get hSL.init hL⟩ hv h
  have h2 := h2 (by rw [hkt]; exact ht) _ rfl
  refine ⟨one, sns, g1, g3, fun hr => ?_, fun hr => ⟨?_, ?_⟩⟩
  · rw [show k.snapKey = k.main by simp [KeyCfg.snapKey, hkt, hr]] at h2
    rw [h2, g4]
  · rw [h1 (by rw [hkt, hr]; simp), g2]
  · rw [show k.snapKey = k.snap by simp [KeyCfg.snapKey, hkt, hr]] at h2
    rw [h2, g4]

variable {c : Config K R (List (List V)) S P Q F} {f : F} {cfg : KeyCfg K R (List (List V)) S Q}
  {s : State (List (List V)) S P Q} {as : List (Call R)}

theorem resumes_ne : ∀ p ∈ [rows].filter (· ≠ []) ++ frames c f as s.restart s.pre, p ≠ [] := by
  intro p hp
  rcases List.mem_append.1 hp with hp | hp
  · simpa using (List.mem_filter.1 hp).2
  · exact frames_ne _ _ _ _ _ p hp

theorem resumes_flatten : ([rows].filter (· ≠ []) ++ frames c f as s.restart s.pre).flatten =
    rows ++ received c f as s.restart s.pre := by
  rw [List.flatten_append, before_flatten, frames_flatten]

theorem resumes_bins (hc : CfgOk dtype agg gc) {fn : BinFn R B} {pos : R → Int} {cl : Closed} {b0 : B} {spec : List R → List (Bin R)}
    {okb : List R → B → Prop} (hL : Lawful fn pos cl b0 spec okb) (ordered : Option (R → Int))
    {emb : Buf B (List (List V)) → S} (hs : SameTarget k cfg)
    (hJ : ∀ cfg, L cfg → SameBins O get z gc fn ordered emb gB gS on d cfg) (hk : L k)
    (hcfg : SameBins O get z gc fn ordered emb gB gS on d cfg) (hnc : sure = true → NoCoalescing cfg ∨ L cfg)
    (hlife : Life (emb (Buf.init b0)) p0 q0 k L w rows front last sure)
    {e0 : Bool} (hcall : Embeds emb (inPlace (frameCall O get gc z fn ordered none e0)) cfg.call) {all : List R}
    (hmax : Roomy cfg.params ((spec all).length - ((spec rows).length - 1))) (hf : front <+: all)
    (hr : rows ++ received c f as s.restart s.pre <+: all) (hasc : AscOn pos all) (ho : ∀ o, ordered = some o → AscOn o all)
    (hst : ∀ q, q <+: all → StrictLabels (spec q))
    (hB : EachAdds spec ([rows].filter (· ≠ []) ++ frames c f as s.restart s.pre))
    (h0 : e0 = true → NoZero z (frameCall O get gc z fn ordered none false)
      ([rows].filter (· ≠ []) ++ frames c f as s.restart s.pre)) :
    KeyResumes (emb (Buf.init b0)) p0 q0 c as s w f cfg := by
  have hl := fun (cfg : KeyCfg K R (List (List V)) S Q) (hcfg : SameBins O get z gc fn ordered emb gB gS on d cfg) =>
    keyLaws_bins O get hc z hL (ordered := ordered) (key := cfg) hcfg.call.choose_spec hcfg.bins hcfg.post hcfg.write hcfg.label
  have hv : ∀ q, q <+: all → BinsValid pos ordered spec q :=
    fun q hq => binsValid_of hL (List.Pairwise.sublist hq.sublist hasc)
      (fun o h => List.Pairwise.sublist hq.sublist (ho o h)) (hst q hq)
  refine ⟨z, e0, _, _, _, _, _, _, _, _, rows, front, last, all, ⟨hl cfg hcfg, ⟨_, rfl, frameOk_init O get trivial hL⟩,
    k, L, sure, hs, fun cfg hcfg => hl cfg (hJ cfg hcfg), hk, hlife, hnc⟩,
    keyTotal_bins O get hc z hL (ordered := ordered) hcall, ⟨fun _ => by simpa [binRes] using hmax, by simp [hcfg.bins]⟩, hv _ (List.prefix_refl _), hf, hr,
    fun hne => ⟨?_, by simp⟩, fun _ => ?_, by simp [hcfg.bins], ?_⟩
  · have hrows : AscOn pos rows := List.Pairwise.sublist ((List.prefix_append _ _).trans hr).sublist hasc
    simpa [binRes] using hL.spec_ne hne hrows
  · exact EachAdds.map_length (G := spec) (fun _ => by simp [binRes]) hB
  · rintro pre p post hfr ⟨he, hz⟩
    have hq : rows ++ pre.flatten ++ p <+: all := by
      refine List.IsPrefix.trans ?_ hr
      rw [← frames_flatten, hfr]
      simp
    have hp : p ≠ [] := frames_ne c f as s.restart s.pre p (by rw [hfr]; simp)
    obtain ⟨one, g1, g2, g3⟩ := frame_once_bins O get hc z hL ordered (w := rows ++ pre.flatten ++ p) (by simp [hp])
      (List.Pairwise.sublist hq.sublist hasc) (fun o h => List.Pairwise.sublist hq.sublist (ho o h))
      (strictLabels_ok (hst _ hq))
    have g4 := (h0 he ([rows].filter (· ≠ []) ++ pre ++ [p]) post (by rw [hfr]; simp) one (by
      rw [List.flatten_append, List.flatten_append, before_flatten]; simpa using g1)).1
    rcases hz with hz | ⟨_, h, _⟩
    · exact g4 (g2 ▸ hz.of_drop)
    · cases h

theorem resumes_snaps (hc : CfgOk dtype agg gc) {fn : BinFn R B} {pos : R → Int} {cl : Closed} {b0 : B} {spec : List R → List (Bin R)}
    {okb : List R → B → Prop} (hL : Lawful fn pos cl b0 spec okb) {sn : Snaps} {pts : List R → List (Int × Int)}
    {sok : List R → ScaleBuf → Prop} (hSL : SnapLaw sn cl pos pts sok)
    (hpp : ∀ h p, AscOn pos (h ++ p) → (pts h).map Prod.fst <+: (pts (h ++ p)).map Prod.fst)
    (hpn : ∀ h, h ≠ [] → AscOn pos h → pts h ≠ [])
    {emb : Buf B (List (List V)) → S} {t : ResType} (ht : t ≠ .bins) (hs : SameTarget k cfg)
    (hJ : ∀ cfg, L cfg → SameSnaps O get z gc fn pos sn emb gB gS on d t cfg) (hk : L k)
    (hcfg : SameSnaps O get z gc fn pos sn emb gB gS on d t cfg) (hnc : sure = true → NoCoalescing cfg ∨ L cfg)
    (hlife : Life (emb (Buf.init b0)) p0 q0 k L w rows front last sure)
    {e0 : Bool} (hcall : Embeds emb (inPlace (frameCall O get gc z fn (some pos) (some sn) e0)) cfg.call)
    {all : List R}
    (hmax : t = .both → Roomy cfg.params ((spec all).length - ((spec rows).length - 1)))
    (hmaxs : Roomy (if t = .both then cfg.snapParams else cfg.params) ((pts all).length - ((pts rows).length - 1)))
    (hf : front <+: all)
    (hr : rows ++ received c f as s.restart s.pre <+: all) (hasc : AscOn pos all)
    (hv : ∀ q, q <+: all → SnapsValid pos (cl == .right) (decide (t = .both)) spec pts q)
    (hB : t = .both → EachAdds spec ([rows].filter (· ≠ []) ++ frames c f as s.restart s.pre))
    (hS : EachAdds pts ([rows].filter (· ≠ []) ++ frames c f as s.restart s.pre))
    (h0 : e0 = true → NoZero z (frameCall O get gc z fn (some pos) (some sn) false)
      ([rows].filter (· ≠ []) ++ frames c f as s.restart s.pre)) :
    KeyResumes (emb (Buf.init b0)) p0 q0 c as s w f cfg := by
  have hkl := fun (cfg : KeyCfg K R (List (List V)) S Q)
      (hcfg : SameSnaps O get z gc fn pos sn emb gB gS on d t cfg) =>
    keyLaws_snaps O get hc z hL hSL hpp hpn hcfg.call.choose_spec (by rw [hcfg.type]; exact ht) hcfg.pair hcfg.post hcfg.write
      hcfg.writeSnap hcfg.label hcfg.labelSnap
  have hkl' : ∀ cfg : KeyCfg K R (List (List V)) S Q, SameSnaps O get z gc fn pos sn emb gB gS on d t cfg →
      KeyLaws cfg _ _ _ _ gB gS on d := fun cfg hcfg => hcfg.type ▸ hkl cfg hcfg
  refine ⟨z, e0, _, _, _, _, _, _, _, _, rows, front, last, all, ⟨hkl' cfg hcfg,
    ⟨_, rfl, frameOk_init O get hSL.init hL⟩, k, L, sure, hs, fun cfg hcfg => hkl' cfg (hJ cfg hcfg), hk, hlife, hnc⟩,
    keyTotal_snaps O get hc z hL hSL hpp hpn _ hcall,
    ⟨fun h => ?_, fun _ fs hfs => ?_⟩, hv _ (List.prefix_refl _), hf, hr,
    fun hne => ?_, fun h => ?_, fun _ fs hfs => ?_, ?_⟩
  · have hb : t = .both := by rw [hcfg.type] at h; cases t <;> simp_all
    simpa [binRes] using hmax hb
  · cases hfs
    simpa [KeyCfg.snapPars, hcfg.type, snapRes] using hmaxs
  · have hrows : AscOn pos rows := List.Pairwise.sublist ((List.prefix_append _ _).trans hr).sublist hasc
    refine ⟨?_, fun fs hfs => ?_⟩
    · simpa [binRes] using hL.spec_ne hne hrows
    · cases hfs
      simpa [snapRes] using hpn rows hne hrows
  · have hb : t = .both := by rw [hcfg.type] at h; cases t <;> simp_all
    exact EachAdds.map_length (G := spec) (fun _ => by simp [binRes]) (hB hb)
  · cases hfs
    exact EachAdds.map_length (G := pts) (fun _ => by simp [snapRes]) hS
  · rintro pre p post hfr ⟨he, hz⟩
    have hq : rows ++ pre.flatten ++ p <+: all := by
      refine List.IsPrefix.trans ?_ hr
      rw [← frames_flatten, hfr]
      simp
    have hp : p ≠ [] := frames_ne c f as s.restart s.pre p (by rw [hfr]; simp)
    obtain ⟨hl1, hl2, -, -⟩ := (hv _ hq).2 _ (List.prefix_refl _)
    obtain ⟨one, sns, g1, g2, g3, g4⟩ := frame_once_snaps O get hc z hL hSL (w := rows ++ pre.flatten ++ p) (by simp [hp])
      (List.Pairwise.sublist hq.sublist hasc) hl1 hl2
    have g5 := h0 he ([rows].filter (· ≠ []) ++ pre ++ [p]) post (by rw [hfr]; simp) one (by
      rw [List.flatten_append, List.flatten_append, before_flatten]; simpa using g1)
    rw [g2, g3, Option.getD_some, g4] at g5
    rcases hz with hz | ⟨_, h, hz⟩
    · exact g5.1 hz.of_drop
    · cases h
      exact g5.2 hz.of_drop

/-! ### Bins and snapshots of any frequency -/

/-- **C67** Key with a `TimeGrouper` of any frequency for `bin_by`: after any number of sessions and stops, what is stored is what
`cumsegagg` returns on all rows at once. -/
theorem C67_sessions (hagg : setupCumsegagg agg dtype = .ok gc) (x : Freq) (hx : x.Ok x.closed) (pos : R → Int)
    (ordered : Option (R → Int)) {emb : Buf ScaleBuf (List (List V)) → S}
    (hJ : ∀ cfg, L cfg → SameBins O get z gc (x.fn pos) ordered emb gB gS on d cfg) (hk : L k) (hne : rows ≠ []) (hasc : AscOn pos rows)
    (ho : ∀ o, ordered = some o → AscOn o rows)
    (h : Life (emb (Buf.init {})) p0 q0 k L w rows rows last sure) :
    ∃ one, frameCall O get gc z (x.fn pos) ordered none false rows none = .ok (some one, none) ∧
      readRows (w k.main).rgs = one.bins.map gB := by
  obtain ⟨spec, okb, hL, -, hst, -⟩ := x.law hx pos
  exact life_bins O get z (cfgOk_of hagg) hL (hst _) ordered hJ hk hne hasc ho h

/-- **C67** Key with snapshots of any frequency, bins of any other one: same, for snapshots, and for bins with a pair of keys. -/
theorem C67_sessions_snapshots (hagg : setupCumsegagg agg dtype = .ok gc) (x : Freq) (hx : x.Ok x.closed) (y : Freq)
    (hy : y.Ok x.closed) (pos : R → Int) {emb : Buf ScaleBuf (List (List V)) → S} {t : ResType} (ht : t ≠ .bins)
    (hJ : ∀ cfg, L cfg → SameSnaps O get z gc (x.fn pos) pos y.snaps emb gB gS on d t cfg) (hk : L k) (hne : rows ≠ [])
    (hasc : AscOn pos rows)
    (h : Life (emb (Buf.init {})) p0 q0 k L w rows rows last sure) :
    ∃ one sns, frameCall O get gc z (x.fn pos) (some pos) (some y.snaps) false rows none = .ok (some one, none) ∧
      one.snaps = some sns ∧ (t = .snaps → readRows (w k.main).rgs = sns.map gS) ∧
      (t = .both → readRows (w k.main).rgs = one.bins.map gB ∧ readRows (w k.snap).rgs = sns.map gS) := by
  obtain ⟨spec, okb, hL, -, hst, hsep, -⟩ := x.law hx pos
  obtain ⟨pts, sok, hSL, hpp, hpn, hps, -⟩ := y.snapLaw x.closed hy pos
  exact life_snaps O get z (cfgOk_of hagg) hL hSL hpp hpn ht hJ hk hne
    ⟨hasc, fun q _ => ⟨strictLabels_ok (hst q), hsep q, fun _ => hst q, hps q⟩⟩ h

/-- **C67** Key with snapshots of any frequency, bins from `by_x_rows`: same. Rows share a position only where no end of a bin and
no label depends on it. -/
theorem C67_sessions_rows (hagg : setupCumsegagg agg dtype = .ok gc) (n : Nat) (hn : 0 < n) (cl : Closed) (y : Freq)
    (hy : y.Ok cl) (pos : R → Int) {emb : Buf (Option RowsBuf) (List (List V)) → S} {t : ResType} (ht : t ≠ .bins)
    (hJ : ∀ cfg, L cfg → SameSnaps O get z gc (rowsFn n cl pos) pos y.snaps emb gB gS on d t cfg) (hk : L k) (hne : rows ≠ [])
    (hasc : AscOn pos rows) (hties : cl = .right ∨ t = .both → rows.Pairwise fun x y => pos x < pos y)
    (h : Life (emb (Buf.init none)) p0 q0 k L w rows rows last sure) :
    ∃ one sns, frameCall O get gc z (rowsFn n cl pos) (some pos) (some y.snaps) false rows none = .ok (some one, none) ∧
      one.snaps = some sns ∧ (t = .snaps → readRows (w k.main).rgs = sns.map gS) ∧
      (t = .both → readRows (w k.main).rgs = one.bins.map gB ∧ readRows (w k.snap).rgs = sns.map gS) := by
  obtain ⟨pts, sok, hSL, hpp, hpn, hps, -⟩ := y.snapLaw cl hy pos
  exact life_snaps O get z (cfgOk_of hagg) (rows_lawful n hn cl pos pos) hSL hpp hpn ht hJ hk hne
    ⟨hasc, fun q hq => ⟨xBins_labels _ n hn pos _,
      xBins_sep _ n hn pos q (List.Pairwise.sublist hq.sublist hasc)
        (fun hr => List.Pairwise.sublist hq.sublist (hties (Or.inl (by simpa using hr)))),
      fun hb => xBins_strict hn (List.Pairwise.sublist hq.sublist (hties (Or.inr (by simpa using hb)))), hps q⟩⟩ h

/-- **C67** Which calls do not raise, in a new stream over what was stored, or over nothing: each frame ends in another bin than the
rows before it; with the check of zeros, no result is zero; with `max_nirgs`, results which may be written at once fit in a row group. -/
theorem C67_resumes (hagg : setupCumsegagg agg dtype = .ok gc) (x : Freq) (hx : x.Ok x.closed) (pos : R → Int)
    (ordered : Option (R → Int)) {emb : Buf ScaleBuf (List (List V)) → S} (hs : SameTarget k cfg)
    (hJ : ∀ cfg, L cfg → SameBins O get z gc (x.fn pos) ordered emb gB gS on d cfg) (hk : L k)
    (hcfg : SameBins O get z gc (x.fn pos) ordered emb gB gS on d cfg) (hnc : sure = true → NoCoalescing cfg ∨ L cfg)
    (hlife : Life (emb (Buf.init {})) p0 q0 k L w rows front last sure)
    {e0 : Bool} (hcall : Embeds emb (inPlace (frameCall O get gc z (x.fn pos) ordered none e0)) cfg.call) {all : List R}
    (hmax : ∀ b b', x.IsBins x.closed pos all b → x.IsBins x.closed pos rows b' → Roomy cfg.params (b.length - (b'.length - 1)))
    (hf : front <+: all)
    (hr : rows ++ received c f as s.restart s.pre <+: all) (hasc : AscOn pos all) (ho : ∀ o, ordered = some o → AscOn o all)
    (hn : x.New x.closed pos ([rows].filter (· ≠ []) ++ frames c f as s.restart s.pre))
    (h0 : e0 = true → NoZero z (frameCall O get gc z (x.fn pos) ordered none false)
      ([rows].filter (· ≠ []) ++ frames c f as s.restart s.pre)) :
    KeyResumes (emb (Buf.init {})) p0 q0 c as s w f cfg := by
  obtain ⟨spec, okb, hL, -, hst, -, hb, hE⟩ := x.law hx pos
  have hrows : AscOn pos rows := List.Pairwise.sublist ((List.prefix_append _ _).trans hr).sublist hasc
  exact resumes_bins O get z (cfgOk_of hagg) hL ordered hs hJ hk hcfg hnc hlife hcall (hmax _ _ (hb _ hasc) (hb _ hrows)) hf hr hasc ho
    (fun q _ => hst q) (hE _ resumes_ne (by rw [resumes_flatten]; exact List.Pairwise.sublist hr.sublist hasc) hn) h0

/-- **C67** Same, with snapshots: each frame ends in another snapshot than the rows before it, and in another bin if bins are stored
also. -/
theorem C67_resumes_snapshots (hagg : setupCumsegagg agg dtype = .ok gc) (x : Freq) (hx : x.Ok x.closed) (y : Freq)
    (hy : y.Ok x.closed) (pos : R → Int) {emb : Buf ScaleBuf (List (List V)) → S} {t : ResType} (ht : t ≠ .bins)
    (hs : SameTarget k cfg) (hJ : ∀ cfg, L cfg → SameSnaps O get z gc (x.fn pos) pos y.snaps emb gB gS on d t cfg) (hk : L k)
    (hcfg : SameSnaps O get z gc (x.fn pos) pos y.snaps emb gB gS on d t cfg) (hnc : sure = true → NoCoalescing cfg ∨ L cfg)
    (hlife : Life (emb (Buf.init {})) p0 q0 k L w rows front last sure)
    {e0 : Bool} (hcall : Embeds emb (inPlace (frameCall O get gc z (x.fn pos) (some pos) (some y.snaps) e0)) cfg.call)
    {all : List R}
    (hmax : t = .both → ∀ b b', x.IsBins x.closed pos all b → x.IsBins x.closed pos rows b' →
      Roomy cfg.params (b.length - (b'.length - 1)))
    (hmaxs : ∀ b b', y.IsBins x.closed pos all b → y.IsBins x.closed pos rows b' →
      Roomy (if t = .both then cfg.snapParams else cfg.params) (b.length - (b'.length - 1)))
    (hf : front <+: all)
    (hr : rows ++ received c f as s.restart s.pre <+: all) (hasc : AscOn pos all)
    (hn : t = .both → x.New x.closed pos ([rows].filter (· ≠ []) ++ frames c f as s.restart s.pre))
    (hns : y.New x.closed pos ([rows].filter (· ≠ []) ++ frames c f as s.restart s.pre))
    (h0 : e0 = true → NoZero z (frameCall O get gc z (x.fn pos) (some pos) (some y.snaps) false)
      ([rows].filter (· ≠ []) ++ frames c f as s.restart s.pre)) :
    KeyResumes (emb (Buf.init {})) p0 q0 c as s w f cfg := by
  obtain ⟨spec, okb, hL, -, hst, hsep, hb, hE⟩ := x.law hx pos
  obtain ⟨pts, sok, hSL, hpp, hpn, hps, hpb, hpE⟩ := y.snapLaw x.closed hy pos
  have hrows : AscOn pos rows := List.Pairwise.sublist ((List.prefix_append _ _).trans hr).sublist hasc
  have hall : AscOn pos ([rows].filter (· ≠ []) ++ frames c f as s.restart s.pre).flatten := by
    rw [resumes_flatten]; exact List.Pairwise.sublist hr.sublist hasc
  obtain ⟨b1, i1, l1⟩ := hpb _ hasc
  obtain ⟨b2, i2, l2⟩ := hpb _ hrows
  exact resumes_snaps O get z (cfgOk_of hagg) hL hSL hpp hpn ht hs hJ hk hcfg hnc hlife hcall
    (fun h => hmax h _ _ (hb _ hasc) (hb _ hrows)) (by rw [← l1, ← l2]; exact hmaxs _ _ i1 i2) hf hr hasc
    (fun q hq => ⟨List.Pairwise.sublist hq.sublist hasc, fun q _ => ⟨strictLabels_ok (hst q), hsep q, fun _ => hst q, hps q⟩⟩)
    (fun h => hE _ resumes_ne hall (hn h)) (hpE _ resumes_ne hall hns) h0

/-- **C67** Same, with bins from `by_x_rows`: each frame ends in another snapshot than the rows before it, and has as many rows as a bin
if bins are stored also. -/
theorem C67_resumes_rows (hagg : setupCumsegagg agg dtype = .ok gc) (n : Nat) (hn : 0 < n) (cl : Closed) (y : Freq)
    (hy : y.Ok cl) (pos : R → Int) {emb : Buf (Option RowsBuf) (List (List V)) → S} {t : ResType} (ht : t ≠ .bins)
    (hs : SameTarget k cfg) (hJ : ∀ cfg, L cfg → SameSnaps O get z gc (rowsFn n cl pos) pos y.snaps emb gB gS on d t cfg) (hk : L k)
    (hcfg : SameSnaps O get z gc (rowsFn n cl pos) pos y.snaps emb gB gS on d t cfg) (hnc : sure = true → NoCoalescing cfg ∨ L cfg)
    (hlife : Life (emb (Buf.init none)) p0 q0 k L w rows front last sure)
    {e0 : Bool} (hcall : Embeds emb (inPlace (frameCall O get gc z (rowsFn n cl pos) (some pos) (some y.snaps) e0)) cfg.call)
    {all : List R}
    (hmax : t = .both → Roomy cfg.params ((xBins (cl == .right) n pos all).length - ((xBins (cl == .right) n pos rows).length - 1)))
    (hmaxs : ∀ b b', y.IsBins cl pos all b → y.IsBins cl pos rows b' →
      Roomy (if t = .both then cfg.snapParams else cfg.params) (b.length - (b'.length - 1)))
    (hf : front <+: all)
    (hr : rows ++ received c f as s.restart s.pre <+: all) (hasc : AscOn pos all)
    (hties : cl = .right ∨ t = .both → all.Pairwise fun x y => pos x < pos y)
    (hp : t = .both → ∀ p ∈ frames c f as s.restart s.pre, n ≤ p.length)
    (hns : y.New cl pos ([rows].filter (· ≠ []) ++ frames c f as s.restart s.pre))
    (h0 : e0 = true → NoZero z (frameCall O get gc z (rowsFn n cl pos) (some pos) (some y.snaps) false)
      ([rows].filter (· ≠ []) ++ frames c f as s.restart s.pre)) :
    KeyResumes (emb (Buf.init none)) p0 q0 c as s w f cfg := by
  obtain ⟨pts, sok, hSL, hpp, hpn, hps, hpb, hpE⟩ := y.snapLaw cl hy pos
  have hrows : AscOn pos rows := List.Pairwise.sublist ((List.prefix_append _ _).trans hr).sublist hasc
  have hall : AscOn pos ([rows].filter (· ≠ []) ++ frames c f as s.restart s.pre).flatten := by
    rw [resumes_flatten]; exact List.Pairwise.sublist hr.sublist hasc
  obtain ⟨b1, i1, l1⟩ := hpb _ hasc
  obtain ⟨b2, i2, l2⟩ := hpb _ hrows
  refine resumes_snaps O get z (cfgOk_of hagg) (rows_lawful n hn cl pos pos) hSL hpp hpn ht hs hJ hk hcfg hnc hlife hcall
    hmax (by rw [← l1, ← l2]; exact hmaxs _ _ i1 i2) hf hr hasc
    (fun q hq => ⟨List.Pairwise.sublist hq.sublist hasc, fun q' hq' => ?_⟩)
    (fun hb => eachAdds_rows hn ?_) (hpE _ resumes_ne hall hns) h0
  · have hs' := (hq'.trans hq).sublist
    exact ⟨xBins_labels _ n hn pos _, xBins_sep _ n hn pos q' (List.Pairwise.sublist hs' hasc)
        (fun hr => List.Pairwise.sublist hs' (hties (Or.inl (by simpa using hr)))),
      fun hb => xBins_strict hn (List.Pairwise.sublist hs' (hties (Or.inr (by simpa using hb)))), hps q'⟩
  · intro p h
    refine hp hb p ?_
    by_cases hr : rows = []
    · simp only [hr, ne_eq, not_true_eq_false, decide_false, List.filter_cons_of_neg, Bool.false_eq_true, not_false_eq_true,
        List.filter_nil, List.nil_append] at h
      exact List.mem_of_mem_tail h
    · simpa [hr] using h

end

/-! ### Examples -/

section

/-- A session, then a stop, then a session which receives the same rows in one chunk, each with other settings. -/
theorem exLivesOf {S : Type} {s0 : S} {key : Nat → Nat → KeyCfg Nat (Int × Int) (List (List Int)) S Unit}
    {L : KeyCfg Nat (Int × Int) (List (List Int)) S Unit → Prop} (hL : ∀ m n, L (key m n)) (hN : ∀ cfg, L cfg → NoCoalescing cfg)
    (hT : ∀ m n, SameTarget (key 100 1) (key m n)) (h0 : (key 100 1).main = 0) {half1 half2 : List (List (Int × Int))} {t1 t2 : Int}
    (ht1 : t1 ≠ 0) (ht2 : t2 ≠ 0)
    {s1 s2 s2' s3 s3' : State (List (List Int)) S Unit Unit} {w1 w2 w3 : ExWorld S}
    (e1 : aggs (exConf [(0, key 100 1)]) ([] ++ [⟨half1, false, false, true⟩]) (exState 1 s0) exWorld = .ok (s1, w1))
    (er : received (exConf [(0, key 100 1)]) 0 ([] ++ [⟨half1, false, false, true⟩]) (exState 1 s0 : State (List (List Int)) S Unit Unit).restart
      (exState 1 s0 : State (List (List Int)) S Unit Unit).pre = half1.flatten)
    (e2 : s1.restart = some t1) (e3 : initBuffers s0 () () (exConf [(0, key 0 2)]) w1 = .ok s2)
    (e4 : aggs (exConf [(0, key 0 2)]) [⟨half2, false, false, false⟩] s2 w1 = .ok (s2', w2))
    (e5 : received (exConf [(0, key 0 2)]) 0 [⟨half2, false, false, false⟩] s2.restart s2.pre = half2.flatten)
    (e6 : (w1 0).rgs.isEmpty = false) (e8 : initBuffers s0 () () (exConf [(0, key 100 3)]) w2 = .ok s3)
    (e9 : aggs (exConf [(0, key 100 3)]) ([] ++ [⟨[half2.flatten], false, false, true⟩]) s3 w2 = .ok (s3', w3))
    (e10 : s3'.restart = some t2)
    (e11 : received (exConf [(0, key 100 3)]) 0 ([] ++ [⟨[half2.flatten], false, false, true⟩]) s3.restart s3.pre =
      half2.flatten) :
    Life s0 () () (key 100 1) L w2 half1.flatten (half1.flatten ++ half2.flatten) (some (t1, ())) true ∧
    Life s0 () () (key 100 1) L w3 (half1.flatten ++ half2.flatten) (half1.flatten ++ half2.flatten) (some (t2, ())) true := by
  have l1 := Life.session (c := exConf [(0, key 100 1)]) (i := 0) (f := 0) (cfg := key 100 1) (s := exState 1 s0)
    (Life.new (s0 := s0) (p0 := ()) (q0 := ()) (k := key 100 1) (L := L) (w := (exWorld : ExWorld S)) rfl rfl (fun _ => rfl))
    (List.pairwise_singleton _ _) rfl (hT 100 1) (hL 100 1) rfl rfl e1 e2 (by simpa [exConf] using ht1) (front' := half1.flatten)
    (List.nil_prefix) (by rw [er]; exact List.prefix_refl _) (sure' := true) (by simp) (fun _ => Or.inr fun _ h _ => (hN _ h).safe _)
  rw [er] at l1
  have l2 := Life.stop (c := exConf [(0, key 0 2)]) (i := 0) (f := 0) (cfg := key 0 2) l1
    (fun h => by rw [h0] at h; rw [h] at e6; cases e6) rfl (hT 0 2) (hL 0 2) e3
    (C72_stopped_after (c := exConf [(0, key 0 2)]) (List.pairwise_singleton _ _) (by simp) (initBuffers_key e3).1 e4)
    (front' := half1.flatten ++ half2.flatten) (List.prefix_append _ _) (by rw [e5]; exact List.prefix_refl _)
  have l3 := Life.session (c := exConf [(0, key 100 3)]) (i := 0) (f := 0) (cfg := key 100 3) l2
    (List.pairwise_singleton _ _) rfl (hT 100 3) (hL 100 3) e8 rfl e9 e10 (by simpa [exConf] using ht2) (front' := half1.flatten ++ half2.flatten)
    (List.prefix_refl _) (by rw [e11]; exact List.prefix_refl _) (sure' := true) (fun h => h) (fun _ => Or.inl rfl)
  rw [e11] at l3
  exact ⟨l2, l3⟩

/-- Months, positions being numbers of days. -/
def exMonth : Freq := .calendar { off := monthBegin 1, day := 1 }

/-- Weeks from Thursdays. -/
def exWeek : Freq := .calendar { off := week 1 0, labelRight := true, day := 1 }

theorem exMonth_ok (cl : Closed) : exMonth.Ok cl := ⟨(C67_offsets 1 (by decide) 1 (by decide) .left false 0).1, .inl rfl⟩

theorem exWeek_ok (cl : Closed) : exWeek.Ok cl :=
  ⟨(C67_offsets 1 (by decide) 1 (by decide) .left true 0).2.2.2.1, .inl rfl⟩

/-- Bins of months and snapshots of weeks. -/
def exCal (maxSize size : Nat) : KeyCfg Nat (Int × Int) (List (List Int)) ExBuf Unit :=
  { exBothF maxSize size with
    call := inPlace (frameCall (fun _ => intOps) ex_get ex_cfg exZ (exMonth.fn Prod.fst) (some Prod.fst) (some exWeek.snaps) true) }

theorem exCal_emb (m size : Nat) : Embeds id (inPlace (frameCall (fun _ : Unit => intOps) ex_get ex_cfg exZ (exMonth.fn Prod.fst)
    (some Prod.fst) (some exWeek.snaps) true)) (exCal m size).call := fun p b => by
  simp only [exCal, id]
  cases inPlace (frameCall (fun _ => intOps) ex_get ex_cfg exZ (exMonth.fn Prod.fst) (some Prod.fst) (some exWeek.snaps) true) p b <;> rfl

def exCalL : KeyCfg Nat (Int × Int) (List (List Int)) ExBuf Unit → Prop := fun cfg =>
  SameSnaps (fun _ : Unit => intOps) ex_get exZ ex_cfg (exMonth.fn Prod.fst) Prod.fst exWeek.snaps id id id 0 (.one 0) .both cfg ∧
    NoCoalescing cfg

theorem exCal_in (m size : Nat) : exCalL (exCal m size) :=
  let h := exBothF_kept m size
  ⟨⟨⟨true, exCal_emb m size⟩, h.type, h.pair, h.post, h.write, h.writeSnap, h.label, h.labelSnap⟩, rfl, fun _ => rfl⟩

def exDays1 : List (List (Int × Int)) := [[(1, 1), (7, 2)], [(40, 4), (41, 8)]]
def exDays2 : List (List (Int × Int)) := [[(50, 16), (62, 32)], [(70, 64), (95, 128)], [(121, 256), (130, 512)]]

/-- Sufficient condition by evaluation. -/
theorem NewSpan.of_all {R : Type} (c : Calendar) (hc : c.Ok) (cl : Closed) {pos : R → Int} {fs : List (List R)} {o : R}
    (ho : fs.flatten.head? = some o)
    (h : ((List.range fs.length).all fun j => match fs[j]?.bind List.getLast?, fs[j + 1]?.bind List.getLast? with
      | some x, some y => decide ((c.off.every hc.off c.n hc.n (c.startIdx cl (pos o))).cell (cl == .right) (pos x) ≠
          (c.off.every hc.off c.n hc.n (c.startIdx cl (pos o))).cell (cl == .right) (pos y))
      | _, _ => true) = true) : NewSpan (cl == .right) c.off.date c.n c.day pos fs := by
  intro pre p q post he o' ho' x hx y hy i k hi hk hk'
  cases ho.symm.trans ho'
  cases firstDate_unique hc.off hi (startIdx_first hc cl (pos o))
  have h2 := List.all_eq_true.1 h pre.length (by simp [he])
  have hx : p.getLast? = some x := hx
  have hy : q.getLast? = some y := hy
  rw [he, List.getElem?_append_right (by omega), List.getElem?_append_right (by omega)] at h2
  simp only [Nat.sub_self, List.getElem?_cons_zero, Nat.add_sub_cancel_left, List.getElem?_cons_succ, Option.bind_some, hx, hy] at h2
  rw [decide_eq_true_eq] at h2
  refine h2 ?_
  rw [(Grid.inSpan_iff (G := c.off.every hc.off c.n hc.n (c.startIdx cl (pos o)))).1 hk,
    (Grid.inSpan_iff (G := c.off.every hc.off c.n hc.n (c.startIdx cl (pos o)))).1 hk']

/-- A session, a stop, a session. -/
theorem exCalLife : ∃ w w' : ExWorld ExBuf,
    Life ex0 () () (exCal 100 1) exCalL w exDays1.flatten (exDays1.flatten ++ exDays2.flatten) (some (41, ())) true ∧
    (w 0).rgs.map RG.rows = [[(0, some [[3, 2]])], [(31, some [[28, 16]])], [(59, some [[96, 64]])]] ∧
    (∀ m size, ∃ s, initBuffers ex0 () () (exConf [(0, exCal m size)]) w = .ok s ∧ s.restart = some 41) ∧
    Life ex0 () () (exCal 100 1) exCalL w' (exDays1.flatten ++ exDays2.flatten) (exDays1.flatten ++ exDays2.flatten) (some (130, ())) true ∧
    (w' 0).rgs.map RG.rows = [[(0, some [[3, 2]])], [(31, some [[28, 16]])],
      [(59, some [[96, 64]]), (90, some [[128, 128]]), (120, some [[768, 512]])]] ∧
    ((w' 1).rgs.map RG.rows).flatten = [(7, some [[1, 1]]), (14, some [[3, 2]]), (21, some [[3, 2]]), (28, some [[3, 2]]), (35, none),
      (42, some [[12, 8]]), (49, some [[12, 8]]), (56, some [[28, 16]]), (63, some [[32, 32]]), (70, some [[32, 32]]), (77, some [[96, 64]]),
      (84, some [[96, 64]]), (91, none), (98, some [[128, 128]]), (105, some [[128, 128]]), (112, some [[128, 128]]), (119, some [[128, 128]]),
      (126, some [[256, 256]]), (133, some [[768, 512]])] := by
  obtain ⟨s1, w1, s2, s2', w2, s3, s3', w3, e1, er, e2, e3, e4, e5, e6, e8, e9, e10, e11, e12, e13, e14, e15⟩ :
      ∃ (s1 : State (List (List Int)) ExBuf Unit Unit) (w1 : ExWorld ExBuf)
        (s2 s2' : State (List (List Int)) ExBuf Unit Unit) (w2 : ExWorld ExBuf)
        (s3 s3' : State (List (List Int)) ExBuf Unit Unit) (w3 : ExWorld ExBuf),
      aggs (exConf [(0, exCal 100 1)]) ([] ++ [⟨exDays1, false, false, true⟩]) (exState 1 ex0) exWorld = .ok (s1, w1) ∧
      received (exConf [(0, exCal 100 1)]) 0 ([] ++ [⟨exDays1, false, false, true⟩])
        (exState 1 ex0 : State (List (List Int)) ExBuf Unit Unit).restart
        (exState 1 ex0 : State (List (List Int)) ExBuf Unit Unit).pre = exDays1.flatten ∧
      s1.restart = some 41 ∧
      initBuffers ex0 () () (exConf [(0, exCal 0 2)]) w1 = .ok s2 ∧
      aggs (exConf [(0, exCal 0 2)]) [⟨exDays2, false, false, false⟩] s2 w1 = .ok (s2', w2) ∧
      received (exConf [(0, exCal 0 2)]) 0 [⟨exDays2, false, false, false⟩] s2.restart s2.pre = exDays2.flatten ∧
      (w1 0).rgs.isEmpty = false ∧
      initBuffers ex0 () () (exConf [(0, exCal 100 3)]) w2 = .ok s3 ∧
      aggs (exConf [(0, exCal 100 3)]) ([] ++ [⟨[exDays2.flatten], false, false, true⟩]) s3 w2 = .ok (s3', w3) ∧
      s3'.restart = some 130 ∧
      received (exConf [(0, exCal 100 3)]) 0 ([] ++ [⟨[exDays2.flatten], false, false, true⟩]) s3.restart s3.pre =
        exDays2.flatten ∧
      (w2 0).rgs.map RG.rows = [[(0, some [[3, 2]])], [(31, some [[28, 16]])], [(59, some [[96, 64]])]] ∧
      (w3 0).rgs.map RG.rows = [[(0, some [[3, 2]])], [(31, some [[28, 16]])],
        [(59, some [[96, 64]]), (90, some [[128, 128]]), (120, some [[768, 512]])]] ∧
      ((w3 1).rgs.map RG.rows).flatten = [(7, some [[1, 1]]), (14, some [[3, 2]]), (21, some [[3, 2]]), (28, some [[3, 2]]), (35, none),
        (42, some [[12, 8]]), (49, some [[12, 8]]), (56, some [[28, 16]]), (63, some [[32, 32]]), (70, some [[32, 32]]), (77, some [[96, 64]]),
        (84, some [[96, 64]]), (91, none), (98, some [[128, 128]]), (105, some [[128, 128]]), (112, some [[128, 128]]), (119, some [[128, 128]]),
        (126, some [[256, 256]]), (133, some [[768, 512]])] ∧
      ∀ m size, ∃ s, initBuffers ex0 () () (exConf [(0, exCal m size)]) w2 = .ok s ∧ s.restart = some 41 :=
    ⟨_, _, _, _, _, _, _, _, rfl, rfl, rfl, rfl, rfl, rfl, rfl, rfl, rfl, rfl, rfl, rfl, rfl, rfl, fun _ _ => ⟨_, rfl, rfl⟩⟩
  obtain ⟨h1, h2⟩ := exLivesOf (key := exCal) (L := exCalL) exCal_in (fun _ h => h.2) (fun _ _ => ⟨rfl, rfl, rfl, rfl⟩) rfl
    (by decide) (by decide) e1 er e2 e3 e4 e5 e6 e8 e9 e10 e11
  exact ⟨w2, w3, h1, e12, e15, h2, e13, e14⟩

-- rows of the stored results are those of one call on all rows
example : ∃ w' : ExWorld ExBuf, (w' 0).rgs.map RG.rows = [[(0, some [[3, 2]])], [(31, some [[28, 16]])],
      [(59, some [[96, 64]]), (90, some [[128, 128]]), (120, some [[768, 512]])]] ∧
    ∃ one sns, frameCall (fun _ : Unit => intOps) ex_get ex_cfg exZ (exMonth.fn Prod.fst) (some Prod.fst)
      (some exWeek.snaps) false (exDays1.flatten ++ exDays2.flatten) none = .ok (some one, none) ∧ one.snaps = some sns ∧
      readRows (w' 0).rgs = one.bins.map id ∧ readRows (w' 1).rgs = sns.map id := by
  obtain ⟨-, w', -, -, -, h, h1, -⟩ := exCalLife
  obtain ⟨one, sns, g1, g2, -, g3⟩ := C67_sessions_snapshots (emb := id) (fun _ => intOps) ex_get (dtype := fun _ => some ()) (agg := exAgg)
    (gc := ex_cfg) exZ rfl exMonth (exMonth_ok _) exWeek (exWeek_ok _) Prod.fst (by decide) (fun _ h => h.1) (exCal_in 100 1) (by decide) (by decide) h
  exact ⟨w', h1, one, sns, g1, g2, g3 rfl⟩

-- after the stop, calls of a stream with any memory limit and row group size end
example (m size : Nat) (hsize : size ≠ 0) : ∃ (w : ExWorld ExBuf) (s : State (List (List Int)) ExBuf Unit Unit),
    (w 0).rgs.map (·.rows.length) = [1, 1, 1] ∧ initBuffers ex0 () () (exConf [(0, exCal m size)]) w = .ok s ∧
    s.restart = some 41 ∧ ∃ s' w', aggs (exConf [(0, exCal m size)])
      [⟨exDays2, false, false, false⟩, ⟨[[(160, 1024), (170, 2048)]], false, false, true⟩] s w = .ok (s', w') := by
  obtain ⟨w, -, hl, hw, hi, -⟩ := exCalLife
  obtain ⟨s, h1, h2⟩ := hi m size
  refine ⟨w, s, by simpa [Function.comp_def] using congrArg (List.map List.length) hw, h1, h2, ?_⟩
  refine C72_ends (c := exConf [(0, exCal m size)]) (List.pairwise_singleton _ _) h1
    (C59_iter rfl (by simp [exConf]) (by simp [exDays2, Ascending, exConf]) _ _) ?_
  intro k hk
  obtain rfl : k = (0, exCal m size) := by simpa [exConf] using hk
  have hfr : frames (exConf [(0, exCal m size)]) 0 [⟨exDays2, false, false, false⟩, ⟨[[(160, 1024), (170, 2048)]], false, false, true⟩]
      s.restart s.pre = exDays2 ++ [[(160, 1024), (170, 2048)]] := by rw [h2]; rfl
  have hrec : received (exConf [(0, exCal m size)]) 0 [⟨exDays2, false, false, false⟩,
      ⟨[[(160, 1024), (170, 2048)]], false, false, true⟩] s.restart s.pre = exDays2.flatten ++ [(160, 1024), (170, 2048)] := by rw [h2]; rfl
  refine C67_resumes_snapshots (k := exCal 100 1) (emb := id) (e0 := true) (all := exDays1.flatten ++ exDays2.flatten ++ [(160, 1024), (170, 2048)])
    (fun _ : Unit => intOps) ex_get (dtype := fun _ => some ()) (agg := exAgg) (gc := ex_cfg) exZ rfl exMonth (exMonth_ok _) exWeek
    (exWeek_ok _) Prod.fst (by decide) ⟨rfl, rfl, rfl, rfl⟩ (fun _ h => h.1) (exCal_in 100 1) (exCal_in m size).1
    (fun _ => .inl ⟨rfl, fun _ => rfl⟩) hl (exCal_emb m size) (fun _ _ _ _ _ => ⟨by simpa [exCal, exBothF] using hsize, .inl rfl⟩)
    (fun _ _ _ _ => ⟨by simpa [exCal, exBothF] using hsize, .inl rfl⟩) ⟨_, rfl⟩ (by rw [hrec]; decide) (by decide) ?_ ?_ ?_
  · rw [hfr]
    exact fun _ => NewSpan.of_all _ (exMonth_ok .left).1 .left rfl (by decide +kernel)
  · rw [hfr]
    exact NewSpan.of_all _ (exWeek_ok .left).1 .left rfl (by decide +kernel)
  · rw [hfr]
    exact fun _ => NoZero.of_all (by decide +kernel)


/-- Bins of months only. -/
def exCalB (maxSize size : Nat) : KeyCfg Nat (Int × Int) (List (List Int)) ExBuf Unit :=
  { exKeyF 10 maxSize size with
    call := inPlace (frameCall (fun _ => intOps) ex_get ex_cfg exZ (exMonth.fn Prod.fst) none none true) }

theorem exCalB_emb (m size : Nat) : Embeds id (inPlace (frameCall (fun _ : Unit => intOps) ex_get ex_cfg exZ (exMonth.fn Prod.fst)
    none none true)) (exCalB m size).call := fun p b => by
  simp only [exCalB, id]
  cases inPlace (frameCall (fun _ => intOps) ex_get ex_cfg exZ (exMonth.fn Prod.fst) none none true) p b <;> rfl

def exCalBL : KeyCfg Nat (Int × Int) (List (List Int)) ExBuf Unit → Prop := fun cfg =>
  SameBins (fun _ : Unit => intOps) ex_get exZ ex_cfg (exMonth.fn Prod.fst) none id id id 0 (.one 0) cfg ∧ NoCoalescing cfg

theorem exCalB_in (m size : Nat) : exCalBL (exCalB m size) :=
  let h := exSameBins m size
  ⟨⟨⟨true, exCalB_emb m size⟩, h.bins, h.post, h.write, h.label⟩, rfl, fun _ => rfl⟩

theorem exCalBLife : ∃ w w' : ExWorld ExBuf,
    Life ex0 () () (exCalB 100 1) exCalBL w exDays1.flatten (exDays1.flatten ++ exDays2.flatten) (some (41, ())) true ∧
    (w 0).rgs.map RG.rows = [[(0, some [[3, 2]])], [(31, some [[28, 16]])], [(59, some [[96, 64]])]] ∧
    (∀ m size, ∃ s, initBuffers ex0 () () (exConf [(0, exCalB m size)]) w = .ok s ∧ s.restart = some 41) ∧
    Life ex0 () () (exCalB 100 1) exCalBL w' (exDays1.flatten ++ exDays2.flatten) (exDays1.flatten ++ exDays2.flatten) (some (130, ())) true ∧
    (w' 0).rgs.map RG.rows = [[(0, some [[3, 2]])], [(31, some [[28, 16]])], [(59, some [[96, 64]]), (90, some [[128, 128]]), (120, some [[768, 512]])]] ∧
    ((w' 1).rgs.map RG.rows).flatten = [] := by
  obtain ⟨s1, w1, s2, s2', w2, s3, s3', w3, e1, er, e2, e3, e4, e5, e6, e8, e9, e10, e11, e12, e13, e14, e15⟩ :
      ∃ (s1 : State (List (List Int)) ExBuf Unit Unit) (w1 : ExWorld ExBuf)
        (s2 s2' : State (List (List Int)) ExBuf Unit Unit) (w2 : ExWorld ExBuf)
        (s3 s3' : State (List (List Int)) ExBuf Unit Unit) (w3 : ExWorld ExBuf),
      aggs (exConf [(0, exCalB 100 1)]) ([] ++ [⟨exDays1, false, false, true⟩]) (exState 1 ex0) exWorld = .ok (s1, w1) ∧
      received (exConf [(0, exCalB 100 1)]) 0 ([] ++ [⟨exDays1, false, false, true⟩])
        (exState 1 ex0 : State (List (List Int)) ExBuf Unit Unit).restart
        (exState 1 ex0 : State (List (List Int)) ExBuf Unit Unit).pre = exDays1.flatten ∧
      s1.restart = some 41 ∧
      initBuffers ex0 () () (exConf [(0, exCalB 0 2)]) w1 = .ok s2 ∧
      aggs (exConf [(0, exCalB 0 2)]) [⟨exDays2, false, false, false⟩] s2 w1 = .ok (s2', w2) ∧
      received (exConf [(0, exCalB 0 2)]) 0 [⟨exDays2, false, false, false⟩] s2.restart s2.pre = exDays2.flatten ∧
      (w1 0).rgs.isEmpty = false ∧
      initBuffers ex0 () () (exConf [(0, exCalB 100 3)]) w2 = .ok s3 ∧
      aggs (exConf [(0, exCalB 100 3)]) ([] ++ [⟨[exDays2.flatten], false, false, true⟩]) s3 w2 = .ok (s3', w3) ∧
      s3'.restart = some 130 ∧
      received (exConf [(0, exCalB 100 3)]) 0 ([] ++ [⟨[exDays2.flatten], false, false, true⟩]) s3.restart s3.pre =
        exDays2.flatten ∧
      (w2 0).rgs.map RG.rows = [[(0, some [[3, 2]])], [(31, some [[28, 16]])], [(59, some [[96, 64]])]] ∧
      (w3 0).rgs.map RG.rows = [[(0, some [[3, 2]])], [(31, some [[28, 16]])], [(59, some [[96, 64]]), (90, some [[128, 128]]), (120, some [[768, 512]])]] ∧
      ((w3 1).rgs.map RG.rows).flatten = [] ∧
      ∀ m size, ∃ s, initBuffers ex0 () () (exConf [(0, exCalB m size)]) w2 = .ok s ∧ s.restart = some 41 :=
    ⟨_, _, _, _, _, _, _, _, rfl, rfl, rfl, rfl, rfl, rfl, rfl, rfl, rfl, rfl, rfl, rfl, rfl, rfl, fun _ _ => ⟨_, rfl, rfl⟩⟩
  obtain ⟨h1, h2⟩ := exLivesOf (key := exCalB) (L := exCalBL) exCalB_in (fun _ h => h.2) (fun _ _ => ⟨rfl, rfl, rfl, rfl⟩) rfl
    (by decide) (by decide) e1 er e2 e3 e4 e5 e6 e8 e9 e10 e11
  exact ⟨w2, w3, h1, e12, e15, h2, e13, e14⟩

-- rows of the stored results are those of one call on all rows
example : ∃ w' : ExWorld ExBuf, (w' 0).rgs.map RG.rows = [[(0, some [[3, 2]])], [(31, some [[28, 16]])], [(59, some [[96, 64]]), (90, some [[128, 128]]), (120, some [[768, 512]])]] ∧
    ∃ one, frameCall (fun _ : Unit => intOps) ex_get ex_cfg exZ (exMonth.fn Prod.fst) none none false
      (exDays1.flatten ++ exDays2.flatten) none = .ok (some one, none) ∧ readRows (w' 0).rgs = one.bins.map id := by
  obtain ⟨-, w', -, -, -, h, h1, -⟩ := exCalBLife
  exact ⟨w', h1, C67_sessions (emb := id) (fun _ => intOps) ex_get (dtype := fun _ => some ()) (agg := exAgg)
    (gc := ex_cfg) exZ rfl exMonth (exMonth_ok _) Prod.fst none (fun _ h => h.1) (exCalB_in 100 1) (by decide) (by decide) (by simp) h⟩

-- after the stop, calls of a stream with any memory limit and row group size end
example (m size : Nat) (hsize : size ≠ 0) : ∃ (w : ExWorld ExBuf) (s : State (List (List Int)) ExBuf Unit Unit),
    (w 0).rgs.isEmpty = false ∧ initBuffers ex0 () () (exConf [(0, exCalB m size)]) w = .ok s ∧
    s.restart = some 41 ∧ ∃ s' w', aggs (exConf [(0, exCalB m size)])
      [⟨exDays2, false, false, false⟩, ⟨[[(160, 1024), (170, 2048)]], false, false, true⟩] s w = .ok (s', w') := by
  obtain ⟨w, -, hl, hw, hi, -⟩ := exCalBLife
  obtain ⟨s, h1, h2⟩ := hi m size
  refine ⟨w, s, by simpa using congrArg List.isEmpty hw, h1, h2, ?_⟩
  refine C72_ends (c := exConf [(0, exCalB m size)]) (List.pairwise_singleton _ _) h1
    (C59_iter rfl (by simp [exConf]) (by simp [exDays2, Ascending, exConf]) _ _) ?_
  intro k hk
  obtain rfl : k = (0, exCalB m size) := by simpa [exConf] using hk
  have hfr : frames (exConf [(0, exCalB m size)]) 0 [⟨exDays2, false, false, false⟩, ⟨[[(160, 1024), (170, 2048)]], false, false, true⟩]
      s.restart s.pre = exDays2 ++ [[(160, 1024), (170, 2048)]] := by rw [h2]; rfl
  have hrec : received (exConf [(0, exCalB m size)]) 0 [⟨exDays2, false, false, false⟩,
      ⟨[[(160, 1024), (170, 2048)]], false, false, true⟩] s.restart s.pre = exDays2.flatten ++ [(160, 1024), (170, 2048)] := by rw [h2]; rfl
  refine C67_resumes (k := exCalB 100 1) (emb := id) (e0 := true) (all := exDays1.flatten ++ exDays2.flatten ++ [(160, 1024), (170, 2048)])
    (fun _ : Unit => intOps) ex_get (dtype := fun _ => some ()) (agg := exAgg) (gc := ex_cfg) exZ rfl exMonth (exMonth_ok _) Prod.fst none
    ⟨rfl, rfl, rfl, rfl⟩ (fun _ h => h.1) (exCalB_in 100 1) (exCalB_in m size).1
    (fun _ => .inl ⟨rfl, fun _ => rfl⟩) hl (exCalB_emb m size) (fun _ _ _ _ => ⟨by simpa [exCalB, exKeyF] using hsize, .inl rfl⟩)
    ⟨_, rfl⟩ (by rw [hrec]; decide) (by decide) (by simp) (by rw [hfr]; exact NewSpan.of_all _ (exMonth_ok .left).1 .left rfl (by decide +kernel)) (by rw [hfr]; exact fun _ => NoZero.of_all (by decide +kernel))

/-- Bins of two rows, right-closed, and snapshots of weeks. -/
def exCalR (maxSize size : Nat) : KeyCfg Nat (Int × Int) (List (List Int)) (Buf (Option RowsBuf) (List (List Int))) Unit :=
  { exRowsBoth maxSize size with
    call := inPlace (frameCall (fun _ => intOps) ex_get ex_cfg exZ (rowsFn 2 .right Prod.fst) (some Prod.fst) (some exWeek.snaps) true) }

theorem exCalR_emb (m size : Nat) : Embeds id (inPlace (frameCall (fun _ : Unit => intOps) ex_get ex_cfg exZ (rowsFn 2 .right Prod.fst)
    (some Prod.fst) (some exWeek.snaps) true)) (exCalR m size).call := fun p b => by
  simp only [exCalR, id]
  cases inPlace (frameCall (fun _ => intOps) ex_get ex_cfg exZ (rowsFn 2 .right Prod.fst) (some Prod.fst) (some exWeek.snaps) true) p b <;> rfl

def exCalRL : KeyCfg Nat (Int × Int) (List (List Int)) (Buf (Option RowsBuf) (List (List Int))) Unit → Prop := fun cfg =>
  SameSnaps (fun _ : Unit => intOps) ex_get exZ ex_cfg (rowsFn 2 .right Prod.fst) Prod.fst exWeek.snaps id id id 0 (.one 0) .both cfg ∧ NoCoalescing cfg

theorem exCalR_in (m size : Nat) : exCalRL (exCalR m size) :=
  let h := exRowsBoth_kept m size
  ⟨⟨⟨true, exCalR_emb m size⟩, h.type, h.pair, h.post, h.write, h.writeSnap, h.label, h.labelSnap⟩, rfl, fun _ => rfl⟩

theorem exCalRLife : ∃ w w' : ExWorld (Buf (Option RowsBuf) (List (List Int))),
    Life (Buf.init none) () () (exCalR 100 1) exCalRL w exDays1.flatten (exDays1.flatten ++ exDays2.flatten) (some (41, ())) true ∧
    (w 0).rgs.map RG.rows = [[(1, some [[3, 2]])], [(40, some [[12, 8]])], [(50, some [[48, 32]])]] ∧
    (∀ m size, ∃ s, initBuffers (Buf.init none) () () (exConf [(0, exCalR m size)]) w = .ok s ∧ s.restart = some 41) ∧
    Life (Buf.init none) () () (exCalR 100 1) exCalRL w' (exDays1.flatten ++ exDays2.flatten) (exDays1.flatten ++ exDays2.flatten) (some (130, ())) true ∧
    (w' 0).rgs.map RG.rows = [[(1, some [[3, 2]])], [(40, some [[12, 8]])], [(50, some [[48, 32]]), (70, some [[192, 128]]), (121, some [[768, 512]])]] ∧
    ((w' 1).rgs.map RG.rows).flatten = [(7, some [[3, 2]]), (14, none), (21, none), (28, none), (35, none), (42, none), (49, none), (56, some [[16, 16]]), (63, none),
      (70, some [[64, 64]]), (77, some [[64, 64]]), (84, some [[64, 64]]), (91, some [[64, 64]]), (98, none), (105, none), (112, none),
      (119, none), (126, some [[256, 256]]), (133, none)] := by
  obtain ⟨s1, w1, s2, s2', w2, s3, s3', w3, e1, er, e2, e3, e4, e5, e6, e8, e9, e10, e11, e12, e13, e14, e15⟩ :
      ∃ (s1 : State (List (List Int)) (Buf (Option RowsBuf) (List (List Int))) Unit Unit) (w1 : ExWorld (Buf (Option RowsBuf) (List (List Int))))
        (s2 s2' : State (List (List Int)) (Buf (Option RowsBuf) (List (List Int))) Unit Unit) (w2 : ExWorld (Buf (Option RowsBuf) (List (List Int))))
        (s3 s3' : State (List (List Int)) (Buf (Option RowsBuf) (List (List Int))) Unit Unit) (w3 : ExWorld (Buf (Option RowsBuf) (List (List Int)))),
      aggs (exConf [(0, exCalR 100 1)]) ([] ++ [⟨exDays1, false, false, true⟩]) (exState 1 (Buf.init none)) exWorld = .ok (s1, w1) ∧
      received (exConf [(0, exCalR 100 1)]) 0 ([] ++ [⟨exDays1, false, false, true⟩])
        (exState 1 (Buf.init none) : State (List (List Int)) (Buf (Option RowsBuf) (List (List Int))) Unit Unit).restart
        (exState 1 (Buf.init none) : State (List (List Int)) (Buf (Option RowsBuf) (List (List Int))) Unit Unit).pre = exDays1.flatten ∧
      s1.restart = some 41 ∧
      initBuffers (Buf.init none) () () (exConf [(0, exCalR 0 2)]) w1 = .ok s2 ∧
      aggs (exConf [(0, exCalR 0 2)]) [⟨exDays2, false, false, false⟩] s2 w1 = .ok (s2', w2) ∧
      received (exConf [(0, exCalR 0 2)]) 0 [⟨exDays2, false, false, false⟩] s2.restart s2.pre = exDays2.flatten ∧
      (w1 0).rgs.isEmpty = false ∧
      initBuffers (Buf.init none) () () (exConf [(0, exCalR 100 3)]) w2 = .ok s3 ∧
      aggs (exConf [(0, exCalR 100 3)]) ([] ++ [⟨[exDays2.flatten], false, false, true⟩]) s3 w2 = .ok (s3', w3) ∧
      s3'.restart = some 130 ∧
      received (exConf [(0, exCalR 100 3)]) 0 ([] ++ [⟨[exDays2.flatten], false, false, true⟩]) s3.restart s3.pre =
        exDays2.flatten ∧
      (w2 0).rgs.map RG.rows = [[(1, some [[3, 2]])], [(40, some [[12, 8]])], [(50, some [[48, 32]])]] ∧
      (w3 0).rgs.map RG.rows = [[(1, some [[3, 2]])], [(40, some [[12, 8]])], [(50, some [[48, 32]]), (70, some [[192, 128]]), (121, some [[768, 512]])]] ∧
      ((w3 1).rgs.map RG.rows).flatten = [(7, some [[3, 2]]), (14, none), (21, none), (28, none), (35, none), (42, none), (49, none), (56, some [[16, 16]]), (63, none),
      (70, some [[64, 64]]), (77, some [[64, 64]]), (84, some [[64, 64]]), (91, some [[64, 64]]), (98, none), (105, none), (112, none),
      (119, none), (126, some [[256, 256]]), (133, none)] ∧
      ∀ m size, ∃ s, initBuffers (Buf.init none) () () (exConf [(0, exCalR m size)]) w2 = .ok s ∧ s.restart = some 41 :=
    ⟨_, _, _, _, _, _, _, _, rfl, rfl, rfl, rfl, rfl, rfl, rfl, rfl, rfl, rfl, rfl, rfl, rfl, rfl, fun _ _ => ⟨_, rfl, rfl⟩⟩
  obtain ⟨h1, h2⟩ := exLivesOf (key := exCalR) (L := exCalRL) exCalR_in (fun _ h => h.2) (fun _ _ => ⟨rfl, rfl, rfl, rfl⟩) rfl
    (by decide) (by decide) e1 er e2 e3 e4 e5 e6 e8 e9 e10 e11
  exact ⟨w2, w3, h1, e12, e15, h2, e13, e14⟩

example : ∃ w' : ExWorld (Buf (Option RowsBuf) (List (List Int))), ((w' 0).rgs.map RG.rows).flatten.length = 5 ∧
    ∃ one sns, frameCall (fun _ : Unit => intOps) ex_get ex_cfg exZ (rowsFn 2 .right Prod.fst) (some Prod.fst)
      (some exWeek.snaps) false (exDays1.flatten ++ exDays2.flatten) none = .ok (some one, none) ∧ one.snaps = some sns ∧
      readRows (w' 0).rgs = one.bins.map id ∧ readRows (w' 1).rgs = sns.map id := by
  obtain ⟨-, w', -, -, -, h, h1, -⟩ := exCalRLife
  obtain ⟨one, sns, g1, g2, -, g3⟩ := C67_sessions_rows (emb := id) (fun _ => intOps) ex_get (dtype := fun _ => some ()) (agg := exAgg)
    (gc := ex_cfg) exZ rfl 2 (by decide) .right exWeek (exWeek_ok _) Prod.fst (by decide) (fun _ h => h.1) (exCalR_in 100 1) (by decide)
    (by decide) (fun _ => by decide) h
  exact ⟨w', by rw [h1]; rfl, one, sns, g1, g2, g3 rfl⟩

-- after the stop, calls of a stream with any memory limit and row group size end
example (m size : Nat) (hsize : size ≠ 0) : ∃ (w : ExWorld (Buf (Option RowsBuf) (List (List Int)))) (s : State (List (List Int)) (Buf (Option RowsBuf) (List (List Int))) Unit Unit),
    (w 0).rgs.isEmpty = false ∧ initBuffers (Buf.init none) () () (exConf [(0, exCalR m size)]) w = .ok s ∧
    s.restart = some 41 ∧ ∃ s' w', aggs (exConf [(0, exCalR m size)])
      [⟨exDays2, false, false, false⟩, ⟨[[(160, 1024), (170, 2048)]], false, false, true⟩] s w = .ok (s', w') := by
  obtain ⟨w, -, hl, hw, hi, -⟩ := exCalRLife
  obtain ⟨s, h1, h2⟩ := hi m size
  refine ⟨w, s, by simpa using congrArg List.isEmpty hw, h1, h2, ?_⟩
  refine C72_ends (c := exConf [(0, exCalR m size)]) (List.pairwise_singleton _ _) h1
    (C59_iter rfl (by simp [exConf]) (by simp [exDays2, Ascending, exConf]) _ _) ?_
  intro k hk
  obtain rfl : k = (0, exCalR m size) := by simpa [exConf] using hk
  have hfr : frames (exConf [(0, exCalR m size)]) 0 [⟨exDays2, false, false, false⟩, ⟨[[(160, 1024), (170, 2048)]], false, false, true⟩]
      s.restart s.pre = exDays2 ++ [[(160, 1024), (170, 2048)]] := by rw [h2]; rfl
  have hrec : received (exConf [(0, exCalR m size)]) 0 [⟨exDays2, false, false, false⟩,
      ⟨[[(160, 1024), (170, 2048)]], false, false, true⟩] s.restart s.pre = exDays2.flatten ++ [(160, 1024), (170, 2048)] := by rw [h2]; rfl
  refine C67_resumes_rows (k := exCalR 100 1) (emb := id) (e0 := true) (all := exDays1.flatten ++ exDays2.flatten ++ [(160, 1024), (170, 2048)])
    (fun _ : Unit => intOps) ex_get (dtype := fun _ => some ()) (agg := exAgg) (gc := ex_cfg) exZ rfl 2 (by decide) .right exWeek (exWeek_ok _) Prod.fst (by decide)
    ⟨rfl, rfl, rfl, rfl⟩ (fun _ h => h.1) (exCalR_in 100 1) (exCalR_in m size).1
    (fun _ => .inl ⟨rfl, fun _ => rfl⟩) hl (exCalR_emb m size) (fun _ => ⟨by simpa [exCalR, exRowsBoth, exRowsF] using hsize, .inl rfl⟩)
    (fun _ _ _ _ => ⟨by simpa [exCalR, exRowsBoth, exRowsF] using hsize, .inl rfl⟩)
    ⟨_, rfl⟩ (by rw [hrec]; decide) (by decide) (fun _ => by decide) (by rw [hfr]; exact fun _ => by decide) (by rw [hfr]; exact NewSpan.of_all _ (exWeek_ok .right).1 .right rfl (by decide +kernel)) (by rw [hfr]; exact fun _ => NoZero.of_all (by decide +kernel))

end
end Oups.AggStream
