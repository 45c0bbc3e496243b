import Verif.Spec.AggSettings
import Verif.Props.AggRestart
import Verif.Props.AggTotal
/-! C71: settings changed from one session to the next. -/
set_option linter.unusedSimpArgs false
namespace Oups.AggStream
open Oups.Writer (Table Params RG Col DupOn dupCols readRows StrictOn)
open Oups.Agg Oups.Agg.Spec
open Oups.Segment

section
variable {K R A S P Q F : Type} [DecidableEq K] [DecidableEq F]
variable {V : List R → Prop} {FB : List R → List (Row A)} {FS : Option (List R → List (Row A))} {ok : List R → S → Prop}
  {gB gS : Row A → Row A} {on : Col} {d : DupOn}

theorem initBuffers_key {s0 : S} {p0 : P} {q0 : Q} {c : Config K R A S P Q F} {w : World K A (Md S P Q)} {s : State A S P Q}
    (h : initBuffers s0 p0 q0 c w = .ok s) : s.bufs.length = c.keys.length ∧
    ∀ (n : Nat) k, c.keys[n]? = some k → ∃ b, s.bufs[n]? = some b ∧
      ((w k.2.main).inStore = false → b = { seg := s0, post := q0 }) ∧
      ((w k.2.main).inStore = true → ∃ m, (w k.2.main).md = some m ∧ b = { seg := m.seg, post := m.post }) := by
  simp only [initBuffers] at h
  cases h1 : initLoop s0 q0 w c.keys with
  | error e => simp [h1] at h
  | ok x =>
    obtain ⟨rs, bs⟩ := x
    obtain ⟨g1, -, g3, -⟩ := initLoop_ok h1
    have hb : s.bufs = bs := by
      simp only [h1] at h
      cases rs with
      | nil => simp only [Except.ok.injEq] at h; rw [← h]
      | cons y rest =>
        simp only at h
        split at h
        · simp only [Except.ok.injEq] at h; rw [← h]
        · cases h
    rw [hb]
    refine ⟨g1, fun n k hn => ?_⟩
    have hlt : n < bs.length := by rw [g1]; exact (List.getElem?_eq_some_iff.1 hn).1
    exact ⟨bs[n], List.getElem?_eq_getElem hlt, g3 n k _ hn (List.getElem?_eq_getElem hlt)⟩

/-- Between sessions: what is stored are the results on rows `h`, and the buffer recorded is the one after them; or nothing is
stored. -/
def Settled (cfg : KeyCfg K R A S Q) (FB : List R → List (Row A)) (FS : Option (List R → List (Row A))) (ok : List R → S → Prop)
    (gB gS : Row A → Row A) (on : Col) (d : DupOn) (h : List R) (w : World K A (Md S P Q)) : Prop :=
  (∃ (b : KeyBuf A S Q) (h0 : List R), b.Rest ∧ KInv cfg FB FS ok gB gS on d h h0 h b w ∧ (w cfg.main).inStore = true ∧
    ∃ m, (w cfg.main).md = some m ∧ m.seg = b.seg) ∨
  (h = [] ∧ (w cfg.main).inStore = false ∧ (w cfg.main).rgs = [] ∧ (w cfg.snapKey).rgs = [])

theorem TrackOk.retight {p p' : Params} {F : List R → List (Row A)} {g : Row A → Row A} {T : Table (Row A)} {h : List R}
    {base : List (Row A)} {rgs : List (RG (Row A))} (ht : TrackOk p F g T on d h base h [] none rgs) :
    TrackOk p' F g T on d h base h [] none rgs := by
  have he := ht.exact_none
  obtain ⟨hb, pre, h1, h2, h3, -⟩ := ht
  refine ⟨hb, pre, h1, h2, h3, Or.inr ?_⟩
  rw [he]; simp

/-- The invariant of a key at rest does not depend on settings. -/
theorem KInv.resettle {k1 k2 : KeyCfg K R A S Q} (hs : SameTarget k1 k2) {h h0 : List R} {b : KeyBuf A S Q}
    {w : World K A (Md S P Q)} (hr : b.Rest) (hi : KInv k1 FB FS ok gB gS on d h h0 h b w) {b' : KeyBuf A S Q} (hr' : b'.Rest)
    (hb : b'.seg = b.seg) : KInv k2 FB FS ok gB gS on d h h0 h b' w := by
  have hsk : k1.snapKey = k2.snapKey := by simp only [KeyCfg.snapKey, hs.main, hs.snap, hs.resType]
  obtain ⟨h1, h2, h3, h4, h5, h6, h7⟩ := hi
  rw [KeyBuf.Rest] at hr hr'
  rw [hr] at h5 h6
  rw [hr']
  refine ⟨by rw [← hb] at h1; exact h1, h2, fun _ => ⟨rfl, rfl, rfl, rfl⟩, by simp, fun hrt => ?_, fun hrt f hf => ?_, ?_⟩
  · rw [← hs.table, ← hs.main]
    exact (h5 (by rw [hs.resType]; exact hrt)).retight
  · rw [← hs.table, ← hsk]
    exact (h6 (by rw [hs.resType]; exact hrt) f hf).retight
  · rw [← hs.main]; exact h7

/-- One session. -/
theorem Settled.session {k : KeyCfg K R A S Q} {c : Config K R A S P Q F} (hk : Apart c.keys) {i : Nat} {f : F}
    {cfg : KeyCfg K R A S Q} (hi : c.keys[i]? = some (f, cfg)) (hs : SameTarget k cfg) (L : KeyLaws cfg V FB FS ok gB gS on d)
    {s0 : S} {p0 : P} {q0 : Q} (h0 : ok [] s0) {s s' : State A S P Q} {w w' : World K A (Md S P Q)}
    (hin : initBuffers s0 p0 q0 c w = .ok s) {as : List (Call R)} {a : Call R} (ha : a.finalWrite = true)
    (hrun : aggs c (as ++ [a]) s w = .ok (s', w')) {n : Int} (hn : s'.restart = some n) (ht : c.truthy n = true) {h : List R}
    (hV : V (h ++ received c f (as ++ [a]) s.restart s.pre)) (hset : Settled k FB FS ok gB gS on d h w) :
    Settled k FB FS ok gB gS on d (h ++ received c f (as ++ [a]) s.restart s.pre) w' := by
  obtain ⟨hl, hbuf⟩ := initBuffers_key hin
  obtain ⟨b, hb, hb0, hb1⟩ := hbuf i _ hi
  simp only [← hs.main] at hb0 hb1
  -- the invariant at the start of the session
  have hstart : KInv cfg FB FS ok gB gS on d (h ++ received c f (as ++ [a]) s.restart s.pre) h h b w := by
    rcases hset with ⟨b1, _, hr1, hi1, hin1, m, hm, hseg⟩ | ⟨rfl, hin0, hm, hsn⟩
    · obtain ⟨m', hm', rfl⟩ := hb1 hin1
      rw [hm, Option.some.injEq] at hm'
      subst hm'
      exact (hi1.resettle hs hr1 (b' := { seg := m.seg, post := m.post }) rfl hseg).advance L hV ⟨_, rfl⟩ rfl
    · rw [hb0 hin0]
      have hsk : k.snapKey = cfg.snapKey := by simp only [KeyCfg.snapKey, hs.main, hs.snap, hs.resType]
      exact KInv.init L h0 (by rw [← hs.main]; exact hm) (by rw [← hsk]; exact hsn) _
  obtain ⟨b', w1, g1, g2, g3⟩ := aggs_key hk hrun hl hi hb
  obtain ⟨ops, r', pb', hops⟩ := keyOpsAll_final c f as ha s.restart s.pre
  have hrows := opRows_keyOpsAll c f (as ++ [a]) s.restart s.pre
  have hok := keyOpsAll_ok c f (as ++ [a]) s.restart s.pre
  simp only at g1
  rw [hops] at g1 hrows hok
  rw [opRows_append] at hrows
  simp only [opRows, List.append_nil] at hrows
  rw [← hrows] at hstart hV ⊢
  obtain ⟨hi1, hbn, -, -⟩ := keyRun_final L (ops := ops) (fun ch hch => hok ch (List.mem_append_left _ hch)) hV hstart g1
  have hrest := hi1.rest hbn
  have m1 := g3 cfg.main (touches_main cfg)
  have m2 := g3 cfg.snapKey (touches_snapKey cfg)
  -- what the final write records
  have hmd : (w' cfg.main).inStore = true ∧ ∃ m, (w' cfg.main).md = some m ∧ m.seg = b'.seg := by
    obtain ⟨s1, w2, e1, e2⟩ := aggs_append hrun
    simp only [aggs] at e2
    cases hx : agg c a s1 w2 with
    | error e => simp [hx] at e2
    | ok x =>
      obtain ⟨s3, w3, e⟩ := x
      simp only [hx, Except.ok.injEq, Prod.mk.injEq] at e2
      obtain ⟨rfl, rfl⟩ := e2
      have hl1 := aggs_length e1 hl
      have hlt : i < s1.bufs.length := by rw [hl1]; exact (List.getElem?_eq_some_iff.1 hi).1
      obtain ⟨_, _, _, b2, w4, -, -, f3, f4, f5⟩ := agg_final hk ha hx hl1 hi (List.getElem?_eq_getElem hlt)
      rw [g2, Option.some.injEq] at f4
      subst f4
      rw [hn] at f3
      obtain ⟨q1, q2⟩ := final_md L.distinct ht f3
      rw [← f5 _ (touches_main cfg)]
      exact ⟨q1, _, q2, rfl⟩
  have hinv : KInv cfg FB FS ok gB gS on d (h ++ opRows ops) h (h ++ opRows ops) b' w' :=
    ⟨hi1.ok, hi1.pre, hi1.noRes, hi1.hasRes, m1 ▸ hi1.bins, m2 ▸ hi1.snaps, m1 ▸ hi1.wf⟩
  have hs' : SameTarget cfg k := ⟨hs.main.symm, hs.snap.symm, hs.resType.symm, hs.table.symm⟩
  exact Or.inl ⟨b', h, hrest, hinv.resettle hs' hrest hrest rfl, by rw [hs.main]; exact hmd⟩

theorem Settled.sessions {k : KeyCfg K R A S Q} {L : KeyCfg K R A S Q → Prop}
    (hL : ∀ cfg, L cfg → KeyLaws cfg V FB FS ok gB gS on d) {s0 : S} {p0 : P} {q0 : Q} (h0 : ok [] s0) {rows : List R}
    {w w' : World K A (Md S P Q)} (hr : SessionRuns s0 p0 q0 k L w rows w') {h : List R} (hV : V (h ++ rows))
    (hset : Settled k FB FS ok gB gS on d h w) : Settled k FB FS ok gB gS on d (h ++ rows) w' := by
  induction hr generalizing h with
  | nil w => rw [List.append_nil]; exact hset
  | session apart key same law start final calls index truthy next ih =>
    rw [← List.append_assoc] at hV ⊢
    exact ih hV (hset.session apart key same (hL _ law) h0 start final calls index truthy ((hL _ law).valid _ _ hV))

/-- **C71** Sessions one after the other on the same store, each one with its own settings: memory limit, row group size,
`max_nirgs`, filters, other keys, order of keys. For a key whose `cumsegagg` streams the same results with all of them, what is
stored are the results on all rows received over all sessions. -/
theorem C71_settings {k : KeyCfg K R A S Q} {L : KeyCfg K R A S Q → Prop}
    (hL : ∀ cfg, L cfg → KeyLaws cfg V FB FS ok gB gS on d) (hk : L k) {s0 : S} {p0 : P} {q0 : Q} (h0 : ok [] s0)
    {rows : List R} (hV : V rows) {w w' : World K A (Md S P Q)} (hin : (w k.main).inStore = false)
    (hm : (w k.main).rgs = []) (hs : (w k.snapKey).rgs = []) (hr : SessionRuns s0 p0 q0 k L w rows w') :
    (k.resType ≠ .snaps → readRows (w' k.main).rgs = (FB rows).map gB) ∧
    (k.resType ≠ .bins → ∀ fs, FS = some fs → readRows (w' k.snapKey).rgs = (fs rows).map gS) := by
  have := Settled.sessions hL h0 hr (h := []) hV (Or.inr ⟨rfl, hin, hm, hs⟩)
  rw [List.nil_append] at this
  rcases this with ⟨b, h', hrest, hi, -⟩ | ⟨rfl, -, h1, h2⟩
  · obtain ⟨-, -, -, -, h5, h6, -⟩ := hi
    rw [KeyBuf.Rest] at hrest
    rw [hrest] at h5 h6
    exact ⟨fun hr => (h5 hr).exact_none, fun hr f hf => (h6 hr f hf).exact_none⟩
  · refine ⟨fun hr => ?_, fun hr f hf => ?_⟩
    · rw [h1, ((hL _ hk).bins hr).nil]; rfl
    · obtain ⟨f', hf', law⟩ := (hL _ hk).snaps hr
      rw [hf, Option.some.injEq] at hf'
      subst hf'
      rw [h2, law.nil]; rfl

end

section
variable {K R D V S P Q : Type} [DecidableEq K] [DecidableEq D]
variable (O : D → Ops V) (get : R → Nat → V) {dtype : Nat → Option D} {agg : List (Nat × Nat × Option Fn)}
  {gc : List (D × Group)} (z : List (List V) → Bool)
variable {gB gS : Row (List (List V)) → Row (List (List V))} {on : Col} {d : DupOn}

/-- **C71** Key with a `TimeGrouper` for `bin_by`, same aggregations and `bin_by` in all sessions, with or without the check of
zeros: what is stored is what `cumsegagg` returns on all rows at once. -/
theorem C71_time_bins (hagg : setupCumsegagg agg dtype = .ok gc) (g : Grouper) (hg : Fixed g) (pos : R → Int)
    (ordered : Option (R → Int)) {emb : Buf ScaleBuf (List (List V)) → S} {k : KeyCfg K R (List (List V)) S Q}
    {L : KeyCfg K R (List (List V)) S Q → Prop} (hk : L k)
    (hL : ∀ cfg, L cfg → (∃ e0, Embeds emb (inPlace (frameCall O get gc z (grouperFn g pos) ordered none e0)) cfg.call) ∧
      cfg.resType = .bins ∧ PostRow cfg gB gS ∧ WriteOk cfg.table cfg.params on d ∧ ByLabel cfg.table on d gB)
    {rows : List R} (hne : rows ≠ []) (hasc : AscOn pos rows) (ho : ∀ o, ordered = some o → AscOn o rows) {p0 : P} {q0 : Q}
    {w w' : World K (List (List V)) (Md S P Q)} (hin : (w k.main).inStore = false) (hm : (w k.main).rgs = [])
    (hr : SessionRuns (emb (Buf.init {})) p0 q0 k L w rows w') :
    ∃ one, frameCall O get gc z (grouperFn g pos) ordered none false rows none = .ok (some one, none) ∧
      readRows (w' k.main).rgs = one.bins.map gB := by
  have hc := cfgOk_of hagg
  have hLs := grouper_lawful g g.origin0 hg.anchored pos
  have hst := gridSpec_strict (g.closed == .right) g.labelRight g.origin0 g.freq pos rows hg.anchored.1
  obtain ⟨one, h1, h2, _⟩ := frame_once_bins O get hc z hLs ordered hne hasc ho (strictLabels_ok hst)
  have hres := (hL k hk).2.1
  have hms : (w k.snapKey).rgs = [] := by simpa [KeyCfg.snapKey, hres] using hm
  have hv := binsValid_of hLs hasc ho hst
  have hKL := fun cfg (hcfg : L cfg) => keyLaws_bins O get hc z hLs (ordered := ordered) (key := cfg) (hL cfg hcfg).1.choose_spec
    (hL cfg hcfg).2.1 (hL cfg hcfg).2.2.1 (hL cfg hcfg).2.2.2.1 (hL cfg hcfg).2.2.2.2
  have := C71_settings (k := k) hKL hk ⟨_, rfl, frameOk_init O get trivial hLs⟩ hv hin hm hms hr
  exact ⟨one, h1, by rw [this.1 (by simp [hres]), h2]⟩

/-- **C71** Key with `by_x_rows` for `bin_by`: same, rows at different positions. -/
theorem C71_rows_bins (hagg : setupCumsegagg agg dtype = .ok gc) (n : Nat) (hn : 0 < n) (cl : Closed) (pos : R → Int)
    (ordered : Option (R → Int)) {emb : Buf (Option RowsBuf) (List (List V)) → S} {k : KeyCfg K R (List (List V)) S Q}
    {L : KeyCfg K R (List (List V)) S Q → Prop} (hk : L k)
    (hL : ∀ cfg, L cfg → (∃ e0, Embeds emb (inPlace (frameCall O get gc z (rowsFn n cl pos) ordered none e0)) cfg.call) ∧
      cfg.resType = .bins ∧ PostRow cfg gB gS ∧ WriteOk cfg.table cfg.params on d ∧ ByLabel cfg.table on d gB)
    {rows : List R} (hne : rows ≠ []) (hasc : rows.Pairwise fun x y => pos x < pos y)
    (ho : ∀ o, ordered = some o → AscOn o rows) {p0 : P} {q0 : Q}
    {w w' : World K (List (List V)) (Md S P Q)} (hin : (w k.main).inStore = false) (hm : (w k.main).rgs = [])
    (hr : SessionRuns (emb (Buf.init none)) p0 q0 k L w rows w') :
    ∃ one, frameCall O get gc z (rowsFn n cl pos) ordered none false rows none = .ok (some one, none) ∧
      readRows (w' k.main).rgs = one.bins.map gB := by
  have hc := cfgOk_of hagg
  have hLs := rows_lawful n hn cl pos pos
  have hasc' : AscOn pos rows := hasc.imp fun h => by omega
  have hst := xBins_strict (right := cl == .right) hn hasc
  obtain ⟨one, h1, h2, _⟩ := frame_once_bins O get hc z hLs ordered hne hasc' ho (strictLabels_ok hst)
  have hres := (hL k hk).2.1
  have hms : (w k.snapKey).rgs = [] := by simpa [KeyCfg.snapKey, hres] using hm
  have hv := binsValid_of hLs hasc' ho hst
  have hKL := fun cfg (hcfg : L cfg) => keyLaws_bins O get hc z hLs (ordered := ordered) (key := cfg) (hL cfg hcfg).1.choose_spec
    (hL cfg hcfg).2.1 (hL cfg hcfg).2.2.1 (hL cfg hcfg).2.2.2.1 (hL cfg hcfg).2.2.2.2
  have := C71_settings (k := k) hKL hk ⟨_, rfl, frameOk_init O get trivial hLs⟩ hv hin hm hms hr
  exact ⟨one, h1, by rw [this.1 (by simp [hres]), h2]⟩

/-- What a key with snapshots has in common in all sessions. -/
structure SnapsKept {B : Type} (fn : BinFn R B) (pos : R → Int) (sn : Snaps) (emb : Buf B (List (List V)) → S) (t : ResType)
    (cfg : KeyCfg K R (List (List V)) S Q) : Prop where
  call : ∃ e0, Embeds emb (inPlace (frameCall O get gc z fn (some pos) (some sn) e0)) cfg.call
  type : cfg.resType = t
  pair : cfg.resType = .both → cfg.main ≠ cfg.snap
  post : PostRow cfg gB gS
  write : WriteOk cfg.table cfg.params on d
  writeSnap : cfg.resType = .both → WriteOk cfg.table cfg.snapParams on d
  label : cfg.resType = .both → ByLabel cfg.table on d gB
  labelSnap : ByLabel cfg.table on d gS

/-- **C71** Key with snapshots from a `TimeGrouper`, bins from another one: same, for snapshots, and for bins with a pair of
keys. -/
theorem C71_time_snaps (hagg : setupCumsegagg agg dtype = .ok gc) (g : Grouper) (hg : Fixed g) (gs : Grouper) (hgs : Fixed gs)
    (pos : R → Int) {emb : Buf ScaleBuf (List (List V)) → S} {t : ResType} (ht : t ≠ .bins)
    {k : KeyCfg K R (List (List V)) S Q} {L : KeyCfg K R (List (List V)) S Q → Prop} (hk : L k)
    (hL : ∀ cfg, L cfg → SnapsKept O get z (gc := gc) (gB := gB) (gS := gS) (on := on) (d := d) (grouperFn g pos) pos
      (.grouper gs) emb t cfg)
    {rows : List R} (hne : rows ≠ []) (hasc : AscOn pos rows) {p0 : P} {q0 : Q}
    {w w' : World K (List (List V)) (Md S P Q)} (hin : (w k.main).inStore = false) (hm : (w k.main).rgs = [])
    (hms : t = .both → (w k.snap).rgs = []) (hr : SessionRuns (emb (Buf.init {})) p0 q0 k L w rows w') :
    ∃ one sns, frameCall O get gc z (grouperFn g pos) (some pos) (some (.grouper gs)) false rows none = .ok (some one, none) ∧
      one.snaps = some sns ∧ (t = .snaps → readRows (w' k.main).rgs = sns.map gS) ∧
      (t = .both → readRows (w' k.main).rgs = one.bins.map gB ∧ readRows (w' k.snap).rgs = sns.map gS) := by
  have hc := cfgOk_of hagg
  have hLs := grouper_lawful g g.origin0 hg.anchored pos
  have hSL := grouper_snaps gs gs.origin0 hgs.anchored g.closed pos
  have hst : ∀ q, StrictLabels (gridSpec (g.closed == .right) g.labelRight g.origin0 g.freq pos q) := fun q =>
    gridSpec_strict _ _ _ _ _ _ hg.1
  obtain ⟨one, sns, g1, g2, g3, g4⟩ := frame_once_snaps O get hc z hLs hSL hne hasc (strictLabels_ok (hst _))
    (gridSpec_sep _ _ _ _ _ _ hg.1)
  have hv : SnapsValid pos (g.closed == .right) (decide (t = .both))
      (gridSpec (g.closed == .right) g.labelRight g.origin0 g.freq pos)
      (gridPts (g.closed == .right) gs.labelRight gs.origin0 gs.freq pos) rows :=
    ⟨hasc, fun q _ => ⟨strictLabels_ok (hst q), gridSpec_sep _ _ _ _ _ _ hg.1, fun _ => hst q, by
      rw [gridPts_fst]; exact gridSpec_strict _ _ _ _ _ _ hgs.1⟩⟩
  have hkl := fun (cfg : KeyCfg K R (List (List V)) S Q) (hcfg : L cfg) =>
    keyLaws_snaps O get hc z hLs hSL (gridPts_prefix gs hgs g.closed pos)
      (gridPts_ne gs hgs g.closed pos) (hL cfg hcfg).call.choose_spec (by rw [(hL cfg hcfg).type]; exact ht) (hL cfg hcfg).pair
      (hL cfg hcfg).post (hL cfg hcfg).write (hL cfg hcfg).writeSnap (hL cfg hcfg).label (hL cfg hcfg).labelSnap
  have hkl' : ∀ cfg : KeyCfg K R (List (List V)) S Q, L cfg → KeyLaws cfg _ _ _ _ gB gS on d :=
    fun cfg hcfg => (hL cfg hcfg).type ▸ hkl cfg hcfg
  have hty := (hL k hk).type
  have hms' : (w k.snapKey).rgs = [] := by
    unfold KeyCfg.snapKey
    split
    · rename_i h; exact hms (by rw [← hty]; exact h)
    · exact hm
  obtain ⟨h1, h2⟩ := C71_settings hkl' hk ⟨_, rfl, frameOk_init O get hSL.init hLs⟩ hv hin hm hms' hr
  have h2 := h2 (by rw [hty]; exact ht) _ rfl
  refine ⟨one, sns, g1, g3, fun hr => ?_, fun hr => ⟨?_, ?_⟩⟩
  · rw [show k.snapKey = k.main by simp [KeyCfg.snapKey, hty, hr]] at h2
    rw [h2, g4]
  · rw [h1 (by rw [hty, hr]; simp), g2]
  · rw [show k.snapKey = k.snap by simp [KeyCfg.snapKey, hty, hr]] at h2
    rw [h2, g4]

/-- **C71** Key with snapshots from a `TimeGrouper`, bins from `by_x_rows`: same, rows at different positions if right-closed
or with a pair of keys. -/
theorem C71_rows_snaps (hagg : setupCumsegagg agg dtype = .ok gc) (n : Nat) (hn : 0 < n) (cl : Closed) (gs : Grouper)
    (hgs : Fixed gs) (pos : R → Int) {emb : Buf (Option RowsBuf) (List (List V)) → S} {t : ResType} (ht : t ≠ .bins)
    {k : KeyCfg K R (List (List V)) S Q} {L : KeyCfg K R (List (List V)) S Q → Prop} (hk : L k)
    (hL : ∀ cfg, L cfg → SnapsKept O get z (gc := gc) (gB := gB) (gS := gS) (on := on) (d := d) (rowsFn n cl pos) pos
      (.grouper gs) emb t cfg)
    {rows : List R} (hne : rows ≠ []) (hasc : AscOn pos rows)
    (hties : cl = .right ∨ t = .both → rows.Pairwise fun x y => pos x < pos y) {p0 : P} {q0 : Q}
    {w w' : World K (List (List V)) (Md S P Q)} (hin : (w k.main).inStore = false) (hm : (w k.main).rgs = [])
    (hms : t = .both → (w k.snap).rgs = []) (hr : SessionRuns (emb (Buf.init none)) p0 q0 k L w rows w') :
    ∃ one sns, frameCall O get gc z (rowsFn n cl pos) (some pos) (some (.grouper gs)) false rows none = .ok (some one, none) ∧
      one.snaps = some sns ∧ (t = .snaps → readRows (w' k.main).rgs = sns.map gS) ∧
      (t = .both → readRows (w' k.main).rgs = one.bins.map gB ∧ readRows (w' k.snap).rgs = sns.map gS) := by
  have hc := cfgOk_of hagg
  have hLs := rows_lawful n hn cl pos pos
  have hSL := grouper_snaps gs gs.origin0 hgs.anchored cl pos
  have hst : t = .both → ∀ q, q <+: rows → StrictLabels (xBins (cl == .right) n pos q) := fun hb q hq =>
    xBins_strict hn (List.Pairwise.sublist hq.sublist (hties (Or.inr hb)))
  have hsep : ∀ q, q <+: rows → Separated (cl == .right) pos (xBins (cl == .right) n pos q) := fun q hq =>
    xBins_sep _ n hn pos q (List.Pairwise.sublist hq.sublist hasc)
      (fun hr => List.Pairwise.sublist hq.sublist (hties (Or.inl (by simpa using hr))))
  obtain ⟨one, sns, g1, g2, g3, g4⟩ := frame_once_snaps O get hc z hLs hSL hne hasc (xBins_labels _ n hn pos _)
    (hsep _ (List.prefix_refl _))
  have hv : SnapsValid pos (cl == .right) (decide (t = .both)) (xBins (cl == .right) n pos)
      (gridPts (cl == .right) gs.labelRight gs.origin0 gs.freq pos) rows :=
    ⟨hasc, fun q hq => ⟨xBins_labels _ n hn pos _, hsep q hq, fun hb => hst (by simpa using hb) q hq, by
      rw [gridPts_fst]; exact gridSpec_strict _ _ _ _ _ _ hgs.1⟩⟩
  have hkl := fun (cfg : KeyCfg K R (List (List V)) S Q) (hcfg : L cfg) =>
    keyLaws_snaps O get hc z hLs hSL (gridPts_prefix gs hgs cl pos)
      (gridPts_ne gs hgs cl pos) (hL cfg hcfg).call.choose_spec (by rw [(hL cfg hcfg).type]; exact ht) (hL cfg hcfg).pair
      (hL cfg hcfg).post (hL cfg hcfg).write (hL cfg hcfg).writeSnap (hL cfg hcfg).label (hL cfg hcfg).labelSnap
  have hkl' : ∀ cfg : KeyCfg K R (List (List V)) S Q, L cfg → KeyLaws cfg _ _ _ _ gB gS on d :=
    fun cfg hcfg => (hL cfg hcfg).type ▸ hkl cfg hcfg
  have hty := (hL k hk).type
  have hms' : (w k.snapKey).rgs = [] := by
    unfold KeyCfg.snapKey
    split
    · rename_i h; exact hms (by rw [← hty]; exact h)
    · exact hm
  obtain ⟨h1, h2⟩ := C71_settings hkl' hk ⟨_, rfl, frameOk_init O get hSL.init hLs⟩ hv hin hm hms' hr
  have h2 := h2 (by rw [hty]; exact ht) _ rfl
  refine ⟨one, sns, g1, g3, fun hr => ?_, fun hr => ⟨?_, ?_⟩⟩
  · rw [show k.snapKey = k.main by simp [KeyCfg.snapKey, hty, hr]] at h2
    rw [h2, g4]
  · rw [h1 (by rw [hty, hr]; simp), g2]
  · rw [show k.snapKey = k.snap by simp [KeyCfg.snapKey, hty, hr]] at h2
    rw [h2, g4]

end

/-! ### Examples -/

section

/-- As `exKey`, with bins of length `freq`, row groups of `size` rows. -/
def exKeyF (freq : Nat) (maxSize size : Nat) : KeyCfg Nat (Int × Int) (List (List Int)) ExBuf Unit :=
  { exKey 0 maxSize with
    call := inPlace (frameCall (fun _ => intOps) ex_get ex_cfg exZ (grouperFn { freq := freq } Prod.fst) none none true)
    params := { orderedOn := some (.col 0), dupOn := some (.one 0), maxRg := some size } }

/-- A stream with other settings and another key, from the same store. -/
def exLater : Config Nat (Int × Int) (List (List Int)) ExBuf Unit Unit Nat where
  ord := Prod.fst
  filters := [(1, some fun l => .ok (l.map fun r => decide (10 < r.2))), (0, none)]
  keys := [(1, exKey 1 3), (0, exKeyF 10 0 2)]
  truthy := fun i => decide (i ≠ 0)

-- C71: row groups of one row, then results written on the way in row groups of two rows, and a key more
example : ∃ w' : ExWorld ExBuf,
    SessionRuns ex0 () () (exKeyF 10 100 1) (fun cfg => ∃ m size, cfg = exKeyF 10 m size) exWorld
      ((exSeed1 ++ exSeed2).flatten) w' ∧
    (w' 0).rgs.map RG.rows = [[(0, some [[1, 1]])], [(10, some [[6, 4]])], [(20, some [[24, 16]])],
      [(30, some [[96, 64]]), (40, some [[128, 128]])]] ∧
    ∃ one, frameCall (fun _ => intOps) ex_get ex_cfg exZ (grouperFn { freq := 10 } Prod.fst) none none false
      (exSeed1 ++ exSeed2).flatten none = .ok (some one, none) ∧ readRows (w' 0).rgs = one.bins.map id := by
  have hr : ∃ w' : ExWorld ExBuf,
      SessionRuns ex0 () () (exKeyF 10 100 1) (fun cfg => ∃ m size, cfg = exKeyF 10 m size) exWorld
        ((exSeed1 ++ exSeed2).flatten) w' ∧
      (w' 0).rgs.map RG.rows = [[(0, some [[1, 1]])], [(10, some [[6, 4]])], [(20, some [[24, 16]])],
        [(30, some [[96, 64]]), (40, some [[128, 128]])]] := by
    obtain ⟨s1, w1, s2, s3, w3, e1, e2, e3, e4, e5, e6, e7⟩ : ∃ (s1 : State (List (List Int)) ExBuf Unit Unit)
        (w1 : ExWorld ExBuf) (s2 s3 : State (List (List Int)) ExBuf Unit Unit) (w3 : ExWorld ExBuf),
        aggs (exConf [(0, exKeyF 10 100 1)]) ([] ++ [⟨exSeed1, false, false, true⟩]) (exState 1 ex0) exWorld = .ok (s1, w1) ∧
        s1.restart = some 25 ∧ initBuffers ex0 () () exLater w1 = .ok s2 ∧
        aggs exLater ([] ++ [⟨exSeed2, false, false, true⟩]) s2 w1 = .ok (s3, w3) ∧ s3.restart = some 41 ∧
        received exLater 0 ([] ++ [⟨exSeed2, false, false, true⟩]) s2.restart s2.pre = exSeed2.flatten ∧
        (w3 0).rgs.map RG.rows = [[(0, some [[1, 1]])], [(10, some [[6, 4]])], [(20, some [[24, 16]])],
          [(30, some [[96, 64]]), (40, some [[128, 128]])]] := ⟨_, _, _, _, _, rfl, rfl, rfl, rfl, rfl, rfl, rfl⟩
    refine ⟨w3, ?_, e7⟩
    have hap : Apart exLater.keys := by
      refine List.pairwise_pair.2 ?_
      rintro k (rfl | ⟨h, -⟩)
      · rintro (h | ⟨h, -⟩) <;> cases h
      · cases h
    have h2 := SessionRuns.session (k := exKeyF 10 100 1) (L := fun cfg => ∃ m size, cfg = exKeyF 10 m size) (i := 1)
      (cfg := exKeyF 10 0 2) hap rfl ⟨rfl, rfl, rfl, rfl⟩ ⟨_, _, rfl⟩ e3 rfl e4 e5 rfl (.nil _)
    rw [e6] at h2
    exact SessionRuns.session (k := exKeyF 10 100 1) (L := fun cfg => ∃ m size, cfg = exKeyF 10 m size) (i := 0) (f := 0)
      (c := exConf [(0, exKeyF 10 100 1)]) (cfg := exKeyF 10 100 1) (s := exState 1 ex0) (List.pairwise_singleton _ _) rfl ⟨rfl, rfl, rfl, rfl⟩ ⟨_, _, rfl⟩ rfl rfl e1 e2
      rfl h2
  obtain ⟨w', h1, h2⟩ := hr
  refine ⟨w', h1, h2, ?_⟩
  refine C71_time_bins (k := exKeyF 10 100 1) (emb := id) (on := 0) (d := .one 0) (gB := id) (gS := id) (fun _ => intOps) ex_get
    (dtype := fun _ => some ()) (agg := [(0, 0, some .sum), (1, 0, some .last)]) (gc := ex_cfg) exZ rfl { freq := 10 }
    ⟨by decide, .inr (.inr ⟨rfl, by decide⟩)⟩ Prod.fst none ⟨_, _, rfl⟩ ?_ (by decide) (by decide) (by simp) rfl rfl h1
  rintro cfg ⟨m, size, rfl⟩
  refine ⟨⟨true, fun p b => ?_⟩, rfl, ⟨rfl, rfl⟩, ⟨rfl, rfl, (by decide : 0 ∈ exT.cols), (by decide : Writer.DupKnown exT (some (.one 0)))⟩,
    exKey_byLabel⟩
  simp only [exKeyF, id]
  cases inPlace (frameCall (fun _ => intOps) ex_get ex_cfg exZ (grouperFn { freq := 10 } Prod.fst) none none true) p b <;> rfl

/-- Two sessions of one key without filter. -/
theorem exTwo {S : Type} {s0 : S} {k1 k2 : KeyCfg Nat (Int × Int) (List (List Int)) S Unit}
    {L : KeyCfg Nat (Int × Int) (List (List Int)) S Unit → Prop} (h1 : L k1) (h2 : L k2) (hs : SameTarget k1 k2)
    {a b : List (List (Int × Int))} {s1 s2 s3 : State (List (List Int)) S Unit Unit} {w1 w2 : ExWorld S} {i j : Int}
    (e0 : initBuffers s0 () () (exConf [(0, k1)]) exWorld = .ok (exState 1 s0))
    (e1 : aggs (exConf [(0, k1)]) ([] ++ [⟨a, false, false, true⟩]) (exState 1 s0) exWorld = .ok (s1, w1))
    (e2 : s1.restart = some i ∧ decide (i ≠ 0) = true) (e3 : initBuffers s0 () () (exConf [(0, k2)]) w1 = .ok s2)
    (e4 : aggs (exConf [(0, k2)]) ([] ++ [⟨b, false, false, true⟩]) s2 w1 = .ok (s3, w2))
    (e5 : s3.restart = some j ∧ decide (j ≠ 0) = true) :
    SessionRuns s0 () () k1 L exWorld (received (exConf [(0, k1)]) 0 ([] ++ [⟨a, false, false, true⟩]) none () ++
      (received (exConf [(0, k2)]) 0 ([] ++ [⟨b, false, false, true⟩]) s2.restart s2.pre ++ [])) w2 :=
  SessionRuns.session (k := k1) (L := L) (i := 0) (f := 0) (c := exConf [(0, k1)]) (cfg := k1) (List.pairwise_singleton _ _) rfl
    ⟨rfl, rfl, rfl, rfl⟩ h1 e0 rfl e1 e2.1 e2.2
    (SessionRuns.session (k := k1) (L := L) (i := 0) (f := 0) (c := exConf [(0, k2)]) (cfg := k2) (List.pairwise_singleton _ _) rfl
      hs h2 e3 rfl e4 e5.1 e5.2 (.nil _))

/-- As `exRows 2`, with row groups of `size` rows. -/
def exRowsF (maxSize size : Nat) : KeyCfg Nat (Int × Int) (List (List Int)) (Buf (Option RowsBuf) (List (List Int))) Unit :=
  { exRows 2 maxSize with params := { orderedOn := some (.col 0), dupOn := some (.one 0), maxRg := some size } }

-- C71: bins of two rows, the third one completed by the second session, written on the way
example : ∃ w' : ExWorld (Buf (Option RowsBuf) (List (List Int))),
    (w' 0).rgs.map RG.rows = [[(1, some [[3, 2]])], [(13, some [[20, 16]]), (26, some [[96, 64]])]] ∧
    ∃ one, frameCall (fun _ => intOps) ex_get ex_cfg exZ (rowsFn 2 .left Prod.fst) none none false
      [(1, 1), (12, 2), (13, 4), (25, 16), (26, 32), (38, 64)] none = .ok (some one, none) ∧
      readRows (w' 0).rgs = one.bins.map id := by
  obtain ⟨s1, w1, s2, s3, w2, e1, e2, e3, e4, e5, e6, e7⟩ : ∃ (s1 : State (List (List Int)) (Buf (Option RowsBuf) (List (List Int))) Unit Unit)
      (w1 : ExWorld (Buf (Option RowsBuf) (List (List Int)))) (s2 s3 : State (List (List Int)) (Buf (Option RowsBuf) (List (List Int))) Unit Unit)
      (w2 : ExWorld (Buf (Option RowsBuf) (List (List Int)))),
      aggs (exConf [(0, exRowsF 100 2)]) ([] ++ [⟨[[(1, 1), (12, 2)], [(13, 4)]], false, false, true⟩])
        (exState 1 (Buf.init none)) exWorld = .ok (s1, w1) ∧ s1.restart = some 13 ∧
      initBuffers (Buf.init none) () () (exConf [(0, exRowsF 0 2)]) w1 = .ok s2 ∧
      aggs (exConf [(0, exRowsF 0 2)]) ([] ++ [⟨[[(25, 16), (26, 32)], [(38, 64)]], false, false, true⟩]) s2 w1 = .ok (s3, w2) ∧
      s3.restart = some 38 ∧
      received (exConf [(0, exRowsF 0 2)]) 0 ([] ++ [⟨[[(25, 16), (26, 32)], [(38, 64)]], false, false, true⟩]) s2.restart s2.pre =
        [(25, 16), (26, 32), (38, 64)] ∧
      (w2 0).rgs.map RG.rows = [[(1, some [[3, 2]])], [(13, some [[20, 16]]), (26, some [[96, 64]])]] :=
    ⟨_, _, _, _, _, rfl, rfl, rfl, rfl, rfl, rfl, rfl⟩
  have hr := exTwo (k1 := exRowsF 100 2) (k2 := exRowsF 0 2) (L := fun cfg => ∃ m size, cfg = exRowsF m size) ⟨_, _, rfl⟩ ⟨_, _, rfl⟩
    ⟨rfl, rfl, rfl, rfl⟩ rfl e1 ⟨e2, rfl⟩ e3 e4 ⟨e5, rfl⟩
  rw [e6] at hr
  refine ⟨w2, e7, C71_rows_bins (k := exRowsF 100 2) (emb := id) (on := 0) (d := .one 0) (gB := id) (gS := id) (fun _ => intOps)
    ex_get (dtype := fun _ => some ()) (agg := [(0, 0, some .sum), (1, 0, some .last)]) (gc := ex_cfg) exZ rfl 2 (by decide) .left
    Prod.fst none ⟨_, _, rfl⟩ ?_ (by decide) (by decide) (by simp) rfl rfl hr⟩
  rintro cfg ⟨m, size, rfl⟩
  refine ⟨⟨true, fun p b => ?_⟩, rfl, ⟨rfl, rfl⟩, ⟨rfl, rfl, (by decide : 0 ∈ exT.cols), (by decide : Writer.DupKnown exT (some (.one 0)))⟩,
    exKey_byLabel⟩
  simp only [exRowsF, exRows, id]
  cases inPlace (frameCall (fun _ => intOps) ex_get ex_cfg exZ (rowsFn 2 .left Prod.fst) none none true) p b <;> rfl

/-- Bins of length 10 and snapshots each 5, row groups of `size` rows. -/
def exBothF (maxSize size : Nat) : KeyCfg Nat (Int × Int) (List (List Int)) ExBuf Unit :=
  { exBoth maxSize none with
    params := { orderedOn := some (.col 0), dupOn := some (.one 0), maxRg := some size }
    snapParams := { orderedOn := some (.col 0), dupOn := some (.one 0), maxRg := some size } }

theorem exBothF_kept (m size : Nat) : SnapsKept (fun _ : Unit => intOps) ex_get exZ (gc := ex_cfg) (gB := id) (gS := id) (on := 0)
    (d := .one 0) (grouperFn { freq := 10 } Prod.fst) Prod.fst (.grouper { freq := 5, labelRight := true }) id .both
    (exBothF m size) where
  call := ⟨true, fun p b => by
    simp only [exBothF, exBoth, id]
    cases inPlace (frameCall (fun _ => intOps) ex_get ex_cfg exZ (grouperFn { freq := 10 } Prod.fst) (some Prod.fst)
      (some (.grouper { freq := 5, labelRight := true })) true) p b <;> rfl⟩
  type := rfl
  pair := fun _ h => by cases h
  post := ⟨rfl, rfl⟩
  write := ⟨rfl, rfl, (by decide : 0 ∈ exT.cols), (by decide : Writer.DupKnown exT (some (.one 0)))⟩
  writeSnap := fun _ => ⟨rfl, rfl, (by decide : 0 ∈ exT.cols), (by decide : Writer.DupKnown exT (some (.one 0)))⟩
  label := fun _ => exKey_byLabel
  labelSnap := exKey_byLabel

-- C71: bins and snapshots, a snapshot point before the first row of the second session being completed by it
example : ∃ w' : ExWorld ExBuf,
    (w' 0).rgs.map RG.rows = [[(0, some [[3, 2]])], [(10, some [[28, 16]])]] ∧
    (w' 1).rgs.map RG.rows = [[(5, some [[1, 1]]), (10, some [[3, 2]])], [(15, some [[12, 8]])],
      [(20, some [[28, 16]])]] ∧
    ∃ one sns, frameCall (fun _ => intOps) ex_get ex_cfg exZ (grouperFn { freq := 10 } Prod.fst) (some Prod.fst)
      (some (.grouper { freq := 5, labelRight := true })) false [(1, 1), (7, 2), (12, 4), (13, 8), (16, 16)] none =
        .ok (some one, none) ∧ one.snaps = some sns ∧
      readRows (w' 0).rgs = one.bins.map id ∧ readRows (w' 1).rgs = sns.map id := by
  obtain ⟨s1, w1, s2, s3, w2, e1, e2, e3, e4, e5, e6, e7, e8⟩ : ∃ (s1 : State (List (List Int)) ExBuf Unit Unit)
      (w1 : ExWorld ExBuf) (s2 s3 : State (List (List Int)) ExBuf Unit Unit) (w2 : ExWorld ExBuf),
      aggs (exConf [(0, exBothF 100 2)]) ([] ++ [⟨[[(1, 1), (7, 2)], [(12, 4)]], false, false, true⟩])
        (exState 1 ex0) exWorld = .ok (s1, w1) ∧ s1.restart = some 12 ∧
      initBuffers ex0 () () (exConf [(0, exBothF 0 2)]) w1 = .ok s2 ∧
      aggs (exConf [(0, exBothF 0 2)]) ([] ++ [⟨[[(13, 8)], [(16, 16)]], false, false, true⟩]) s2 w1 = .ok (s3, w2) ∧
      s3.restart = some 16 ∧
      received (exConf [(0, exBothF 0 2)]) 0 ([] ++ [⟨[[(13, 8)], [(16, 16)]], false, false, true⟩]) s2.restart s2.pre =
        [(13, 8), (16, 16)] ∧
      (w2 0).rgs.map RG.rows = [[(0, some [[3, 2]])], [(10, some [[28, 16]])]] ∧
      (w2 1).rgs.map RG.rows = [[(5, some [[1, 1]]), (10, some [[3, 2]])], [(15, some [[12, 8]])],
      [(20, some [[28, 16]])]] :=
    ⟨_, _, _, _, _, rfl, rfl, rfl, rfl, rfl, rfl, rfl, rfl⟩
  have hr := exTwo (k1 := exBothF 100 2) (k2 := exBothF 0 2) (L := fun cfg => ∃ m size, cfg = exBothF m size) ⟨_, _, rfl⟩ ⟨_, _, rfl⟩
    ⟨rfl, rfl, rfl, rfl⟩ rfl e1 ⟨e2, rfl⟩ e3 e4 ⟨e5, rfl⟩
  rw [e6] at hr
  obtain ⟨one, sns, h1, h2, -, h3⟩ := C71_time_snaps (k := exBothF 100 2) (emb := id) (on := 0) (d := .one 0) (gB := id) (gS := id)
    (t := .both) (fun _ : Unit => intOps) ex_get (dtype := fun _ => some ()) (agg := [(0, 0, some .sum), (1, 0, some .last)]) (gc := ex_cfg) exZ rfl
    { freq := 10 } exFixed { freq := 5, labelRight := true } ⟨by decide, .inr (.inr ⟨rfl, by decide⟩)⟩ Prod.fst (by simp)
    (L := fun cfg => ∃ m size, cfg = exBothF m size) ⟨_, _, rfl⟩
    (by rintro cfg ⟨m, size, rfl⟩; exact exBothF_kept m size) (by decide) (by decide) rfl rfl (fun _ => rfl) hr
  exact ⟨w2, e7, e8, one, sns, h1, h2, h3 rfl⟩

/-- Bins of two rows and snapshots each 5, row groups of `size` rows. -/
def exRowsBoth (maxSize size : Nat) : KeyCfg Nat (Int × Int) (List (List Int)) (Buf (Option RowsBuf) (List (List Int))) Unit :=
  { exRowsF maxSize size with
    snap := 1
    resType := .both
    call := inPlace (frameCall (fun _ => intOps) ex_get ex_cfg exZ (rowsFn 2 .right Prod.fst) (some Prod.fst)
      (some (.grouper { freq := 5, labelRight := true })) true)
    snapParams := { orderedOn := some (.col 0), dupOn := some (.one 0), maxRg := some size } }

theorem exRowsBoth_kept (m size : Nat) : SnapsKept (fun _ : Unit => intOps) ex_get exZ (gc := ex_cfg) (gB := id) (gS := id) (on := 0)
    (d := .one 0) (rowsFn 2 .right Prod.fst) Prod.fst (.grouper { freq := 5, labelRight := true }) id .both
    (exRowsBoth m size) where
  call := ⟨true, fun p b => by
    simp only [exRowsBoth, id]
    cases inPlace (frameCall (fun _ => intOps) ex_get ex_cfg exZ (rowsFn 2 .right Prod.fst) (some Prod.fst)
      (some (.grouper { freq := 5, labelRight := true })) true) p b <;> rfl⟩
  type := rfl
  pair := fun _ h => by cases h
  post := ⟨rfl, rfl⟩
  write := ⟨rfl, rfl, (by decide : 0 ∈ exT.cols), (by decide : Writer.DupKnown exT (some (.one 0)))⟩
  writeSnap := fun _ => ⟨rfl, rfl, (by decide : 0 ∈ exT.cols), (by decide : Writer.DupKnown exT (some (.one 0)))⟩
  label := fun _ => exKey_byLabel
  labelSnap := exKey_byLabel

-- C71: bins of two rows, right-closed, and snapshots; at 10 and at 15, a bin is over and the next one has no row
example : ∃ w' : ExWorld (Buf (Option RowsBuf) (List (List Int))),
    (w' 0).rgs.map RG.rows = [[(1, some [[3, 2]])], [(12, some [[12, 8]]), (16, some [[16, 16]])]] ∧
    (w' 1).rgs.map RG.rows = [[(5, some [[1, 1]]), (10, none)], [(15, none)], [(20, some [[16, 16]])]] ∧
    ∃ one sns, frameCall (fun _ => intOps) ex_get ex_cfg exZ (rowsFn 2 .right Prod.fst) (some Prod.fst)
      (some (.grouper { freq := 5, labelRight := true })) false [(1, 1), (7, 2), (12, 4), (13, 8), (16, 16)] none =
        .ok (some one, none) ∧ one.snaps = some sns ∧
      readRows (w' 0).rgs = one.bins.map id ∧ readRows (w' 1).rgs = sns.map id := by
  obtain ⟨s1, w1, s2, s3, w2, e1, e2, e3, e4, e5, e6, e7, e8⟩ : ∃ (s1 : State (List (List Int)) (Buf (Option RowsBuf) (List (List Int))) Unit Unit)
      (w1 : ExWorld (Buf (Option RowsBuf) (List (List Int)))) (s2 s3 : State (List (List Int)) (Buf (Option RowsBuf) (List (List Int))) Unit Unit)
      (w2 : ExWorld (Buf (Option RowsBuf) (List (List Int)))),
      aggs (exConf [(0, exRowsBoth 100 2)]) ([] ++ [⟨[[(1, 1), (7, 2)], [(12, 4)]], false, false, true⟩])
        (exState 1 (Buf.init none)) exWorld = .ok (s1, w1) ∧ s1.restart = some 12 ∧
      initBuffers (Buf.init none) () () (exConf [(0, exRowsBoth 0 2)]) w1 = .ok s2 ∧
      aggs (exConf [(0, exRowsBoth 0 2)]) ([] ++ [⟨[[(13, 8)], [(16, 16)]], false, false, true⟩]) s2 w1 = .ok (s3, w2) ∧
      s3.restart = some 16 ∧
      received (exConf [(0, exRowsBoth 0 2)]) 0 ([] ++ [⟨[[(13, 8)], [(16, 16)]], false, false, true⟩]) s2.restart s2.pre =
        [(13, 8), (16, 16)] ∧
      (w2 0).rgs.map RG.rows = [[(1, some [[3, 2]])], [(12, some [[12, 8]]), (16, some [[16, 16]])]] ∧
      (w2 1).rgs.map RG.rows = [[(5, some [[1, 1]]), (10, none)], [(15, none)], [(20, some [[16, 16]])]] :=
    ⟨_, _, _, _, _, rfl, rfl, rfl, rfl, rfl, rfl, rfl, rfl⟩
  have hr := exTwo (k1 := exRowsBoth 100 2) (k2 := exRowsBoth 0 2) (L := fun cfg => ∃ m size, cfg = exRowsBoth m size) ⟨_, _, rfl⟩ ⟨_, _, rfl⟩
    ⟨rfl, rfl, rfl, rfl⟩ rfl e1 ⟨e2, rfl⟩ e3 e4 ⟨e5, rfl⟩
  rw [e6] at hr
  obtain ⟨one, sns, h1, h2, -, h3⟩ := C71_rows_snaps (k := exRowsBoth 100 2) (emb := id) (on := 0) (d := .one 0) (gB := id) (gS := id)
    (t := .both) (fun _ : Unit => intOps) ex_get (dtype := fun _ => some ()) (agg := [(0, 0, some .sum), (1, 0, some .last)]) (gc := ex_cfg) exZ rfl
    2 (by decide) .right { freq := 5, labelRight := true } ⟨by decide, .inr (.inr ⟨rfl, by decide⟩)⟩ Prod.fst (by simp)
    (L := fun cfg => ∃ m size, cfg = exRowsBoth m size) ⟨_, _, rfl⟩
    (by rintro cfg ⟨m, size, rfl⟩; exact exRowsBoth_kept m size) (by decide) (by decide) (fun _ => by decide) rfl rfl (fun _ => rfl) hr
  exact ⟨w2, e7, e8, one, sns, h1, h2, h3 rfl⟩

/-- Another `bin_by` than in the previous session is accepted: rows already received of the last bin (the one at 25) stay in a bin
of the former length, and the results are neither those of the former `bin_by` nor those of the new one. -/
theorem C71_bin_by_fails :
    exStored 0 (exThen ex0 (exConf [(0, exKeyF 5 100 100)]) [⟨exSeed2, false, false, true⟩]
      (aggs (exConf [(0, exKeyF 10 100 100)]) [⟨exSeed1, false, false, true⟩] (exState 1 ex0) exWorld)) =
      some [[(0, some [[1, 1]]), (10, some [[6, 4]]), (20, some [[8, 8]]), (25, some [[16, 16]]), (30, none),
        (35, some [[96, 64]]), (40, some [[128, 128]])]] ∧
    exStored 0 (aggs (exConf [(0, exKeyF 5 100 100)]) [⟨exSeed1 ++ exSeed2, false, false, true⟩] (exState 1 ex0) exWorld) =
      some [[(0, some [[1, 1]]), (5, none), (10, some [[6, 4]]), (15, none), (20, none), (25, some [[24, 16]]), (30, none),
        (35, some [[96, 64]]), (40, some [[128, 128]])]] := ⟨rfl, rfl⟩

end
end Oups.AggStream
