import Verif.Proofs.AggTotal
import Verif.Props.AggStream
/-! Exceptions raised by an aggregation stream: C59. -/
set_option linter.unusedSimpArgs false
namespace Oups.AggStream
open Oups.Agg Oups.Agg.Spec Oups.Segment Oups.Segment.Spec
open Oups.Writer (Table Params RG Col DupOn dupCols readRows StrictOn)

section
variable {K R A S P Q F : Type} [DecidableEq K] [DecidableEq F]

/-- A key of a new stream: results `FB` (`FS` for snapshots) are streamed by a `cumsegagg` that, on the rows received, raises
only for zeros (`z`, if checked: `e0`), and are written in order to datasets without rows. -/
structure Ready (c : Config K R A S P Q F) (as : List (Call R)) (s : State A S P Q) (w : World K A (Md S P Q)) (f : F)
    (cfg : KeyCfg K R A S Q) (b : KeyBuf A S Q) (z : A → Bool) (e0 : Bool) (V : List R → Prop) (FB : List R → List (Row A))
    (FS : Option (List R → List (Row A))) (ok : List R → S → Prop) (gB gS : Row A → Row A) (on : Col) (d : DupOn) :
    Prop where
  laws : KeyLaws cfg V FB FS ok gB gS on d
  total : CallTotal V cfg.call ok (NewZero z e0 FB FS)
  sizes : SizesOk cfg FB FS (received c f as s.restart s.pre) []
  rest : b.Rest
  init : ok [] b.seg
  main : (w cfg.main).rgs = []
  snap : (w cfg.snapKey).rgs = []
  valid : V (received c f as s.restart s.pre)

variable {c : Config K R A S P Q F} {as : List (Call R)} {s : State A S P Q} {w : World K A (Md S P Q)} {f : F}
  {cfg : KeyCfg K R A S Q} {b : KeyBuf A S Q} {z : A → Bool} {e0 : Bool} {V : List R → Prop} {FB : List R → List (Row A)}
  {FS : Option (List R → List (Row A))} {ok : List R → S → Prop} {gB gS : Row A → Row A} {on : Col} {d : DupOn}

theorem Ready.inv (h : Ready c as s w f cfg b z e0 V FB FS ok gB gS on d) (Tot : List R) :
    KInv cfg FB FS ok gB gS on d Tot [] [] b w := by
  rw [h.rest]
  exact KInv.init h.laws h.init h.main h.snap Tot

/-- **C59** With seeds in order, `agg` raises the `IndexError` of a write on the way, by a key which has nothing to write into a
dataset that has rows, or the `ValueError` of a key which has a zero in its results; nothing else. -/
theorem C59_only (hk : Apart c.keys) (hl : s.bufs.length = c.keys.length) (hit : IterOk c as s.restart s.pre)
    (hr : ∀ (i : Nat) f cfg b, c.keys[i]? = some (f, cfg) → s.bufs[i]? = some b →
      ∃ z e0 V FB FS ok gB gS on d, Ready c as s w f cfg b z e0 V FB FS ok gB gS on d)
    {e : Err} (h : aggs c as s w = .error e) :
    ∃ (i : Nat) (f : F) (cfg : KeyCfg K R A S Q) (b : KeyBuf A S Q) (z : A → Bool) (e0 : Bool) (V : List R → Prop)
      (FB : List R → List (Row A)) (FS : Option (List R → List (Row A))) (ok : List R → S → Prop) (gB gS : Row A → Row A)
      (on : Col) (d : DupOn) (done rest : List (KOp R P)) (p : List R) (st : KeyBuf A S Q) (w1 : World K A (Md S P Q)),
      c.keys[i]? = some (f, cfg) ∧ s.bufs[i]? = some b ∧ Ready c as s w f cfg b z e0 V FB FS ok gB gS on d ∧
      keyOpsAll c f as s.restart s.pre = done ++ .chunk p :: rest ∧ keyRun cfg c.truthy done b w = .ok (st, w1) ∧
      ((e = .write .indexError ∧ EmptyFlush cfg st w1) ∨
        ((e = .agg .zeroSnap ∨ e = .agg .zeroBin) ∧ NewZero z e0 FB FS (opRows done) p)) := by
  obtain ⟨i, ⟨f, cfg⟩, b, h1, h2, h3⟩ := aggs_error hk h hl hit
  obtain ⟨z, e0, V, FB, FS, ok, gB, gS, on, d, R0⟩ := hr i f cfg b h1 h2
  obtain ⟨done, p, rest, st, w1, g1, g2, g3⟩ := keyRun_error R0.laws R0.total R0.sizes R0.valid
    (keyOpsAll_ok c f as s.restart s.pre) (R0.inv _) (by simp [opRows_keyOpsAll]) h3
  exact ⟨i, f, cfg, b, z, e0, V, FB, FS, ok, gB, gS, on, d, done, rest, p, st, w1, h1, h2, R0, g1, g2, g3⟩

/-- **C59** Conversely, a key with nothing to write, or with a zero in its results, makes `agg` raise. -/
theorem C59_raises (hk : Apart c.keys) (hl : s.bufs.length = c.keys.length) {i : Nat} (hi : c.keys[i]? = some (f, cfg))
    (hb : s.bufs[i]? = some b) (hr : Ready c as s w f cfg b z e0 V FB FS ok gB gS on d)
    {done rest : List (KOp R P)} {p : List R} {st : KeyBuf A S Q} {w1 : World K A (Md S P Q)}
    (hops : keyOpsAll c f as s.restart s.pre = done ++ .chunk p :: rest) (h1 : keyRun cfg c.truthy done b w = .ok (st, w1))
    (he : EmptyFlush cfg st w1 ∨ NewZero z e0 FB FS (opRows done) p) : ∃ e, aggs c as s w = .error e := by
  cases h : aggs c as s w with
  | error e => exact ⟨e, rfl⟩
  | ok r =>
    obtain ⟨s', w'⟩ := r
    obtain ⟨b', w2, g1, -⟩ := aggs_key hk h hl hi hb
    have hok := keyOpsAll_ok c f as s.restart s.pre
    have hrows := opRows_keyOpsAll c f as s.restart s.pre
    simp only at g1
    rw [hops] at g1 hok hrows
    rcases he with he | he
    · have hpre : [] ++ opRows done <+: received c f as s.restart s.pre := by
        rw [← hrows, opRows_append]; simp
      rw [keyRun_emptyFlush (truthy := c.truthy) hr.laws hr.sizes hr.valid
        (fun x hx => hok x (List.mem_append_left _ hx)) (hr.inv _) hpre h1 he] at g1
      cases g1
    · obtain ⟨e, g⟩ := keyRun_bad (truthy := c.truthy) hr.laws hr.total hr.sizes hr.valid hok (hr.inv _)
        (by rw [List.nil_append, hrows]; exact List.prefix_refl _) h1 (by simpa using he)
      rw [g] at g1
      cases g1

/-- A key of a new stream for which each frame but the first adds results, for bins and for snapshots when they are stored, and
no frame gives a zero. -/
def KeyTotal (c : Config K R A S P Q F) (as : List (Call R)) (s : State A S P Q) (w : World K A (Md S P Q)) (f : F)
    (cfg : KeyCfg K R A S Q) (b : KeyBuf A S Q) : Prop :=
  ∃ z e0 V FB FS ok gB gS on d, Ready c as s w f cfg b z e0 V FB FS ok gB gS on d ∧
    (cfg.resType ≠ .snaps → EachAdds FB (frames c f as s.restart s.pre)) ∧
    (cfg.resType ≠ .bins → ∀ fs, FS = some fs → EachAdds fs (frames c f as s.restart s.pre)) ∧
    ∀ pre p post, frames c f as s.restart s.pre = pre ++ p :: post → ¬ NewZero z e0 FB FS pre.flatten p

/-- **C59** With seeds in order, if for each key each frame but the first adds results, and no result is zero, `agg` does not
raise. -/
theorem C59_total (hk : Apart c.keys) (hl : s.bufs.length = c.keys.length) (hit : IterOk c as s.restart s.pre)
    (hr : ∀ (i : Nat) f cfg b, c.keys[i]? = some (f, cfg) → s.bufs[i]? = some b → KeyTotal c as s w f cfg b) :
    ∃ s' w', aggs c as s w = .ok (s', w') := by
  cases h : aggs c as s w with
  | ok r => exact ⟨r.1, r.2, rfl⟩
  | error e =>
    exfalso
    obtain ⟨i, ⟨f, cfg⟩, b, h1, h2, h3⟩ := aggs_error hk h hl hit
    obtain ⟨z, e0, V, FB, FS, ok, gB, gS, on, d, R0, hB, hS, hZ⟩ := hr i f cfg b h1 h2
    have hbin : b.bin = none := by rw [R0.rest]
    obtain ⟨r, g⟩ := keyRun_adds (truthy := c.truthy) R0.laws R0.total R0.sizes R0.valid
      (keyOpsAll_ok c f as s.restart s.pre) (cs := []) (R0.inv _) (by simp [opRows_keyOpsAll])
      ⟨fun _ => ⟨hbin, R0.main, R0.snap⟩, by simp, by simp, by simp [hbin], by simp [hbin]⟩
      (by rw [List.nil_append, chunksOf_keyOpsAll]; exact hB) (by rw [List.nil_append, chunksOf_keyOpsAll]; exact hS)
      (by rw [chunksOf_keyOpsAll]; simpa using hZ)
    simp only at h3
    rw [g] at h3
    cases h3

/-- **C59** Seeds in order, for chunks that are not empty, without `pre`, with filters that can be applied: the iteration ends
at the end of seeds. -/
theorem C59_iter (hp : c.pre = none) (hf : ∀ f ∈ c.filters, ∀ g, f.2 = some g → ∀ l, ∃ m, g l = .ok m)
    (hs : ∀ a ∈ as, ∀ ch ∈ a.seed, Ascending c.ord ch ∧ ch ≠ []) (r : Option Int) (pb : P) : IterOk c as r pb := by
  have hid : ∀ (pb : P) (l : List (List R)), preprocessed (none : Option (Pre R P)) pb l = l := by
    intro pb l
    induction l with
    | nil => rfl
    | cons x l ih => rw [preprocessed, ih]
  have hpok : ∀ (l : List (List R)) (pb : P), PreOk (none : Option (Pre R P)) pb l := by
    intro l
    induction l with
    | nil => intro pb; trivial
    | cons x l ih => intro pb; exact ⟨rfl, ih _⟩
  induction as generalizing r pb with
  | nil => trivial
  | cons a as ih =>
    obtain ⟨ys, pb', h⟩ := C47_total (ord := c.ord) (restart := r) (pre := c.pre) (fs := c.filters)
      (trimStart := a.trimStart) (discard := a.discardLast) (seed := a.seed) (pb := pb)
      (fun ch hc => (hs a (by simp) ch hc).1) (by rw [hp]; exact hpok _ _)
      (by rw [hp, hid]; exact fun ch hc => (hs a (by simp) ch hc).2) hf
    simp only [IterOk, h]
    exact ⟨Or.inl trivial, ih (fun a' ha' => hs a' (by simp [ha'])) _ _⟩

theorem frames_ne (c : Config K R A S P Q F) (f : F) (as : List (Call R)) (r : Option Int) (pb : P) :
    ∀ p ∈ frames c f as r pb, p ≠ [] := by
  intro p hp
  rw [← chunksOf_keyOpsAll] at hp
  have hok := keyOpsAll_ok c f as r pb
  generalize keyOpsAll c f as r pb = ops at hp hok
  induction ops with
  | nil => cases hp
  | cons op ops ih =>
    have ih := fun h => ih h fun x hx => hok x (List.mem_cons_of_mem _ hx)
    cases op with
    | chunk x =>
      rcases List.mem_cons.1 hp with rfl | hp
      · exact hok p (by simp)
      · exact ih hp
    | final _ _ => exact ih hp

end

/-! ### Which frames add results -/

section
variable {R : Type}

/-- Two frames in a row end in different cells of the grid. -/
def NewCell (right : Bool) (a f : Int) (pos : R → Int) (fs : List (List R)) : Prop :=
  ∀ pre p q post, fs = pre ++ p :: q :: post → ∀ x ∈ p.getLast?, ∀ y ∈ q.getLast?, ∀ k,
    InCell right a f k (pos x) → ¬ InCell right a f k (pos y)

theorem NewCell.cons {right : Bool} {a f : Int} {pos : R → Int} {x y : R} {p q : List R} {fs : List (List R)} (hf : 0 < f)
    (h : ∃ k, InCell right a f k (pos x) ∧ ¬ InCell right a f k (pos y)) (hl : NewCell right a f pos ((q ++ [y]) :: fs)) :
    NewCell right a f pos ((p ++ [x]) :: (q ++ [y]) :: fs) := by
  intro pre p' q' post he x' hx y' hy k hk hk'
  cases pre with
  | nil =>
    simp only [List.nil_append, List.cons.injEq] at he
    obtain ⟨rfl, rfl, rfl⟩ := he
    obtain ⟨k1, h1, h2⟩ := h
    simp at hx hy
    subst hx; subst hy
    rw [inCell_iff hf] at *
    omega
  | cons z pre =>
    simp only [List.cons_append, List.cons.injEq] at he
    exact hl pre p' q' post he.2 x' hx y' hy k hk hk'

theorem NewCell.one {right : Bool} {a f : Int} {pos : R → Int} {p : List R} : NewCell right a f pos [p] := by
  intro pre p q post he
  have := congrArg List.length he
  simp at this
  omega

theorem eachAdds_grid {right lr : Bool} {a f : Int} {pos : R → Int} (hf : 0 < f) {fs : List (List R)}
    (hne : ∀ p ∈ fs, p ≠ []) (hs : AscOn pos fs.flatten) (hc : NewCell right a f pos fs) :
    EachAdds (gridSpec right lr a f pos) fs := by
  intro pre q post he hpre
  obtain ⟨pre', p, rfl⟩ := List.eq_nil_or_concat pre |>.resolve_left hpre
  rw [List.concat_eq_append] at *
  have hp : p ≠ [] := hne p (by simp [he])
  have hq : q ≠ [] := hne q (by simp [he])
  have hx := List.getLast?_eq_some_getLast hp
  have hy := List.getLast?_eq_some_getLast hq
  generalize p.getLast hp = x at hx
  generalize q.getLast hq = y at hy
  have h1 : (pre' ++ [p]).flatten.getLast? = some x := by simp [List.getLast?_append, hx]
  have h2 : ((pre' ++ [p]).flatten ++ q).getLast? = some y := by rw [List.getLast?_append, hy]; rfl
  have hs' : AscOn pos ((pre' ++ [p]).flatten ++ q) := by
    rw [he] at hs
    simp only [List.flatten_append, List.flatten_cons, List.flatten_nil, List.append_nil] at hs ⊢
    rw [← List.append_assoc] at hs
    exact AscOn.left hs
  have hcell := hc pre' p q post (by rw [he]; simp) x hx y hy (cellOf right a f (pos x)) ((inCell_iff hf).2 rfl)
  rw [inCell_iff hf] at hcell
  generalize hw : (pre' ++ [p]).flatten = w at *
  cases hz : w.head? with
  | none =>
    rw [List.head?_eq_none_iff] at hz
    subst hz; cases h1
  | some z =>
    have hz2 : (w ++ q).head? = some z := by rw [List.head?_append, hz]; rfl
    have h3 : pos x ≤ pos y :=
      (List.pairwise_append.1 hs').2.2 x (List.mem_of_getLast? h1) y (List.mem_of_getLast? hy)
    have h4 := cellOf_mono (right := right) (a := a) hf h3
    have h5 := cellOf_mono (right := right) (a := a) hf (ascOn_le_last (AscOn.left hs') h1 z (List.mem_of_head? hz))
    simp only [gridSpec, hz, h1, hz2, h2, gridBins, List.length_map, List.length_range]
    omega

theorem eachAdds_rows {right : Bool} {n : Nat} (hn : 0 < n) {pos : R → Int} {fs : List (List R)}
    (hc : ∀ p ∈ fs.tail, n ≤ p.length) : EachAdds (xBins right n pos) fs := by
  intro pre p post he hpre
  have hp : n ≤ p.length := by
    cases pre with
    | nil => exact absurd rfl hpre
    | cons x pre => exact hc p (by simp [he])
  simp only [xBins, List.length_map, List.length_range, List.length_append]
  calc (pre.flatten.length + n - 1) / n < (pre.flatten.length + n - 1 + n) / n := by
        rw [Nat.add_div_right _ hn]; omega
    _ ≤ _ := Nat.div_le_div_right (by omega)

theorem EachAdds.map_length {B C : Type} {G : List R → List B} {G' : List R → List C}
    (hl : ∀ w, (G' w).length = (G w).length) {fs : List (List R)} (h : EachAdds G fs) : EachAdds G' fs := by
  intro pre p post he hpre
  rw [hl, hl]
  exact h pre p post he hpre

theorem xBins_strict {right : Bool} {n : Nat} (hn : 0 < n) {pos : R → Int} {w : List R}
    (hw : w.Pairwise fun x y => pos x < pos y) : StrictLabels (xBins right n pos w) := by
  unfold StrictLabels xBins
  rw [List.map_map, List.pairwise_map]
  refine List.Pairwise.imp_of_mem ?_ List.pairwise_lt_range
  intro i j hi hj hij
  have hj' := List.mem_range.1 hj
  have h2 : j * n < w.length := by
    have h1 := Nat.mul_le_mul_right n (show j + 1 ≤ (w.length + n - 1) / n by omega)
    have h3 := Nat.div_mul_le_self (w.length + n - 1) n
    rw [Nat.succ_mul] at h1
    omega
  have h1 : i * n < j * n := Nat.mul_lt_mul_of_pos_right hij hn
  simp only [Function.comp, xb]
  rw [List.getD_eq_getElem?_getD, List.getD_eq_getElem?_getD, List.getElem?_eq_getElem (by simp; omega),
    List.getElem?_eq_getElem (by simpa using h2)]
  simp only [List.getElem_map, Option.getD_some]
  exact List.pairwise_iff_getElem.1 hw _ _ (by omega) h2 h1

end

/-! ### Keys -/

section
variable {K R B D V S P Q F : Type} [DecidableEq K] [DecidableEq F] [DecidableEq D]
variable (O : D → Ops V) (get : R → Nat → V) {dtype : Nat → Option D} {agg : List (Nat × Nat × Option Fn)}
  {gc : List (D × Group)} (z : List (List V) → Bool)
variable {c : Config K R (List (List V)) S P Q F} {f : F} {cfg : KeyCfg K R (List (List V)) S Q}
  {gB gS : Row (List (List V)) → Row (List (List V))} {on : Col} {d : DupOn}
  {s : State (List (List V)) S P Q} {w : World K (List (List V)) (Md S P Q)} {q0 : Q} {as : List (Call R)}

theorem frames_flatten (c : Config K R (List (List V)) S P Q F) (f : F) (as : List (Call R)) (r : Option Int) (pb : P) :
    (frames c f as r pb).flatten = received c f as r pb := by
  rw [← chunksOf_keyOpsAll, chunksOf_flatten, opRows_keyOpsAll]

/-- `call`, without check of zeros, on all rows of the first frames gives no zero. -/
def NoZero (z : List (List V) → Bool) (call : List R → Option B → Except AggErr (Option (Res (List (List V))) × Option B))
    (fs : List (List R)) : Prop :=
  ∀ pre post, fs = pre ++ post → ∀ one, call pre.flatten none = .ok (some one, none) →
    ¬ ZeroIn z one.bins ∧ ¬ ZeroIn z (one.snaps.getD [])

/-- Sufficient condition by evaluation. -/
theorem NoZero.of_all {z : List (List V) → Bool}
    {call : List R → Option B → Except AggErr (Option (Res (List (List V))) × Option B)} {fs : List (List R)}
    (h : ((List.range (fs.length + 1)).all fun k => match call (fs.take k).flatten none with
      | .ok (some one, none) => !anyZero z one.bins && !anyZero z (one.snaps.getD [])
      | _ => true) = true) : NoZero z call fs := by
  intro pre post he one h1
  have h2 := List.all_eq_true.1 h pre.length (by simp [he]; omega)
  rw [he, List.take_left] at h2
  simp only [h1] at h2
  rw [← anyZero_eq, ← anyZero_eq]
  simpa using h2

omit [DecidableEq D] in
theorem ZeroIn.of_drop {z : List (List V) → Bool} {rows : List (Row (List (List V)))} {n : Nat}
    (h : ZeroIn z (rows.drop n)) : ZeroIn z rows := by
  obtain ⟨x, hx, a, ha⟩ := h
  exact ⟨x, List.mem_of_mem_drop hx, a, ha⟩

theorem flatten_prefix {fs pre post : List (List R)} {p : List R} (h : fs = pre ++ p :: post) :
    pre.flatten ++ p <+: fs.flatten := by
  rw [h]; simp

/-- **C59** Key with a `TimeGrouper` for `bin_by`: frames in a row end in different bins, and, with the check
of zeros, no result is zero. -/
theorem C59_time_bins (hagg : setupCumsegagg agg dtype = .ok gc) (g : Grouper) (hg : Fixed g) (pos : R → Int)
    (ordered : Option (R → Int)) {emb : Buf ScaleBuf (List (List V)) → S}
    {e0 : Bool} (hcall : Embeds emb (inPlace (frameCall O get gc z (grouperFn g pos) ordered none e0)) cfg.call)
    (hres : cfg.resType = .bins) (hpost : PostRow cfg gB gS) (hw : WriteOk cfg.table cfg.params on d)
    (hT : ByLabel cfg.table on d gB) (hmax : Roomy cfg.params (gridSpec (g.closed == .right) g.labelRight g.origin0 g.freq pos (received c f as s.restart s.pre)).length)
    (hm : (w cfg.main).rgs = [])
    (hasc : AscOn pos (received c f as s.restart s.pre))
    (ho : ∀ o, ordered = some o → AscOn o (received c f as s.restart s.pre))
    (hn : NewCell (g.closed == .right) g.origin0 g.freq pos (frames c f as s.restart s.pre))
    (h0 : e0 = true → NoZero z (frameCall O get gc z (grouperFn g pos) ordered none false) (frames c f as s.restart s.pre)) :
    KeyTotal c as s w f cfg { seg := emb (Buf.init {}), post := q0 } := by
  have hc := cfgOk_of hagg
  have hL := grouper_lawful g g.origin0 hg.anchored pos
  have hst := gridSpec_strict (g.closed == .right) g.labelRight g.origin0 g.freq pos (received c f as s.restart s.pre) hg.1
  refine ⟨z, e0, _, _, _, _, _, _, _, _, ⟨keyLaws_bins O get hc z hL (ordered := ordered) hcall hres hpost hw hT,
    keyTotal_bins O get hc z hL (ordered := ordered) hcall, ⟨fun _ => hmax.mono (by simp [binRes]), by simp [hres]⟩, rfl, ⟨_, rfl, frameOk_init O get trivial hL⟩, hm, ?_,
    binsValid_of hL hasc ho hst⟩, fun _ => ?_, by simp [hres], ?_⟩
  · simpa [KeyCfg.snapKey, hres] using hm
  · refine EachAdds.map_length (G := gridSpec (g.closed == .right) g.labelRight g.origin0 g.freq pos)
      (fun _ => by simp [binRes]) (eachAdds_grid hg.1 (frames_ne _ _ _ _ _) ?_ hn)
    rw [frames_flatten]; exact hasc
  · rintro pre p post hfr ⟨he, hz⟩
    have hq := flatten_prefix hfr
    rw [frames_flatten] at hq
    have hp : p ≠ [] := frames_ne c f as s.restart s.pre p (by rw [hfr]; simp)
    obtain ⟨one, g1, g2, g3⟩ := frame_once_bins O get hc z hL ordered (w := pre.flatten ++ p) (by simp [hp])
      (List.Pairwise.sublist hq.sublist hasc) (fun o h => List.Pairwise.sublist hq.sublist (ho o h))
      (strictLabels_ok (gridSpec_strict _ _ _ _ _ _ hg.1))
    have g4 := (h0 he (pre ++ [p]) post (by rw [hfr]; simp) one (by simpa using g1)).1
    rcases hz with hz | ⟨_, h, _⟩
    · exact g4 (g2 ▸ hz.of_drop)
    · cases h

/-- **C59** Key with `by_x_rows` for `bin_by`: each frame but the first has as many rows as a bin, and, with
the check of zeros, no result is zero. -/
theorem C59_rows_bins (hagg : setupCumsegagg agg dtype = .ok gc) (n : Nat) (hn : 0 < n) (cl : Closed) (pos : R → Int)
    (ordered : Option (R → Int)) {emb : Buf (Option RowsBuf) (List (List V)) → S}
    {e0 : Bool} (hcall : Embeds emb (inPlace (frameCall O get gc z (rowsFn n cl pos) ordered none e0)) cfg.call)
    (hres : cfg.resType = .bins) (hpost : PostRow cfg gB gS) (hw : WriteOk cfg.table cfg.params on d)
    (hT : ByLabel cfg.table on d gB) (hmax : Roomy cfg.params (xBins (cl == .right) n pos (received c f as s.restart s.pre)).length)
    (hm : (w cfg.main).rgs = [])
    (hasc : (received c f as s.restart s.pre).Pairwise fun x y => pos x < pos y)
    (ho : ∀ o, ordered = some o → AscOn o (received c f as s.restart s.pre))
    (hf : ∀ p ∈ (frames c f as s.restart s.pre).tail, n ≤ p.length)
    (h0 : e0 = true → NoZero z (frameCall O get gc z (rowsFn n cl pos) ordered none false) (frames c f as s.restart s.pre)) :
    KeyTotal c as s w f cfg { seg := emb (Buf.init none), post := q0 } := by
  have hc := cfgOk_of hagg
  have hL := rows_lawful n hn cl pos pos
  have hasc' : AscOn pos (received c f as s.restart s.pre) := hasc.imp fun h => by omega
  refine ⟨z, e0, _, _, _, _, _, _, _, _, ⟨keyLaws_bins O get hc z hL (ordered := ordered) hcall hres hpost hw hT,
    keyTotal_bins O get hc z hL (ordered := ordered) hcall, ⟨fun _ => hmax.mono (by simp [binRes]), by simp [hres]⟩, rfl, ⟨_, rfl, frameOk_init O get trivial hL⟩, hm, ?_,
    binsValid_of hL hasc' ho (xBins_strict hn hasc)⟩, fun _ => ?_, by simp [hres], ?_⟩
  · simpa [KeyCfg.snapKey, hres] using hm
  · exact EachAdds.map_length (G := xBins (cl == .right) n pos) (fun _ => by simp [binRes]) (eachAdds_rows hn hf)
  · rintro pre p post hfr ⟨he, hz⟩
    have hq := flatten_prefix hfr
    rw [frames_flatten] at hq
    have hp : p ≠ [] := frames_ne c f as s.restart s.pre p (by rw [hfr]; simp)
    obtain ⟨one, g1, g2, g3⟩ := frame_once_bins O get hc z hL ordered (w := pre.flatten ++ p) (by simp [hp])
      (List.Pairwise.sublist hq.sublist hasc') (fun o h => List.Pairwise.sublist hq.sublist (ho o h))
      (xBins_labels _ n hn pos _)
    have g4 := (h0 he (pre ++ [p]) post (by rw [hfr]; simp) one (by simpa using g1)).1
    rcases hz with hz | ⟨_, h, _⟩
    · exact g4 (g2 ▸ hz.of_drop)
    · cases h

/-- **C59** Key with snapshots from a `TimeGrouper`, bins from another one: frames in a row end in different snapshots, and, if
bins are stored also, in different bins; with the check of zeros, no result is zero. -/
theorem C59_time_snaps (hagg : setupCumsegagg agg dtype = .ok gc) (g : Grouper) (hg : Fixed g) (gs : Grouper) (hgs : Fixed gs)
    (pos : R → Int) {emb : Buf ScaleBuf (List (List V)) → S}
    {e0 : Bool}
    (hcall : Embeds emb (inPlace (frameCall O get gc z (grouperFn g pos) (some pos) (some (.grouper gs)) e0)) cfg.call)
    (hres : cfg.resType ≠ .bins) (hd : cfg.resType = .both → cfg.main ≠ cfg.snap) (hpost : PostRow cfg gB gS)
    (hw : WriteOk cfg.table cfg.params on d) (hws : cfg.resType = .both → WriteOk cfg.table cfg.snapParams on d)
    (hT : cfg.resType = .both → ByLabel cfg.table on d gB) (hTs : ByLabel cfg.table on d gS)
    (hmax : cfg.resType = .both → Roomy cfg.params (gridSpec (g.closed == .right) g.labelRight g.origin0 g.freq pos (received c f as s.restart s.pre)).length)
    (hmaxs : Roomy (if cfg.resType = .both then cfg.snapParams else cfg.params)
      (gridSpec (g.closed == .right) gs.labelRight gs.origin0 gs.freq pos (received c f as s.restart s.pre)).length)
    (hm : (w cfg.main).rgs = []) (hms : cfg.resType = .both → (w cfg.snap).rgs = [])
    (hasc : AscOn pos (received c f as s.restart s.pre))
    (hn : cfg.resType = .both → NewCell (g.closed == .right) g.origin0 g.freq pos (frames c f as s.restart s.pre))
    (hns : NewCell (g.closed == .right) gs.origin0 gs.freq pos (frames c f as s.restart s.pre))
    (h0 : e0 = true → NoZero z (frameCall O get gc z (grouperFn g pos) (some pos) (some (.grouper gs)) false)
      (frames c f as s.restart s.pre)) :
    KeyTotal c as s w f cfg { seg := emb (Buf.init {}), post := q0 } := by
  have hc := cfgOk_of hagg
  have hL := grouper_lawful g g.origin0 hg.anchored pos
  have hSL := grouper_snaps gs gs.origin0 hgs.anchored g.closed pos
  have hst : ∀ q, StrictLabels (gridSpec (g.closed == .right) g.labelRight g.origin0 g.freq pos q) := fun q =>
    gridSpec_strict _ _ _ _ _ _ hg.1
  have hfl : AscOn pos (frames c f as s.restart s.pre).flatten := by rw [frames_flatten]; exact hasc
  refine ⟨z, e0, _, _, _, _, _, _, _, _, ⟨keyLaws_snaps O get hc z hL hSL (gridPts_prefix gs hgs g.closed pos)
    (gridPts_ne gs hgs g.closed pos) hcall hres hd hpost hw hws hT hTs,
    keyTotal_snaps O get hc z hL hSL (gridPts_prefix gs hgs g.closed pos) (gridPts_ne gs hgs g.closed pos) _ hcall, ⟨fun h => (hmax ?_).mono (by simp [binRes]), ?_⟩, rfl, ⟨_, rfl, frameOk_init O get hSL.init hL⟩, hm, ?_,
    ⟨hasc, fun q _ => ⟨strictLabels_ok (hst q), gridSpec_sep _ _ _ _ _ _ hg.1, fun _ => hst q, by
      rw [gridPts_fst]; exact gridSpec_strict _ _ _ _ _ _ hgs.1⟩⟩⟩, fun h => ?_, fun _ fs hfs => ?_, ?_⟩
  · cases hr : cfg.resType <;> simp_all
  · rintro - fs hfs
    cases hfs
    exact hmaxs.mono (by simp [snapRes, gridPts])
  · unfold KeyCfg.snapKey
    split
    · rename_i h; exact hms h
    · exact hm
  · have hb : cfg.resType = .both := by cases hr : cfg.resType <;> simp_all
    exact EachAdds.map_length (G := gridSpec (g.closed == .right) g.labelRight g.origin0 g.freq pos)
      (fun _ => by simp [binRes]) (eachAdds_grid hg.1 (frames_ne _ _ _ _ _) hfl (hn hb))
  · cases hfs
    exact EachAdds.map_length (G := gridSpec (g.closed == .right) gs.labelRight gs.origin0 gs.freq pos)
      (fun _ => by simp [snapRes, gridPts]) (eachAdds_grid hgs.1 (frames_ne _ _ _ _ _) hfl hns)
  · rintro pre p post hfr ⟨he, hz⟩
    have hq := flatten_prefix hfr
    rw [frames_flatten] at hq
    have hp : p ≠ [] := frames_ne c f as s.restart s.pre p (by rw [hfr]; simp)
    obtain ⟨one, sns, g1, g2, g3, g4⟩ := frame_once_snaps O get hc z hL hSL (w := pre.flatten ++ p) (by simp [hp])
      (List.Pairwise.sublist hq.sublist hasc) (strictLabels_ok (hst _)) (gridSpec_sep _ _ _ _ _ _ hg.1)
    have g5 := h0 he (pre ++ [p]) post (by rw [hfr]; simp) one (by simpa using g1)
    rw [g2, g3, Option.getD_some, g4] at g5
    rcases hz with hz | ⟨_, h, hz⟩
    · exact g5.1 hz.of_drop
    · cases h
      exact g5.2 hz.of_drop

/-- Labels and ends of the bins of `by_x_rows`, rows at different positions where the end of a bin or its label matters. -/
theorem snapsValid_rows {n : Nat} (hn : 0 < n) {cl : Closed} {gs : Grouper} (hgs : Fixed gs) {pos : R → Int} {nb : Bool}
    {rows : List R} (hasc : AscOn pos rows) (hties : cl = .right ∨ nb = true → rows.Pairwise fun x y => pos x < pos y) :
    SnapsValid pos (cl == .right) nb (xBins (cl == .right) n pos)
      (gridPts (cl == .right) gs.labelRight gs.origin0 gs.freq pos) rows :=
  ⟨hasc, fun q hq => ⟨xBins_labels _ n hn pos _,
    xBins_sep _ n hn pos q (List.Pairwise.sublist hq.sublist hasc)
      (fun hr => List.Pairwise.sublist hq.sublist (hties (Or.inl (by simpa using hr)))),
    fun hb => xBins_strict hn (List.Pairwise.sublist hq.sublist (hties (Or.inr hb))), by
      rw [gridPts_fst]; exact gridSpec_strict _ _ _ _ _ _ hgs.1⟩⟩

/-- **C59** Key with snapshots from a `TimeGrouper`, bins from `by_x_rows`: frames in a row end in different snapshots, and, if
bins are stored also, have as many rows as a bin; with the check of zeros, no result is zero. -/
theorem C59_rows_snaps (hagg : setupCumsegagg agg dtype = .ok gc) (n : Nat) (hn : 0 < n) (cl : Closed) (gs : Grouper)
    (hgs : Fixed gs) (pos : R → Int) {emb : Buf (Option RowsBuf) (List (List V)) → S} {e0 : Bool}
    (hcall : Embeds emb (inPlace (frameCall O get gc z (rowsFn n cl pos) (some pos) (some (.grouper gs)) e0)) cfg.call)
    (hres : cfg.resType ≠ .bins) (hd : cfg.resType = .both → cfg.main ≠ cfg.snap) (hpost : PostRow cfg gB gS)
    (hw : WriteOk cfg.table cfg.params on d) (hws : cfg.resType = .both → WriteOk cfg.table cfg.snapParams on d)
    (hT : cfg.resType = .both → ByLabel cfg.table on d gB) (hTs : ByLabel cfg.table on d gS)
    (hmax : cfg.resType = .both → Roomy cfg.params (xBins (cl == .right) n pos (received c f as s.restart s.pre)).length)
    (hmaxs : Roomy (if cfg.resType = .both then cfg.snapParams else cfg.params)
      (gridSpec (cl == .right) gs.labelRight gs.origin0 gs.freq pos (received c f as s.restart s.pre)).length)
    (hm : (w cfg.main).rgs = []) (hms : cfg.resType = .both → (w cfg.snap).rgs = [])
    (hasc : AscOn pos (received c f as s.restart s.pre))
    (hties : cl = .right ∨ cfg.resType = .both → (received c f as s.restart s.pre).Pairwise fun x y => pos x < pos y)
    (hp : cfg.resType = .both → ∀ p ∈ (frames c f as s.restart s.pre).tail, n ≤ p.length)
    (hns : NewCell (cl == .right) gs.origin0 gs.freq pos (frames c f as s.restart s.pre))
    (h0 : e0 = true → NoZero z (frameCall O get gc z (rowsFn n cl pos) (some pos) (some (.grouper gs)) false)
      (frames c f as s.restart s.pre)) :
    KeyTotal c as s w f cfg { seg := emb (Buf.init none), post := q0 } := by
  have hc := cfgOk_of hagg
  have hL := rows_lawful n hn cl pos pos
  have hSL := grouper_snaps gs gs.origin0 hgs.anchored cl pos
  have hfl : AscOn pos (frames c f as s.restart s.pre).flatten := by rw [frames_flatten]; exact hasc
  refine ⟨z, e0, _, _, _, _, _, _, _, _, ⟨keyLaws_snaps O get hc z hL hSL (gridPts_prefix gs hgs cl pos)
    (gridPts_ne gs hgs cl pos) hcall hres hd hpost hw hws hT hTs,
    keyTotal_snaps O get hc z hL hSL (gridPts_prefix gs hgs cl pos) (gridPts_ne gs hgs cl pos) _ hcall, ⟨fun h => (hmax ?_).mono (by simp [binRes]), ?_⟩, rfl, ⟨_, rfl, frameOk_init O get hSL.init hL⟩, hm, ?_,
    snapsValid_rows hn hgs hasc (by simpa using hties)⟩, fun h => ?_, fun _ fs hfs => ?_, ?_⟩
  · cases hr : cfg.resType <;> simp_all
  · rintro - fs hfs
    cases hfs
    exact hmaxs.mono (by simp [snapRes, gridPts])
  · unfold KeyCfg.snapKey
    split
    · rename_i h; exact hms h
    · exact hm
  · have hb : cfg.resType = .both := by cases hr : cfg.resType <;> simp_all
    exact EachAdds.map_length (G := xBins (cl == .right) n pos) (fun _ => by simp [binRes]) (eachAdds_rows hn (hp hb))
  · cases hfs
    exact EachAdds.map_length (G := gridSpec (cl == .right) gs.labelRight gs.origin0 gs.freq pos)
      (fun _ => by simp [snapRes, gridPts]) (eachAdds_grid hgs.1 (frames_ne _ _ _ _ _) hfl hns)
  · rintro pre p post hfr ⟨he, hz⟩
    have hq := flatten_prefix hfr
    rw [frames_flatten] at hq
    have hp : p ≠ [] := frames_ne c f as s.restart s.pre p (by rw [hfr]; simp)
    obtain ⟨one, sns, g1, g2, g3, g4⟩ := frame_once_snaps O get hc z hL hSL (w := pre.flatten ++ p) (by simp [hp])
      (List.Pairwise.sublist hq.sublist hasc) (xBins_labels _ n hn pos _)
      (xBins_sep _ n hn pos _ (List.Pairwise.sublist hq.sublist hasc)
        (fun hr => List.Pairwise.sublist hq.sublist (hties (Or.inl (by simpa using hr)))))
    have g5 := h0 he (pre ++ [p]) post (by rw [hfr]; simp) one (by simpa using g1)
    rw [g2, g3, Option.getD_some, g4] at g5
    rcases hz with hz | ⟨_, h, hz⟩
    · exact g5.1 hz.of_drop
    · cases h
      exact g5.2 hz.of_drop

end

/-! ### Examples -/

def exAgg : List (Nat × Nat × Option Fn) := [(0, 0, some .sum), (1, 0, some .last)]

theorem exFixed : Fixed { freq := 10 } := ⟨by decide, .inr (.inr ⟨rfl, by decide⟩)⟩

def exCalls : List (Call (Int × Int)) := [⟨exSeed1, false, false, true⟩, ⟨exSeed2, false, false, true⟩]

/-- `exKey` with `max_row_group_size` and `max_nirgs`. -/
def exKeyC (m k : Nat) : KeyCfg Nat (Int × Int) (List (List Int)) ExBuf Unit :=
  { exKey 0 0 with params := { orderedOn := some (.col 0), dupOn := some (.one 0), maxRg := some m, maxNirgs := some k } }

-- frames end in bins 10, 20, 30, 40: `C59_total` applies, with a write on the way for each frame, and with `max_nirgs`: there are
-- five results, for row groups of six rows
example : ∃ s' w', aggs (exConf [(0, exKeyC 6 1)]) exCalls (exState 1 (Buf.init {})) exWorld = .ok (s', w') := by
  refine C59_total (by simp [Apart, exConf]) rfl
    (C59_iter rfl (by simp [exConf]) (by simp [exCalls, exSeed1, exSeed2, Ascending, exConf]) _ _) ?_
  intro i f cfg b h1 h2
  obtain ⟨rfl, rfl, rfl⟩ : f = 0 ∧ cfg = exKeyC 6 1 ∧ i = 0 := by
    cases i with
    | zero => simp [exConf] at h1; exact ⟨h1.1.symm, h1.2.symm, rfl⟩
    | succ i => simp [exConf] at h1
  obtain rfl : b = { seg := Buf.init {}, post := () } := by simpa [exState] using h2.symm
  refine C59_time_bins (emb := id) (e0 := true) (gB := id) (gS := id) (on := 0) (d := .one 0) (fun _ : Unit => intOps) ex_get
    (dtype := fun _ => some ()) (agg := exAgg) (gc := ex_cfg) exZ rfl { freq := 10 } exFixed Prod.fst none ?_ rfl
    ⟨rfl, rfl⟩ ⟨rfl, rfl, by decide, by decide⟩ exKey_byLabel
    ⟨by decide, .inr ⟨6, 1, rfl, rfl, by decide, by decide⟩⟩ rfl ?_ (by simp) ?_ ?_
  · intro p b
    simp only [exKeyC, exKey, id]
    cases inPlace (frameCall (fun _ => intOps) ex_get ex_cfg exZ (grouperFn { freq := 10 } Prod.fst) none none
      true) p b <;> rfl
  · show AscOn _ [((1 : Int), (1 : Int)), (12, 2), (13, 4), (25, 8), (26, 16), (38, 32), (39, 64), (41, 128)]
    simp [AscOn]
  · show NewCell false 0 10 _ [[((1 : Int), (1 : Int)), (12, 2)], [(13, 4), (25, 8)], [(26, 16), (38, 32)], [(39, 64), (41, 128)]]
    have h : ∀ k x y : Int, InCell false 0 10 k x ∧ ¬ InCell false 0 10 k y →
        ∃ k, InCell false 0 10 k x ∧ ¬ InCell false 0 10 k y := fun k _ _ h => ⟨k, h⟩
    exact .cons (p := [_]) (q := [_]) (by decide) (h 1 _ _ (by decide))
      (.cons (p := [_]) (q := [_]) (by decide) (h 2 _ _ (by decide))
        (.cons (p := [_]) (q := [_]) (by decide) (h 3 _ _ (by decide)) .one))
  · exact fun _ => NoZero.of_all rfl

/-- Without room the stream does fail: the same key and the same frames with row groups of three rows end with the exception of the
writer ("no files ...") for a later result. -/
theorem C59_max_nirgs_fails :
    (match aggs (exConf [(0, exKeyC 3 1)]) exCalls (exState 1 (Buf.init {})) exWorld with
      | .error (.write .noFiles) => true
      | _ => false) = true := by
  decide +kernel

-- frames of three rows, for bins of two rows
example : ∃ s' w', aggs (exConf [(0, exRows 2 0)])
    [⟨[[(1, 1)], [(2, 2), (3, 4), (4, 8)]], false, false, false⟩, ⟨[[(5, 16), (6, 32)]], false, false, true⟩]
    (exState 1 (Buf.init none)) exWorld = .ok (s', w') := by
  refine C59_total (by simp [Apart, exConf]) rfl
    (C59_iter rfl (by simp [exConf]) (by simp [Ascending, exConf]) _ _) ?_
  intro i f cfg b h1 h2
  obtain ⟨rfl, rfl, rfl⟩ : f = 0 ∧ cfg = exRows 2 0 ∧ i = 0 := by
    cases i with
    | zero => simp [exConf] at h1; exact ⟨h1.1.symm, h1.2.symm, rfl⟩
    | succ i => simp [exConf] at h1
  obtain rfl : b = { seg := Buf.init none, post := () } := by simpa [exState] using h2.symm
  refine C59_rows_bins (emb := id) (e0 := true) (gB := id) (gS := id) (on := 0) (d := .one 0) (fun _ : Unit => intOps) ex_get
    (dtype := fun _ => some ()) (agg := exAgg) (gc := ex_cfg) exZ rfl 2 (by decide) .left Prod.fst none ?_ rfl
    ⟨rfl, rfl⟩ ⟨rfl, rfl, by decide, by decide⟩ exKey_byLabel ⟨by decide, .inl rfl⟩ rfl ?_ (by simp) ?_ ?_
  · intro p b
    simp only [exRows, id]
    cases inPlace (frameCall (fun _ => intOps) ex_get ex_cfg exZ (rowsFn 2 .left Prod.fst) none none
      true) p b <;> rfl
  · show List.Pairwise _ [((1 : Int), (1 : Int)), (2, 2), (3, 4), (4, 8), (5, 16), (6, 32)]
    simp
  · show ∀ p ∈ [[((2 : Int), (2 : Int)), (3, 4), (4, 8)], [(5, 16), (6, 32)]], 2 ≤ p.length
    simp
  · exact fun _ => NoZero.of_all rfl

-- a sum of zero
example : aggs (exConf [(0, exKey 0 0)]) [⟨[[(1, 1), (12, 2)], [(13, -2), (25, 8)]], false, false, true⟩]
    (exState 1 (Buf.init {})) exWorld = .error (.agg .zeroBin) := rfl

-- the second frame goes on in the same bin: this is `C48_empty_write_fails`
example : aggs (exConf [(0, exKey 0 0)]) [⟨[[(1, 1)]], false, false, true⟩, ⟨[[(2, 2)], [(3, 4)], [(4, 8)]], false, false, true⟩]
    (exState 1 (Buf.init {})) exWorld = .error (.write .indexError) ∧
    ¬ NewCell false 0 10 Prod.fst (frames (exConf [(0, exKey 0 0)]) 0
      [⟨[[(1, 1)]], false, false, true⟩, ⟨[[(2, 2)], [(3, 4)], [(4, 8)]], false, false, true⟩] none ()) :=
  ⟨rfl, fun h => h [] _ _ _ rfl _ rfl _ rfl 0 (by decide) (by decide)⟩

end Oups.AggStream
