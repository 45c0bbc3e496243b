import Verif.Props.Chained
import Verif.Props.AggLife
import Verif.Props.AggSettings
/-! What is read while calls to `agg` go on: C90. -/
set_option linter.unusedSimpArgs false
namespace Oups.AggStream
open Oups.Agg Oups.Agg.Spec Oups.Segment Oups.Segment.Spec
open Oups.Writer (Table Params RG Col DupOn dupCols readRows StrictOn Along)

section
variable {K R A S P Q F : Type} [DecidableEq K] [DecidableEq F]

/-- `r'` is read after `r`: all rows of `r` but the last one are in `r'`, at the same places; there are no less rows; and the
values of the ordering column `ord` of `r` are still there, at the same places. -/
structure Later (ord : Row A → Int) (r r' : List (Row A)) : Prop where
  settled : r.dropLast <+: r'
  more : r.length ≤ r'.length
  labels : r.map ord <+: r'.map ord

theorem Later.refl (ord : Row A → Int) (r : List (Row A)) : Later ord r r :=
  ⟨List.dropLast_prefix r, le_refl _, List.prefix_refl _⟩

theorem Later.trans {ord : Row A → Int} {r1 r2 r3 : List (Row A)} (h1 : Later ord r1 r2) (h2 : Later ord r2 r3) :
    Later ord r1 r3 := by
  refine ⟨?_, h1.more.trans h2.more, h1.labels.trans h2.labels⟩
  refine List.IsPrefix.trans (List.prefix_of_prefix_length_le h1.settled (List.dropLast_prefix r2) ?_) h2.settled
  have := h1.more
  simp only [List.length_dropLast]
  omega

/-- Number of stored rows: one more than those that are not held, at most; those of all results if none is held. -/
def Snug (F : List R → List (Row A)) (h : List R) (buf : List (List (Row A))) (last : Option (List (Row A)))
    (rgs : List (RG (Row A))) : Prop :=
  match last with
  | none => (readRows rgs).length ≤ (F h).length
  | some b => (readRows rgs).length + buf.flatten.length + b.length ≤ (F h).length + 1

/-- Same, between the two halves of `agg_iter`. -/
def SnugMid (F : List R → List (Row A)) (h : List R) (buf : List (List (Row A))) (rgs : List (RG (Row A))) : Prop :=
  (readRows rgs).length + buf.flatten.length ≤ (F h).dropLast.length + 1

/-- Rows with the same values in the columns of duplicates have the same value in the ordering column. -/
theorem labels_of_keys {T : Table (Row A)} {on : Col} {d : DupOn} (hcol : on ∈ T.cols) {l G : List (Row A)}
    (hl : l.map (T.key (dupCols T.cols on d)) <+: G.map (T.key (dupCols T.cols on d))) :
    l.map (T.get on) <+: G.map (T.get on) := by
  have e := List.prefix_iff_eq_take.1 hl
  rw [List.prefix_iff_eq_take]
  rw [List.length_map, ← List.map_take] at e
  rw [List.length_map, ← List.map_take]
  have hlen := congrArg List.length e
  simp only [List.length_map] at hlen
  refine List.ext_getElem (by simpa using hlen) fun j hj hj' => ?_
  have := congrArg (fun l => l[j]?) e
  simp only [List.length_map] at hj hj'
  simp only [List.getElem?_map, List.getElem?_eq_getElem hj, List.getElem?_eq_getElem hj', Option.map_some,
    Option.some.injEq] at this
  simpa using Oups.Writer.dupCols_sep hcol this

/-- Rows read before and after a write. -/
theorem write_later {T : Table (Row A)} {p : Params} {on : Col} {d : DupOn} {G pre data : List (Row A)}
    {rgs rgs' : List (RG (Row A))} (hw : WriteOk T p on d) (hn : (readRows rgs).length ≤ pre.length + 1)
    (hG : StrictOn (T.get on) G) (ha : Along T on d G rgs) (hpre : pre <+: readRows rgs)
    (hk : (pre ++ data).map (T.key (dupCols T.cols on d)) <+: G.map (T.key (dupCols T.cols on d)))
    (h : Writer.write T p rgs data = .ok rgs') :
    Later (T.get on) (readRows rgs) (readRows rgs') ∧
      (readRows rgs').length ≤ max (readRows rgs).length (pre ++ data).length := by
  obtain ⟨h1, h2, -, -, h5, -⟩ := Along.write hw.ordered hw.dup (.inr hn) hw.col hG ha hpre hk h
  have hmore : (readRows rgs).length ≤ (readRows rgs').length := by
    by_cases hd : data = []
    · subst hd
      by_cases hr : rgs = []
      · subst hr; simp [readRows]
      · rw [Writer.C24_empty_ordered hw.ordered hw.col hr] at h
        cases h
    · have := List.length_pos_iff.2 hd
      have := h2.length_le
      simp only [List.length_append] at this
      omega
  refine ⟨⟨?_, hmore, ?_⟩, h5⟩
  · have h6 : (readRows rgs).dropLast <+: pre :=
      List.prefix_of_prefix_length_le (List.dropLast_prefix _) hpre (by simp only [List.length_dropLast]; omega)
    exact h6.trans (List.IsPrefix.trans ⟨data, rfl⟩ h2)
  · exact List.prefix_of_prefix_length_le (labels_of_keys hw.col ha.keys) (labels_of_keys hw.col h1.keys) (by simpa using hmore)

section track
variable {V : List R → Prop} {G : List R → List (Row A)} {g : Row A → Row A} {T : Table (Row A)} {on : Col} {d : DupOn}
  {p : Params}

theorem Snug.mid_none {h : List R} {buf : List (List (Row A))} {rgs : List (RG (Row A))} (hs : Snug G h buf none rgs)
    (hb : buf = []) : SnugMid G h buf rgs := by
  subst hb
  simp only [Snug, SnugMid, List.length_dropLast, List.flatten_nil, List.length_nil] at hs ⊢
  omega

theorem Snug.mid_push {h : List R} {buf : List (List (Row A))} {b : List (Row A)} {rgs : List (RG (Row A))}
    (hs : Snug G h buf (some b) rgs) (hb : b ≠ []) : SnugMid G h (buf ++ [b.dropLast]) rgs := by
  have := List.length_pos_iff.2 hb
  simp only [Snug, SnugMid, List.length_dropLast, List.flatten_append, List.length_append, List.flatten_cons,
    List.flatten_nil, List.append_nil] at hs ⊢
  omega

theorem SnugMid.call {h q : List R} {buf : List (List (Row A))} {new : List (Row A)} {rgs : List (RG (Row A))}
    (hs : SnugMid G h buf rgs) (hF : G (h ++ q) = (G h).dropLast ++ new) : Snug G (h ++ q) buf (some new) rgs := by
  simp only [Snug, SnugMid, hF, List.length_append] at hs ⊢
  omega

theorem SnugMid.write (law : StreamLaw V G g T on d) (hw : WriteOk T p on d) {Tot h : List R} (hV : V Tot) (hh : h <+: Tot)
    {base : List (Row A)} {buf : List (List (Row A))} {rgs rgs' : List (RG (Row A))}
    (ht : TrackMid p G g T on d Tot base h buf rgs) (hs : SnugMid G h buf rgs)
    (hwr : Writer.write T p rgs (buf.flatten.map g) = .ok rgs') :
    SnugMid G h [] rgs' ∧ Later (T.get on) (readRows rgs) (readRows rgs') := by
  obtain ⟨hb, pre, h1, h2, h3, -⟩ := ht
  have hlen := congrArg List.length h2
  simp only [List.length_append] at hlen
  simp only [SnugMid] at hs
  obtain ⟨e1, e2⟩ := write_later (pre := pre.map g) (data := buf.flatten.map g) hw (by rw [List.length_map]; omega)
    (law.strict Tot hV) h3.along h3.pre
    (by rw [← List.map_append, h2]; exact keys_dropLast law hV hh (dropLast_pre _)) hwr
  refine ⟨?_, e1⟩
  simp only [List.length_append, List.length_map] at e2
  simp only [SnugMid, List.flatten_nil, List.length_nil]
  omega

theorem Snug.final (law : StreamLaw V G g T on d) (hw : WriteOk T p on d) {Tot h : List R} (hV : V Tot) (hh : h <+: Tot)
    {base b : List (Row A)} {buf : List (List (Row A))} {rgs rgs' : List (RG (Row A))}
    (ht : TrackOk p G g T on d Tot base h buf (some b) rgs) (hs : Snug G h buf (some b) rgs)
    (hwr : Writer.write T p rgs ((cat true buf b).map g) = .ok rgs') :
    Snug G h [] none rgs' ∧ Later (T.get on) (readRows rgs) (readRows rgs') := by
  obtain ⟨hb, pre, h1, ⟨hbne, h2⟩, h3, -⟩ := ht
  have hcat : pre ++ cat true buf b = G h := by rw [h2]; simp [cat]
  have hpos := List.length_pos_iff.2 hbne
  have hlen := congrArg List.length h2
  simp only [List.length_append] at hlen
  simp only [Snug] at hs ⊢
  obtain ⟨e1, e2⟩ := write_later (pre := pre.map g) (data := (cat true buf b).map g) hw (by rw [List.length_map]; omega)
    (law.strict Tot hV) h3.along h3.pre
    (by rw [← List.map_append, hcat]; exact keys_dropLast law hV hh (List.prefix_refl _)) hwr
  refine ⟨?_, e1⟩
  rw [← List.map_append, hcat, List.length_map] at e2
  omega

/-- Stored rows but the last one are results that do not change. -/
theorem Snug.read {h base : List R} {B : List (Row A)} {buf : List (List (Row A))} {last : Option (List (Row A))}
    {rgs : List (RG (Row A))} (ht : TrackOk p G g T on d h B h buf last rgs) (hs : Snug G h buf last rgs) :
    (readRows rgs).dropLast <+: (G h).dropLast.map g ∧ (readRows rgs).length ≤ (G h).length := by
  obtain ⟨hb, pre, h1, h2, h3, -⟩ := ht
  cases last with
  | none =>
    obtain ⟨rfl, rfl | ⟨-, h⟩⟩ := h2
    · rw [h3.exact, ← List.map_dropLast]
      exact ⟨List.prefix_refl _, by simp⟩
    · exact absurd rfl h
  | some b =>
    obtain ⟨hbne, h2⟩ := h2
    have hpos := List.length_pos_iff.2 hbne
    have hlen := congrArg List.length h2
    simp only [List.length_append] at hlen
    simp only [Snug] at hs
    refine ⟨?_, by omega⟩
    have h6 : (readRows rgs).dropLast <+: pre.map g :=
      List.prefix_of_prefix_length_le (List.dropLast_prefix _) h3.pre (by simp only [List.length_dropLast, List.length_map]; omega)
    refine h6.trans (List.IsPrefix.map g ?_)
    rw [h2, List.append_assoc, List.dropLast_append_of_ne_nil (by simp [hbne])]
    exact ⟨_, rfl⟩

end track

section key
variable {cfg : KeyCfg K R A S Q} {V : List R → Prop} {FB : List R → List (Row A)}
  {FS : Option (List R → List (Row A))} {ok : List R → S → Prop} {gB gS : Row A → Row A} {on : Col} {d : DupOn}
  {truthy : Int → Bool}

/-- `Snug`, for bins and snapshots. -/
def KSnug (cfg : KeyCfg K R A S Q) (FB : List R → List (Row A)) (FS : Option (List R → List (Row A))) (h : List R)
    (st : KeyBuf A S Q) (w : World K A (Md S P Q)) : Prop :=
  (cfg.resType ≠ .snaps → Snug FB h st.binBuf st.bin (w cfg.main).rgs) ∧
  (cfg.resType ≠ .bins → ∀ f, FS = some f → Snug f h st.snapBuf st.snap (w cfg.snapKey).rgs)

/-- Both datasets of a key, later. -/
def KLater (cfg : KeyCfg K R A S Q) (on : Col) (w w' : World K A (Md S P Q)) : Prop :=
  (cfg.resType ≠ .snaps → Later (cfg.table.get on) (readRows (w cfg.main).rgs) (readRows (w' cfg.main).rgs)) ∧
  (cfg.resType ≠ .bins → Later (cfg.table.get on) (readRows (w cfg.snapKey).rgs) (readRows (w' cfg.snapKey).rgs))

theorem KLater.refl (w : World K A (Md S P Q)) : KLater cfg on w w := ⟨fun _ => .refl _ _, fun _ => .refl _ _⟩

theorem KLater.trans {w1 w2 w3 : World K A (Md S P Q)} (h1 : KLater cfg on w1 w2) (h2 : KLater cfg on w2 w3) :
    KLater cfg on w1 w3 := ⟨fun h => (h1.1 h).trans (h2.1 h), fun h => (h1.2 h).trans (h2.2 h)⟩

theorem KLater.agree {w1 w1' w2 w2' : World K A (Md S P Q)} (h1 : Agree cfg w1 w1') (h2 : Agree cfg w2 w2')
    (h : KLater cfg on w1 w2) : KLater cfg on w1' w2' := by
  simp only [KLater, ← h1 _ (touches_main cfg), ← h2 _ (touches_main cfg), ← h1 _ (touches_snapKey cfg),
    ← h2 _ (touches_snapKey cfg)]
  exact h

theorem flushPrev_later (L : KeyLaws cfg V FB FS ok gB gS on d) {Tot h0 h : List R} (hV : V Tot) {st st' : KeyBuf A S Q}
    {w w' : World K A (Md S P Q)} (hi : KInv cfg FB FS ok gB gS on d Tot h0 h st w) (hs : KSnug cfg FB FS h st w)
    (hfl : flushPrev cfg truthy st w = .ok (st', w')) :
    (cfg.resType ≠ .snaps → SnugMid FB h st'.binBuf (w' cfg.main).rgs) ∧
    (cfg.resType ≠ .bins → ∀ f, FS = some f → SnugMid f h st'.snapBuf (w' cfg.snapKey).rgs) ∧ KLater cfg on w w' := by
  rename' h => hrows, hfl => h
  simp only [flushPrev] at h
  cases hb : st.bin with
  | none =>
    simp only [hb, Except.ok.injEq, Prod.mk.injEq] at h
    obtain ⟨rfl, rfl⟩ := h
    obtain ⟨n1, n2, n3, -⟩ := hi.noRes hb
    refine ⟨fun hr => ?_, fun hr f hf => ?_, .refl _⟩
    · have := hs.1 hr
      rw [hb] at this
      exact this.mid_none n2
    · have := hs.2 hr f hf
      rw [n1] at this
      exact this.mid_none n3
  | some b =>
    obtain ⟨hbne, hsn⟩ := hi.hasRes b hb
    have hbe : b.isEmpty = false := by cases b <;> simp_all
    simp only [hb, hbe, Bool.false_eq_true, if_false] at h
    have hpB : cfg.resType ≠ .snaps → TrackMid cfg.params FB gB cfg.table on d Tot (FB h0).dropLast hrows
        (pushPrev cfg st b).binBuf (w cfg.main).rgs ∧ SnugMid FB hrows (pushPrev cfg st b).binBuf (w cfg.main).rgs := by
      intro hr
      have h1 := hi.bins hr
      have h2 := hs.1 hr
      rw [hb] at h1 h2
      exact ⟨h1.mid_push, h2.mid_push hbne⟩
    have hpS : cfg.resType ≠ .bins → ∀ f, FS = some f → TrackMid cfg.snapPars f gS cfg.table on d Tot (f h0).dropLast hrows
        (pushPrev cfg st b).snapBuf (w cfg.snapKey).rgs ∧ SnugMid f hrows (pushPrev cfg st b).snapBuf (w cfg.snapKey).rgs := by
      intro hr f hf
      have h1 := hi.snaps hr f hf
      have h2 := hs.2 hr f hf
      obtain ⟨s, hss⟩ := hsn hr
      rw [hss] at h1 h2
      simp only [pushPrev, hss]
      obtain ⟨-, -, -, ⟨hne, -⟩, -⟩ := h1
      exact ⟨(by have := hi.snaps hr f hf; rw [hss] at this; exact this.mid_push), h2.mid_push hne⟩
    split at h
    · have hb' : (pushPrev cfg st b).bin = some b := hb
      obtain ⟨⟨q, rfl⟩, w1, w2, w3⟩ := post_some L.post L.distinct h hb' hsn
      have hS : ∀ hr : cfg.resType ≠ .bins, ∀ f, FS = some f →
          SnugMid f hrows [] (w' cfg.snapKey).rgs ∧
          Later (cfg.table.get on) (readRows (w cfg.snapKey).rgs) (readRows (w' cfg.snapKey).rgs) := by
        intro hr f hf
        obtain ⟨s, hss⟩ := hsn hr
        obtain ⟨f', hf', law⟩ := L.snaps hr
        rw [hf, Option.some.injEq] at hf'
        subst hf'
        exact (hpS hr f hf).2.write law L.wsnap hV hi.pre (hpS hr f hf).1 (w2 hr s hss)
      refine ⟨fun hr => ((hpB hr).2.write (L.bins hr) L.wmain hV hi.pre (hpB hr).1 (w1 hr)).1,
        fun hr f hf => (hS hr f hf).1,
        fun hr => ((hpB hr).2.write (L.bins hr) L.wmain hV hi.pre (hpB hr).1 (w1 hr)).2, fun hr => ?_⟩
      obtain ⟨f, hf, -⟩ := L.snaps hr
      exact (hS hr f hf).2
    · simp only [Except.ok.injEq, Prod.mk.injEq] at h
      obtain ⟨rfl, rfl⟩ := h
      exact ⟨fun hr => (hpB hr).2, fun hr f hf => (hpS hr f hf).2, .refl _⟩

theorem aggIter_later (L : KeyLaws cfg V FB FS ok gB gS on d) {Tot h0 h : List R} (hV : V Tot) {st st' : KeyBuf A S Q}
    {w w' : World K A (Md S P Q)} (hi : KInv cfg FB FS ok gB gS on d Tot h0 h st w) (hs : KSnug cfg FB FS h st w)
    {chunk : List R} (hne : chunk ≠ [])
    (hpre : h ++ chunk <+: Tot) (hag : aggIter cfg truthy chunk st w = .ok (st', w')) :
    KSnug cfg FB FS (h ++ chunk) st' w' ∧ KLater cfg on w w' := by
  obtain ⟨st1, res, seg, h1, h2, rfl⟩ := aggIter_ok hag
  obtain ⟨m1, m2, m3⟩ := flushPrev_later L hV hi hs h1
  have hm := flushPrev_inv L hV hi h1
  have hV' : V (h ++ chunk) := by
    obtain ⟨t, ht⟩ := hpre
    rw [← ht] at hV
    exact L.valid _ t hV
  obtain ⟨hok, r, rfl, hrne, hrb, hrs⟩ := L.call.step hm.ok hne hV' h2
  refine ⟨⟨fun hr => (m1 hr).call hrb, fun hr f hf => ?_⟩, m3⟩
  rw [hf] at hrs
  obtain ⟨sn, hsn, hsne, hsF⟩ := hrs
  simp only [Option.bind_some, hsn]
  exact (m2 hr f hf).call hsF

theorem final_later (L : KeyLaws cfg V FB FS ok gB gS on d) {Tot h0 h : List R} (hV : V Tot) {st st' : KeyBuf A S Q}
    {w w' : World K A (Md S P Q)} (hi : KInv cfg FB FS ok gB gS on d Tot h0 h st w) (hs : KSnug cfg FB FS h st w)
    {fin : Option (Int × P)} (hag : postNWrite cfg truthy true fin st w = .ok (st', w')) :
    KSnug cfg FB FS h st' w' ∧ KLater cfg on w w' := by
  cases hb : st.bin with
  | none =>
    obtain ⟨q, main, snap, r1, r2, r3⟩ := postNWrite_ok hag
    have := results_none r1 hb
    simp only [Prod.mk.injEq] at this
    obtain ⟨rfl, rfl, rfl⟩ := this
    simp only [hb, Option.isSome_none, Bool.false_eq_true, if_false] at r3
    subst r3
    obtain ⟨e1, e2, e3, e4, e5⟩ := writeResults_none r2
    have hrgs : ∀ k, (w' k).rgs = (w k).rgs := by
      intro k
      by_cases hk : k = cfg.main
      · subst hk
        cases hin : (w cfg.main).inStore with
        | true => exact e4 hin
        | false => rw [hi.wf hin]; exact e5 hin (hi.wf hin)
      · rw [e1 k hk]
    simp only [KSnug, KLater, hrgs]
    exact ⟨by simpa [KSnug, hb] using hs, fun _ => .refl _ _, fun _ => .refl _ _⟩
  | some b =>
    obtain ⟨hbne, hsn⟩ := hi.hasRes b hb
    obtain ⟨⟨q, rfl⟩, w1, w2, w3⟩ := post_some L.post L.distinct hag hb hsn
    have hB := fun hr : cfg.resType ≠ .snaps =>
      Snug.final (L.bins hr) L.wmain hV hi.pre (hb ▸ hi.bins hr) (hb ▸ hs.1 hr) (w1 hr)
    have hS : ∀ hr : cfg.resType ≠ .bins, ∀ f, FS = some f → Snug f h [] none (w' cfg.snapKey).rgs ∧
        Later (cfg.table.get on) (readRows (w cfg.snapKey).rgs) (readRows (w' cfg.snapKey).rgs) := by
      intro hr f hf
      obtain ⟨s, hss⟩ := hsn hr
      obtain ⟨f', hf', law⟩ := L.snaps hr
      rw [hf, Option.some.injEq] at hf'
      subst hf'
      exact Snug.final law L.wsnap hV hi.pre (hss ▸ hi.snaps hr f hf) (hss ▸ hs.2 hr f hf) (w2 hr s hss)
    refine ⟨⟨fun hr => (hB hr).1, fun hr f hf => (hS hr f hf).1⟩, fun hr => (hB hr).2, fun hr => ?_⟩
    obtain ⟨f, hf, -⟩ := L.snaps hr
    exact (hS hr f hf).2

theorem keyRun_later (L : KeyLaws cfg V FB FS ok gB gS on d) {Tot h0 : List R} (hV : V Tot) {ops : List (KOp R P)}
    (hops : OpsOk ops) {h : List R} {st st' : KeyBuf A S Q}
    {w w' : World K A (Md S P Q)} (hi : KInv cfg FB FS ok gB gS on d Tot h0 h st w) (hs : KSnug cfg FB FS h st w)
    (hpre : h ++ opRows ops <+: Tot) (hr : keyRun cfg truthy ops st w = .ok (st', w')) :
    KSnug cfg FB FS (h ++ opRows ops) st' w' ∧ KLater cfg on w w' := by
  induction ops generalizing h st w with
  | nil =>
    simp only [keyRun, Except.ok.injEq, Prod.mk.injEq] at hr
    obtain ⟨rfl, rfl⟩ := hr
    exact ⟨by simpa [opRows] using hs, .refl _⟩
  | cons op ops ih =>
    simp only [keyRun] at hr
    cases hst : keyStep cfg truthy op st w with
    | error e => simp [hst] at hr
    | ok r =>
      obtain ⟨st1, w1⟩ := r
      simp only [hst] at hr
      have hops' : OpsOk ops := fun c hc => hops c (by simp [hc])
      cases op with
      | chunk c =>
        simp only [opRows, ← List.append_assoc] at hpre ⊢
        have hp1 := List.IsPrefix.trans ⟨_, rfl⟩ hpre
        obtain ⟨a1, a2⟩ := aggIter_later L hV hi hs (hops c (by simp)) hp1 hst
        obtain ⟨b1, b2⟩ := ih hops' (aggIter_inv L hV hi (hops c (by simp)) hp1 hst) a1 hpre hr
        exact ⟨b1, a2.trans b2⟩
      | final r pb =>
        simp only [opRows] at hpre ⊢
        obtain ⟨a1, a2⟩ := final_later L hV hi hs hst
        obtain ⟨b1, b2⟩ := ih hops' (final_inv L hV hi hst).1 a1 hpre hr
        exact ⟨b1, a2.trans b2⟩

theorem KSnug.init {s0 : S} {q0 : Q} {w : World K A (Md S P Q)} (hm : (w cfg.main).rgs = [])
    (hs : (w cfg.snapKey).rgs = []) : KSnug cfg FB FS [] { seg := s0, post := q0 } w :=
  ⟨fun _ => by simp [Snug, hm, readRows], fun _ _ _ => by simp [Snug, hs, readRows]⟩

theorem KSnug.world {h : List R} {b : KeyBuf A S Q} {w w' : World K A (Md S P Q)} (ha : Agree cfg w w')
    (hs : KSnug cfg FB FS h b w) : KSnug cfg FB FS h b w' := by
  simp only [KSnug, ← ha _ (touches_main cfg), ← ha _ (touches_snapKey cfg)]
  exact hs

/-- What is read for a key: all rows but the last one are results on rows `q` that are not the last result. -/
def Seen (cfg : KeyCfg K R A S Q) (FB : List R → List (Row A)) (FS : Option (List R → List (Row A))) (gB gS : Row A → Row A)
    (q : List R) (w : World K A (Md S P Q)) : Prop :=
  (cfg.resType ≠ .snaps → (readRows (w cfg.main).rgs).dropLast <+: (FB q).dropLast.map gB ∧
    (readRows (w cfg.main).rgs).length ≤ (FB q).length) ∧
  (cfg.resType ≠ .bins → ∀ f, FS = some f → (readRows (w cfg.snapKey).rgs).dropLast <+: (f q).dropLast.map gS ∧
    (readRows (w cfg.snapKey).rgs).length ≤ (f q).length)

/-- A new key, after any operations. -/
theorem keyRun_seen (L : KeyLaws cfg V FB FS ok gB gS on d) {s0 : S} {q0 : Q} (h0 : ok [] s0) {w w' : World K A (Md S P Q)}
    (hm : (w cfg.main).rgs = []) (hs : (w cfg.snapKey).rgs = []) {ops : List (KOp R P)} (hops : OpsOk ops) (hV : V (opRows ops))
    {st : KeyBuf A S Q} (hr : keyRun cfg truthy ops { seg := s0, post := q0 } w = .ok (st, w')) :
    Seen cfg FB FS gB gS (opRows ops) w' := by
  have hi := keyRun_inv L hV hops (KInv.init L h0 hm hs (opRows ops)) (List.prefix_refl _) hr
  have hn := (keyRun_later L hV hops (KInv.init L h0 hm hs (opRows ops)) (KSnug.init hm hs) (List.prefix_refl _) hr).1
  rw [List.nil_append] at hi hn
  exact ⟨fun h => (hn.1 h).read (base := []) (hi.bins h), fun h f hf => (hn.2 h f hf).read (base := []) (hi.snaps h f hf)⟩

/-- **C90** Reads of the datasets of a new key, one when its first `n` operations (frames processed, final writes) are done, one
when its first `m` operations are, `n ≤ m`. -/
theorem C90_polls (L : KeyLaws cfg V FB FS ok gB gS on d) {s0 : S} {q0 : Q} (h0 : ok [] s0) {w wn wm : World K A (Md S P Q)}
    (hm : (w cfg.main).rgs = []) (hs : (w cfg.snapKey).rgs = []) {ops : List (KOp R P)} (hops : OpsOk ops) (hV : V (opRows ops))
    {n m : Nat} (hnm : n ≤ m) {sn sm : KeyBuf A S Q}
    (h1 : keyRun cfg truthy (ops.take n) { seg := s0, post := q0 } w = .ok (sn, wn))
    (h2 : keyRun cfg truthy (ops.take m) { seg := s0, post := q0 } w = .ok (sm, wm)) : KLater cfg on wn wm := by
  have e : ops.take m = ops.take n ++ (ops.drop n).take (m - n) := by
    rw [← List.take_add]; congr 1; omega
  rw [e, keyRun_append_ok h1] at h2
  have hsplit : opRows ops = opRows (ops.take n) ++ opRows (ops.drop n) := by rw [← opRows_append, List.take_append_drop]
  have hsplit2 : opRows (ops.drop n) = opRows ((ops.drop n).take (m - n)) ++ opRows ((ops.drop n).drop (m - n)) := by
    rw [← opRows_append, List.take_append_drop]
  have o1 : OpsOk (ops.take n) := fun ch hc => hops ch (List.mem_of_mem_take hc)
  have o2 : OpsOk ((ops.drop n).take (m - n)) := fun ch hc => hops ch (List.mem_of_mem_drop (List.mem_of_mem_take hc))
  have p1 : [] ++ opRows (ops.take n) <+: opRows ops := by rw [hsplit]; exact ⟨_, rfl⟩
  have hi := keyRun_inv L hV o1 (KInv.init L h0 hm hs (opRows ops)) p1 h1
  have hn := (keyRun_later L hV o1 (KInv.init L h0 hm hs (opRows ops)) (KSnug.init hm hs) p1 h1).1
  exact (keyRun_later L hV o2 hi hn (by rw [hsplit, hsplit2, List.nil_append, ← List.append_assoc]; exact ⟨_, rfl⟩) h2).2

end key

section stream
variable {c : Config K R A S P Q F} {i : Nat} {f : F} {cfg : KeyCfg K R A S Q} {V : List R → Prop}
  {FB : List R → List (Row A)} {FS : Option (List R → List (Row A))} {ok : List R → S → Prop} {gB gS : Row A → Row A} {on : Col}
  {d : DupOn} {s s1 s2 : State A S P Q} {w w1 w2 wc : World K A (Md S P Q)} {s0 : S} {q0 : Q} {as bs : List (Call R)}

/-- A key whose buffers are `b`, when rows `h` were received, as a call starts. -/
def Start (cfg : KeyCfg K R A S Q) (V : List R → Prop) (FB : List R → List (Row A)) (FS : Option (List R → List (Row A)))
    (ok : List R → S → Prop) (gB gS : Row A → Row A) (on : Col) (d : DupOn) (h : List R) (b : KeyBuf A S Q)
    (w : World K A (Md S P Q)) : Prop :=
  (∀ Tot, V Tot → h <+: Tot → ∃ h0, KInv cfg FB FS ok gB gS on d Tot h0 h b w) ∧ KSnug cfg FB FS h b w

theorem Start.new (L : KeyLaws cfg V FB FS ok gB gS on d) (h0 : ok [] s0) (hm : (w cfg.main).rgs = [])
    (hs : (w cfg.snapKey).rgs = []) : Start cfg V FB FS ok gB gS on d [] { seg := s0, post := q0 } w :=
  ⟨fun Tot _ _ => ⟨[], KInv.init L h0 hm hs Tot⟩, KSnug.init hm hs⟩

theorem key_between (hk : Apart c.keys) (hi : c.keys[i]? = some (f, cfg)) (L : KeyLaws cfg V FB FS ok gB gS on d)
    (hl : s.bufs.length = c.keys.length) {b0 : KeyBuf A S Q} (hb : s.bufs[i]? = some b0) {h : List R}
    (hst : Start cfg V FB FS ok gB gS on d h b0 w)
    {Tot : List R} (hV : V Tot) (hT : h ++ received c f as s.restart s.pre <+: Tot) (h1 : aggs c as s w = .ok (s1, w1)) :
    ∃ b, s1.bufs[i]? = some b ∧ (∃ h0, KInv cfg FB FS ok gB gS on d Tot h0 (h ++ received c f as s.restart s.pre) b w1) ∧
      KSnug cfg FB FS (h ++ received c f as s.restart s.pre) b w1 ∧ KLater cfg on w w1 := by
  obtain ⟨b, w3, g1, g2, g3⟩ := aggs_key hk h1 hl hi hb
  have hrows := opRows_keyOpsAll c f as s.restart s.pre
  have hok := keyOpsAll_ok c f as s.restart s.pre
  have p1 : h ++ opRows (keyOpsAll c f as s.restart s.pre) <+: Tot := by rw [hrows]; exact hT
  obtain ⟨h0, hi0⟩ := hst.1 Tot hV (List.IsPrefix.trans ⟨_, rfl⟩ p1)
  have hi1 := keyRun_inv L hV hok hi0 p1 g1
  obtain ⟨hn1, hn2⟩ := keyRun_later L hV hok hi0 hst.2 p1 g1
  rw [hrows] at hi1 hn1
  exact ⟨b, g2, ⟨h0, hi1.world g3⟩, hn1.world g3, KLater.agree (fun _ _ => rfl) g3 hn2⟩

/-- **C90** Reads between calls, with or without a final write: one after calls `as`, one after calls `bs` that follow. -/
theorem C90_calls (hk : Apart c.keys) (hi : c.keys[i]? = some (f, cfg)) (L : KeyLaws cfg V FB FS ok gB gS on d)
    (hl : s.bufs.length = c.keys.length) (hb : s.bufs[i]? = some { seg := s0, post := q0 })
    (h0 : ok [] s0) (hm : (w cfg.main).rgs = []) (hs : (w cfg.snapKey).rgs = [])
    (hV : V (received c f (as ++ bs) s.restart s.pre)) (h1 : aggs c as s w = .ok (s1, w1)) (h2 : aggs c bs s1 w1 = .ok (s2, w2)) :
    KLater cfg on w1 w2 := by
  have hrec := received_append c f as bs s.restart s.pre
  rw [aggs_iterAfter h1 hl] at hrec
  obtain ⟨b, hb1, ⟨h', hi1⟩, hn1, -⟩ := key_between hk hi L hl hb (Start.new L h0 hm hs) hV
    (by rw [hrec]; exact ⟨_, rfl⟩) h1
  obtain ⟨b2, w4, e1, -, e3⟩ := aggs_key hk h2 (aggs_length h1 hl) hi hb1
  exact KLater.agree (fun _ _ => rfl) e3 (keyRun_later L hV (keyOpsAll_ok c f bs s1.restart s1.pre) hi1 hn1
    (by rw [List.nil_append, opRows_keyOpsAll, hrec]; exact List.prefix_refl _) e1).2

/-- A key after calls `as`, then some of the operations of a call. -/
theorem key_moment (hk : Apart c.keys) (hi : c.keys[i]? = some (f, cfg)) (L : KeyLaws cfg V FB FS ok gB gS on d)
    (hl : s.bufs.length = c.keys.length) {b0 : KeyBuf A S Q} (hb : s.bufs[i]? = some b0) {h : List R}
    (hst : Start cfg V FB FS ok gB gS on d h b0 w) {Tot : List R} (hV : V Tot)
    (h1 : aggs c as s w = .ok (s1, w1)) {b : KeyBuf A S Q} (hb1 : s1.bufs[i]? = some b) {done rest : List (KOp R P)}
    (hops : OpsOk (done ++ rest)) (hT : h ++ received c f as s.restart s.pre ++ opRows (done ++ rest) <+: Tot)
    {st st' : KeyBuf A S Q} {w3 w4 : World K A (Md S P Q)} (hd : keyRun cfg c.truthy done b w1 = .ok (st, w3)) :
    KLater cfg on w1 w3 ∧ (keyRun cfg c.truthy (done ++ rest) b w1 = .ok (st', w4) → KLater cfg on w3 w4) ∧
      Seen cfg FB FS gB gS (h ++ received c f as s.restart s.pre ++ opRows done) w3 := by
  have o1 : OpsOk done := fun ch hc => hops ch (List.mem_append_left _ hc)
  have o2 : OpsOk rest := fun ch hc => hops ch (List.mem_append_right _ hc)
  rw [opRows_append, ← List.append_assoc] at hT
  have t1 : h ++ received c f as s.restart s.pre ++ opRows done <+: Tot := List.IsPrefix.trans ⟨_, rfl⟩ hT
  have step : ∀ {T : List R}, V T → h ++ received c f as s.restart s.pre ++ opRows done <+: T →
      (∃ h0, KInv cfg FB FS ok gB gS on d T h0 (h ++ received c f as s.restart s.pre ++ opRows done) st w3) ∧
      KSnug cfg FB FS (h ++ received c f as s.restart s.pre ++ opRows done) st w3 ∧ KLater cfg on w1 w3 := by
    intro T hVT hT'
    obtain ⟨b', hb', ⟨h0, hi1⟩, hn1, -⟩ := key_between hk hi L hl hb hst hVT (List.IsPrefix.trans ⟨_, rfl⟩ hT') h1
    obtain rfl : b = b' := by rw [hb1, Option.some.injEq] at hb'; exact hb'
    obtain ⟨e1, e2⟩ := keyRun_later L hVT o1 hi1 hn1 hT' hd
    exact ⟨⟨h0, keyRun_inv L hVT o1 hi1 hT' hd⟩, e1, e2⟩
  obtain ⟨⟨h0, i1⟩, i2, i3⟩ := step hV t1
  refine ⟨i3, fun hr => ?_, ?_⟩
  · rw [keyRun_append_ok hd] at hr
    exact (keyRun_later L hV o2 i1 i2 hT hr).2
  · have hV' : V (h ++ received c f as s.restart s.pre ++ opRows done) := by
      obtain ⟨t, rfl⟩ := t1
      exact L.valid _ t hV
    obtain ⟨⟨_, j1⟩, j2, -⟩ := step hV' (List.prefix_refl _)
    exact ⟨fun h => (j2.1 h).read (base := []) (j1.bins h), fun h f hf => (j2.2 h f hf).read (base := []) (j1.snaps h f hf)⟩

theorem during_core (hk : Apart c.keys) (hi : c.keys[i]? = some (f, cfg)) (L : KeyLaws cfg V FB FS ok gB gS on d)
    (hl : s.bufs.length = c.keys.length) {b0 : KeyBuf A S Q} (hb : s.bufs[i]? = some b0) {h : List R}
    (hst : Start cfg V FB FS ok gB gS on d h b0 w) {a : Call R}
    (hV : V (h ++ received c f (as ++ [a]) s.restart s.pre)) (h1 : aggs c as s w = .ok (s1, w1)) (hc : Crash c a s1 w1 wc) :
    KLater cfg on w w1 ∧ KLater cfg on w1 wc ∧ (aggs c [a] s1 w1 = .ok (s2, w2) → KLater cfg on wc w2) ∧
      (cfg.resType ≠ .snaps → ∃ q, q <+: h ++ received c f (as ++ [a]) s.restart s.pre ∧
        (readRows (wc cfg.main).rgs).dropLast <+: (FB q).dropLast.map gB ∧
        (readRows (wc cfg.main).rgs).length ≤ (FB q).length) ∧
      (cfg.resType ≠ .bins → ∀ fs, FS = some fs → ∃ q, q <+: h ++ received c f (as ++ [a]) s.restart s.pre ∧
        (readRows (wc cfg.snapKey).rgs).dropLast <+: (fs q).dropLast.map gS ∧
        (readRows (wc cfg.snapKey).rgs).length ≤ (fs q).length) := by
  have hrec := received_append c f as [a] s.restart s.pre
  rw [aggs_iterAfter h1 hl] at hrec
  obtain ⟨b, hb1, -, -, hlat⟩ := key_between hk hi L hl hb hst hV (by rw [hrec, ← List.append_assoc]; exact ⟨_, rfl⟩) h1
  refine ⟨hlat, ?_⟩
  obtain ⟨done, rest, st1, w3, hops, hrun, hw⟩ := hc i _ b hi hb1
  obtain ⟨fin, hfin⟩ : ∃ fin, keyOpsAll c f [a] s1.restart s1.pre = done ++ rest ++ fin := by
    rw [← hops]
    simp only [keyOpsAll, keyOps, List.append_nil]
    exact ⟨_, rfl⟩
  have hok := keyOpsAll_ok c f [a] s1.restart s1.pre
  have hall : h ++ received c f as s.restart s.pre ++ opRows (keyOpsAll c f [a] s1.restart s1.pre) <+:
      (h ++ received c f (as ++ [a]) s.restart s.pre) := by rw [opRows_keyOpsAll, hrec, List.append_assoc]; exact List.prefix_refl _
  have moment : ∀ {dn rs : List (KOp R P)} {st : KeyBuf A S Q} {w3 : World K A (Md S P Q)},
      keyOpsAll c f [a] s1.restart s1.pre = dn ++ rs → keyRun cfg c.truthy dn b w1 = .ok (st, w3) →
      KLater cfg on w1 w3 ∧ (aggs c [a] s1 w1 = .ok (s2, w2) → KLater cfg on w3 w2) ∧
        h ++ received c f as s.restart s.pre ++ opRows dn <+: h ++ received c f (as ++ [a]) s.restart s.pre ∧
        Seen cfg FB FS gB gS (h ++ received c f as s.restart s.pre ++ opRows dn) w3 := by
    intro dn rs st w3 he hd
    rw [he] at hok hall
    refine ⟨(key_moment (st' := st) (w4 := w3) hk hi L hl hb hst hV h1 hb1 hok hall hd).1, fun h2 => ?_, ?_,
      (key_moment (st' := st) (w4 := w3) hk hi L hl hb hst hV h1 hb1 hok hall hd).2.2⟩
    · obtain ⟨b2, w4, e1, -, e3⟩ := aggs_key hk h2 (aggs_length h1 hl) hi hb1
      simp only [he] at e1
      exact KLater.agree (fun _ _ => rfl) e3 ((key_moment hk hi L hl hb hst hV h1 hb1 hok hall hd).2.1 e1)
    · refine List.IsPrefix.trans ?_ hall
      rw [opRows_append, ← List.append_assoc]
      exact ⟨_, rfl⟩
  obtain ⟨m1, m2, m3, m4⟩ := moment (rs := rest ++ fin) (by rw [hfin, List.append_assoc]) hrun
  rcases hw with hag | ⟨op, rest', st2, w4, rfl, hstep, hmain, hother⟩
  · have ha : Agree cfg w3 wc := fun k hk => (hag k hk).symm
    refine ⟨KLater.agree (fun _ _ => rfl) ha m1, fun h2 => KLater.agree ha (fun _ _ => rfl) (m2 h2), fun hr => ⟨_, m3, ?_⟩,
      fun hr fs hf => ⟨_, m3, ?_⟩⟩
    · rw [hag _ (touches_main cfg)]; exact m4.1 hr
    · rw [hag _ (touches_snapKey cfg)]; exact m4.2 hr fs hf
  · have hrun' : keyRun cfg c.truthy (done ++ [op]) b w1 = .ok (st2, w4) := by
      rw [keyRun_append_ok hrun]
      simp only [keyRun, hstep]
    obtain ⟨n1, n2, n3, n4⟩ := moment (rs := rest' ++ fin) (by rw [hfin]; simp) hrun'
    by_cases hboth : cfg.resType = .both
    · have e : wc cfg.snapKey = w3 cfg.snapKey := by
        have e : cfg.snapKey = cfg.snap := by simp [KeyCfg.snapKey, hboth]
        rw [e]
        exact hother cfg.snap (Or.inr ⟨hboth, rfl⟩) (Ne.symm (L.distinct hboth))
      refine ⟨⟨fun hr => ?_, fun hr => ?_⟩, fun h2 => ⟨fun hr => ?_, fun hr => ?_⟩, fun hr => ⟨_, n3, ?_⟩,
        fun hr fs hf => ⟨_, m3, ?_⟩⟩
      · rw [hmain]; exact n1.1 hr
      · rw [e]; exact m1.2 hr
      · rw [hmain]; exact (n2 h2).1 hr
      · rw [e]; exact (m2 h2).2 hr
      · rw [hmain]; exact n4.1 hr
      · rw [e]; exact m4.2 hr fs hf
    · have e : cfg.snapKey = cfg.main := by simp [KeyCfg.snapKey, hboth]
      refine ⟨⟨fun hr => ?_, fun hr => ?_⟩, fun h2 => ⟨fun hr => ?_, fun hr => ?_⟩, fun hr => ⟨_, n3, ?_⟩,
        fun hr fs hf => ⟨_, n3, ?_⟩⟩
      · rw [hmain]; exact n1.1 hr
      · have := n1.2 hr
        rw [e] at this ⊢
        rw [hmain]; exact this
      · rw [hmain]; exact (n2 h2).1 hr
      · have := (n2 h2).2 hr
        rw [e] at this ⊢
        rw [hmain]; exact this
      · rw [hmain]; exact n4.1 hr
      · have := n4.2 hr fs hf
        rw [e] at this ⊢
        rw [hmain]; exact this

/-- **C90** A read at any time in a call, after calls `as`: it is later than the one before the call, and the one after the call
is later than it. All rows read but the last one are results, on the first rows received, that are not the last result. -/
theorem C90_during (hk : Apart c.keys) (hi : c.keys[i]? = some (f, cfg)) (L : KeyLaws cfg V FB FS ok gB gS on d)
    (hl : s.bufs.length = c.keys.length) (hb : s.bufs[i]? = some { seg := s0, post := q0 })
    (h0 : ok [] s0) (hm : (w cfg.main).rgs = []) (hs : (w cfg.snapKey).rgs = []) {a : Call R}
    (hV : V (received c f (as ++ [a]) s.restart s.pre)) (h1 : aggs c as s w = .ok (s1, w1)) (hc : Crash c a s1 w1 wc) :
    KLater cfg on w1 wc ∧ (aggs c [a] s1 w1 = .ok (s2, w2) → KLater cfg on wc w2) ∧
      (cfg.resType ≠ .snaps → ∃ q, q <+: received c f (as ++ [a]) s.restart s.pre ∧
        (readRows (wc cfg.main).rgs).dropLast <+: (FB q).dropLast.map gB ∧
        (readRows (wc cfg.main).rgs).length ≤ (FB q).length) ∧
      (cfg.resType ≠ .bins → ∀ fs, FS = some fs → ∃ q, q <+: received c f (as ++ [a]) s.restart s.pre ∧
        (readRows (wc cfg.snapKey).rgs).dropLast <+: (fs q).dropLast.map gS ∧
        (readRows (wc cfg.snapKey).rgs).length ≤ (fs q).length) := by
  have := (during_core (s2 := s2) (w2 := w2) hk hi L hl hb (Start.new L h0 hm hs) hV h1 hc).2
  simpa only [List.nil_append] using this

theorem KLater.same {k : KeyCfg K R A S Q} (hs : SameTarget k cfg) (h : KLater cfg on w w1) : KLater k on w w1 := by
  have hsk : k.snapKey = cfg.snapKey := by simp only [KeyCfg.snapKey, hs.main, hs.snap, hs.resType]
  simp only [KLater, hs.resType, hs.table, hs.main, hsk]
  exact h

/-- A key of a new stream, between sessions. -/
theorem Start.settled {k : KeyCfg K R A S Q} (hi : c.keys[i]? = some (f, cfg)) (hs : SameTarget k cfg)
    (L : KeyLaws cfg V FB FS ok gB gS on d) {p0 : P} (h0 : ok [] s0) (hin : initBuffers s0 p0 q0 c w = .ok s) {h : List R}
    (hset : Settled k FB FS ok gB gS on d h w) :
    ∃ b, s.bufs[i]? = some b ∧ Start cfg V FB FS ok gB gS on d h b w := by
  obtain ⟨-, hbuf⟩ := initBuffers_key hin
  obtain ⟨b, hb, hb0, hb1⟩ := hbuf i _ hi
  simp only [← hs.main] at hb0 hb1
  refine ⟨b, hb, ?_⟩
  have hsk : k.snapKey = cfg.snapKey := by simp only [KeyCfg.snapKey, hs.main, hs.snap, hs.resType]
  rcases hset with ⟨b1, _, hr1, hi1, hin1, m, hm, hseg⟩ | ⟨rfl, hin0, hm, hsn⟩
  · obtain ⟨m', hm', rfl⟩ := hb1 hin1
    rw [hm, Option.some.injEq] at hm'
    subst hm'
    have hi2 := hi1.resettle hs hr1 (b' := { seg := m.seg, post := m.post }) rfl hseg
    refine ⟨fun Tot hV hT => ⟨h, hi2.advance L hV hT rfl⟩, fun hr => ?_, fun hr f hf => ?_⟩
    · have := (hi2.bins hr).exact_none
      simp only [Snug]
      rw [this, List.length_map]
    · have := (hi2.snaps hr f hf).exact_none
      simp only [Snug]
      rw [this, List.length_map]
  · rw [hb0 hin0]
    exact Start.new L h0 (by rw [← hs.main]; exact hm) (by rw [← hsk]; exact hsn)

/-- **C90** Reads between sessions, each one with its own settings: one after sessions in which `h` was received, one after other
sessions. -/
theorem C90_sessions {k : KeyCfg K R A S Q} {Lw : KeyCfg K R A S Q → Prop}
    (hL : ∀ cfg, Lw cfg → KeyLaws cfg V FB FS ok gB gS on d) {p0 : P} (h0 : ok [] s0) (hin : (w k.main).inStore = false)
    (hm : (w k.main).rgs = []) (hs : (w k.snapKey).rgs = []) {rows rows' : List R}
    (hr : SessionRuns s0 p0 q0 k Lw w rows w1) (hr' : SessionRuns s0 p0 q0 k Lw w1 rows' w2) (hV : V (rows ++ rows')) :
    KLater k on w1 w2 := by
  cases hr' with
  | nil => exact .refl _
  | session apart key same law start final calls index truthy next =>
    have L := hL _ law
    rw [← List.append_assoc] at hV
    have h1 := Settled.sessions hL h0 hr (h := []) (by rw [List.nil_append]; exact L.valid _ _ (L.valid _ _ hV))
      (Or.inr ⟨rfl, hin, hm, hs⟩)
    rw [List.nil_append] at h1
    clear hr hin hm hs
    -- sessions, from any state between sessions
    have go : ∀ {w w' : World K A (Md S P Q)} {h r : List R}, SessionRuns s0 p0 q0 k Lw w r w' → V (h ++ r) →
        Settled k FB FS ok gB gS on d h w → KLater k on w w' := by
      intro w w' h r hr hV hset
      induction hr generalizing h with
      | nil => exact .refl _
      | session apart key same law start final calls index truthy next ih =>
        have L := hL _ law
        rw [← List.append_assoc] at hV
        obtain ⟨b, hb, hst⟩ := Start.settled key same L h0 start hset
        obtain ⟨-, -, -, -, e⟩ := key_between apart key L (initBuffers_key start).1 hb hst (L.valid _ _ hV)
          (List.prefix_refl _) calls
        exact (e.same same).trans (ih hV (hset.session apart key same L h0 start final calls index truthy (L.valid _ _ hV)))
    exact go (.session apart key same law start final calls index truthy next) (by rw [← List.append_assoc]; exact hV) h1

/-- **C90** A read at any time in a call, after calls `as` of a session that follows other sessions, each one with its own
settings. -/
theorem C90_session_during {k : KeyCfg K R A S Q} {Lw : KeyCfg K R A S Q → Prop}
    (hL : ∀ cfg, Lw cfg → KeyLaws cfg V FB FS ok gB gS on d) {p0 : P} (h0 : ok [] s0) {w0 : World K A (Md S P Q)}
    (hin : (w0 k.main).inStore = false) (hm : (w0 k.main).rgs = []) (hs : (w0 k.snapKey).rgs = []) {rows : List R}
    (hr : SessionRuns s0 p0 q0 k Lw w0 rows w) (hk : Apart c.keys) (hi : c.keys[i]? = some (f, cfg)) (same : SameTarget k cfg)
    (law : Lw cfg) (start : initBuffers s0 p0 q0 c w = .ok s) {a : Call R}
    (hV : V (rows ++ received c f (as ++ [a]) s.restart s.pre)) (h1 : aggs c as s w = .ok (s1, w1)) (hc : Crash c a s1 w1 wc) :
    KLater cfg on w w1 ∧ KLater cfg on w1 wc ∧ (aggs c [a] s1 w1 = .ok (s2, w2) → KLater cfg on wc w2) ∧
      (cfg.resType ≠ .snaps → ∃ q, q <+: rows ++ received c f (as ++ [a]) s.restart s.pre ∧
        (readRows (wc cfg.main).rgs).dropLast <+: (FB q).dropLast.map gB ∧
        (readRows (wc cfg.main).rgs).length ≤ (FB q).length) ∧
      (cfg.resType ≠ .bins → ∀ fs, FS = some fs → ∃ q, q <+: rows ++ received c f (as ++ [a]) s.restart s.pre ∧
        (readRows (wc cfg.snapKey).rgs).dropLast <+: (fs q).dropLast.map gS ∧
        (readRows (wc cfg.snapKey).rgs).length ≤ (fs q).length) := by
  have L := hL _ law
  have hset := Settled.sessions hL h0 hr (h := []) (by rw [List.nil_append]; exact L.valid _ _ hV) (Or.inr ⟨rfl, hin, hm, hs⟩)
  rw [List.nil_append] at hset
  obtain ⟨b, hb, hst⟩ := Start.settled hi same L h0 start hset
  exact during_core hk hi L (initBuffers_key start).1 hb hst hV h1 hc

/-- What is stored for results `G`, when those on rows `h` are recorded. -/
theorem TrackOk.settled {p : Params} {G : List R → List (Row A)} {g : Row A → Row A} {T : Table (Row A)} (hcol : on ∈ T.cols)
    {h Tot : List R} {base : List (Row A)} {rgs : List (RG (Row A))} (ht : TrackOk p G g T on d Tot base h [] none rgs) :
    (G h).dropLast.map g <+: readRows rgs ∧ (readRows rgs).map (T.get on) <+: ((G Tot).map g).map (T.get on) := by
  obtain ⟨-, pre, -, ⟨-, h2⟩, h3, -⟩ := ht
  refine ⟨?_, labels_of_keys hcol h3.along.keys⟩
  rcases h2 with rfl | ⟨rfl, -⟩
  · exact ((List.dropLast_prefix _).map g).trans h3.pre
  · exact h3.pre

/-- **C90** Sessions, some of them stopped at any point: whatever happens after a final write, all results that it has stored but
the last one are still read, at the same places; the values of the ordering column are those of the results on all rows that any session
has received, up to some place. -/
theorem C90_life {k : KeyCfg K R A S Q} {Lw : KeyCfg K R A S Q → Prop}
    (hL : ∀ cfg, Lw cfg → KeyLaws cfg V FB FS ok gB gS on d) (hk : Lw k) {p0 : P} (h0 : ok [] s0)
    {rows front : List R} {last : Option (Int × P)} {sure : Bool} (hV : V front)
    (h : Life s0 p0 q0 k Lw w rows front last sure) :
    (k.resType ≠ .snaps → (FB rows).dropLast.map gB <+: readRows (w k.main).rgs ∧
      (readRows (w k.main).rgs).map (k.table.get on) <+: ((FB front).map gB).map (k.table.get on)) ∧
    (k.resType ≠ .bins → ∀ fs, FS = some fs → (fs rows).dropLast.map gS <+: readRows (w k.snapKey).rgs ∧
      (readRows (w k.snapKey).rgs).map (k.table.get on) <+: ((fs front).map gS).map (k.table.get on)) := by
  have L := hL _ hk
  have hcol := L.wmain.col
  have hrf := h.rows_front
  rcases h.inv hL hk h0 hV with ⟨b, n, p, hrest, hi, hi', -⟩ | ⟨rfl, -, -, -, h1, h2⟩
  · obtain ⟨_, hi⟩ : ∃ h0, KInv k FB FS ok gB gS on d front h0 rows b w := by
      cases sure with
      | true => exact ⟨_, (hi rfl).1⟩
      | false =>
        obtain ⟨h0, hi⟩ := hi' rfl
        exact ⟨_, hi.advance L hV hrf hrest⟩
    obtain ⟨-, -, -, -, h5, h6, -⟩ := hi
    rw [KeyBuf.Rest] at hrest
    rw [hrest] at h5 h6
    exact ⟨fun hr => (h5 hr).settled hcol, fun hr f hf => (h6 hr f hf).settled hcol⟩
  · refine ⟨fun hr => ?_, fun hr f hf => ?_⟩
    · rw [h1, (L.bins hr).nil]; simp [readRows]
    · obtain ⟨f', hf', law⟩ := L.snaps hr
      rw [hf, Option.some.injEq] at hf'
      subst hf'
      rw [h2, law.nil]; simp [readRows]

end stream
end

section
variable {K R D V S P Q F : Type} [DecidableEq K] [DecidableEq F] [DecidableEq D]
variable (O : D → Ops V) (get : R → Nat → V) {dtype : Nat → Option D} {agg : List (Nat × Nat × Option Fn)}
  {gc : List (D × Group)} (z : List (List V) → Bool)
variable {c : Config K R (List (List V)) S P Q F} {i : Nat} {f : F} {cfg : KeyCfg K R (List (List V)) S Q}
  {gB gS : Row (List (List V)) → Row (List (List V))} {on : Col} {d : DupOn} {s s1 s2 : State (List (List V)) S P Q}
  {w w1 w2 wc : World K (List (List V)) (Md S P Q)} {q0 : Q} {as : List (Call R)} {a : Call R}

/-- **C90** Bins from a `TimeGrouper`, read at any time in a call that follows other ones: all rows read but the last one are those
that `cumsegagg` returns, at once, on all rows received at the end of the call. -/
theorem C90_time (hk : Apart c.keys) (hi : c.keys[i]? = some (f, cfg))
    (hagg : setupCumsegagg agg dtype = .ok gc) (gr : Grouper) (hgr : Fixed gr) (pos : R → Int) (ordered : Option (R → Int))
    {emb : Buf ScaleBuf (List (List V)) → S}
    {e0 : Bool} (hcall : Embeds emb (inPlace (frameCall O get gc z (grouperFn gr pos) ordered none e0)) cfg.call)
    (hres : cfg.resType = .bins) (hpost : PostRow cfg gB gS) (hw : WriteOk cfg.table cfg.params on d)
    (hT : ByLabel cfg.table on d gB) (hl : s.bufs.length = c.keys.length)
    (hb : s.bufs[i]? = some { seg := emb (Buf.init {}), post := q0 }) (hm : (w cfg.main).rgs = [])
    (hne : received c f (as ++ [a]) s.restart s.pre ≠ []) (hasc : AscOn pos (received c f (as ++ [a]) s.restart s.pre))
    (ho : ∀ o, ordered = some o → AscOn o (received c f (as ++ [a]) s.restart s.pre))
    (h1 : aggs c as s w = .ok (s1, w1)) (hc : Crash c a s1 w1 wc) :
    Later (cfg.table.get on) (readRows (w1 cfg.main).rgs) (readRows (wc cfg.main).rgs) ∧
    (aggs c [a] s1 w1 = .ok (s2, w2) →
      Later (cfg.table.get on) (readRows (wc cfg.main).rgs) (readRows (w2 cfg.main).rgs)) ∧
    ∃ one, frameCall O get gc z (grouperFn gr pos) ordered none false (received c f (as ++ [a]) s.restart s.pre) none =
        .ok (some one, none) ∧
      (readRows (wc cfg.main).rgs).dropLast <+: one.bins.map gB ∧ (readRows (wc cfg.main).rgs).length ≤ one.bins.length := by
  have hcf := cfgOk_of hagg
  have hL := grouper_lawful gr gr.origin0 hgr.anchored pos
  have hst := gridSpec_strict (gr.closed == .right) gr.labelRight gr.origin0 gr.freq pos
    (received c f (as ++ [a]) s.restart s.pre) hgr.anchored.1
  obtain ⟨one, e1, e2, _⟩ := frame_once_bins O get hcf z hL ordered hne hasc ho (strictLabels_ok hst)
  have hKL := keyLaws_bins O get hcf z hL (ordered := ordered) hcall hres hpost hw hT
  have hms : (w cfg.snapKey).rgs = [] := by simpa [KeyCfg.snapKey, hres] using hm
  have hr : cfg.resType ≠ .snaps := by simp [hres]
  have hv := binsValid_of hL hasc ho hst
  obtain ⟨l1, l2, l3, -⟩ := C90_during (s2 := s2) (w2 := w2) hk hi hKL hl hb ⟨_, rfl, frameOk_init O get trivial hL⟩ hm hms hv h1 hc
  obtain ⟨q, ⟨t, ht⟩, p1, p2⟩ := l3 hr
  refine ⟨l1.1 hr, fun h => (l2 h).1 hr, one, e1, ?_, ?_⟩
  · rw [e2]
    refine p1.trans (List.IsPrefix.map gB ?_)
    rw [← ht] at hasc ⊢
    unfold binRes
    rw [← List.map_dropLast]
    exact (hL.dropLast_prefix q t hasc).map _
  · rw [e2]
    refine p2.trans ?_
    rw [← ht] at hasc ⊢
    have := (hL.labels_prefix q t hasc).length_le
    simpa [binRes] using this

/-- **C90** Same, in a call of a session that follows other sessions, with other settings, on the same store. -/
theorem C90_time_sessions (hagg : setupCumsegagg agg dtype = .ok gc) (gr : Grouper) (hgr : Fixed gr) (pos : R → Int)
    (ordered : Option (R → Int)) {emb : Buf ScaleBuf (List (List V)) → S} {k : KeyCfg K R (List (List V)) S Q}
    {L : KeyCfg K R (List (List V)) S Q → Prop}
    (hL : ∀ cfg, L cfg → (∃ e0, Embeds emb (inPlace (frameCall O get gc z (grouperFn gr pos) ordered none e0)) cfg.call) ∧
      cfg.resType = .bins ∧ PostRow cfg gB gS ∧ WriteOk cfg.table cfg.params on d ∧ ByLabel cfg.table on d gB)
    {p0 : P} {w0 : World K (List (List V)) (Md S P Q)} (hin : (w0 k.main).inStore = false) (hm : (w0 k.main).rgs = [])
    {rows : List R} (hr : SessionRuns (emb (Buf.init {})) p0 q0 k L w0 rows w) (hk : Apart c.keys)
    (hi : c.keys[i]? = some (f, cfg)) (same : SameTarget k cfg) (law : L cfg)
    (start : initBuffers (emb (Buf.init {})) p0 q0 c w = .ok s)
    (hne : rows ++ received c f (as ++ [a]) s.restart s.pre ≠ [])
    (hasc : AscOn pos (rows ++ received c f (as ++ [a]) s.restart s.pre))
    (ho : ∀ o, ordered = some o → AscOn o (rows ++ received c f (as ++ [a]) s.restart s.pre))
    (h1 : aggs c as s w = .ok (s1, w1)) (hc : Crash c a s1 w1 wc) :
    Later (cfg.table.get on) (readRows (w cfg.main).rgs) (readRows (w1 cfg.main).rgs) ∧
    Later (cfg.table.get on) (readRows (w1 cfg.main).rgs) (readRows (wc cfg.main).rgs) ∧
    (aggs c [a] s1 w1 = .ok (s2, w2) →
      Later (cfg.table.get on) (readRows (wc cfg.main).rgs) (readRows (w2 cfg.main).rgs)) ∧
    ∃ one, frameCall O get gc z (grouperFn gr pos) ordered none false (rows ++ received c f (as ++ [a]) s.restart s.pre) none =
        .ok (some one, none) ∧
      (readRows (wc cfg.main).rgs).dropLast <+: one.bins.map gB ∧ (readRows (wc cfg.main).rgs).length ≤ one.bins.length := by
  have hcf := cfgOk_of hagg
  have hLs := grouper_lawful gr gr.origin0 hgr.anchored pos
  have hst := gridSpec_strict (gr.closed == .right) gr.labelRight gr.origin0 gr.freq pos
    (rows ++ received c f (as ++ [a]) s.restart s.pre) hgr.anchored.1
  obtain ⟨one, e1, e2, _⟩ := frame_once_bins O get hcf z hLs ordered hne hasc ho (strictLabels_ok hst)
  have hres := (hL cfg law).2.1
  have hms : (w0 k.snapKey).rgs = [] := by simpa [KeyCfg.snapKey, same.resType, hres] using hm
  have hKL := fun cfg (hcfg : L cfg) => keyLaws_bins O get hcf z hLs (ordered := ordered) (key := cfg) (hL cfg hcfg).1.choose_spec
    (hL cfg hcfg).2.1 (hL cfg hcfg).2.2.1 (hL cfg hcfg).2.2.2.1 (hL cfg hcfg).2.2.2.2
  have hr' : cfg.resType ≠ .snaps := by simp [hres]
  obtain ⟨l0, l1, l2, l3, -⟩ := C90_session_during (s2 := s2) (w2 := w2) hKL ⟨_, rfl, frameOk_init O get trivial hLs⟩ hin hm hms hr hk
    hi same law start (binsValid_of hLs hasc ho hst) h1 hc
  obtain ⟨q, ⟨t, ht⟩, p1, p2⟩ := l3 hr'
  refine ⟨l0.1 hr', l1.1 hr', fun h => (l2 h).1 hr', one, e1, ?_, ?_⟩
  · rw [e2]
    refine p1.trans (List.IsPrefix.map gB ?_)
    rw [← ht] at hasc ⊢
    unfold binRes
    rw [← List.map_dropLast]
    exact (hLs.dropLast_prefix q t hasc).map _
  · rw [e2]
    refine p2.trans ?_
    rw [← ht] at hasc ⊢
    have := (hLs.labels_prefix q t hasc).length_le
    simpa [binRes] using this

/-- **C90** Bins from a `TimeGrouper`, sessions some of which are stopped: all bins but the last one that `cumsegagg` returns on the
rows of recorded results are read, at their places; labels read are those that it returns on all rows that any session has received,
up to some place. -/
theorem C90_time_life (hagg : setupCumsegagg agg dtype = .ok gc) (gr : Grouper) (hgr : Fixed gr) (pos : R → Int)
    (ordered : Option (R → Int)) {emb : Buf ScaleBuf (List (List V)) → S} {k : KeyCfg K R (List (List V)) S Q}
    {L : KeyCfg K R (List (List V)) S Q → Prop}
    (hJ : ∀ cfg, L cfg → SameBins O get z gc (grouperFn gr pos) ordered emb gB gS on d cfg) (hk : L k) {rows front : List R}
    (hne : rows ≠ []) (hasc : AscOn pos front) (ho : ∀ o, ordered = some o → AscOn o front) {p0 : P} {last : Option (Int × P)}
    {sure : Bool} (h : Life (emb (Buf.init {})) p0 q0 k L w rows front last sure) :
    ∃ one all, frameCall O get gc z (grouperFn gr pos) ordered none false rows none = .ok (some one, none) ∧
      frameCall O get gc z (grouperFn gr pos) ordered none false front none = .ok (some all, none) ∧
      one.bins.dropLast.map gB <+: readRows (w k.main).rgs ∧
      (readRows (w k.main).rgs).map (k.table.get on) <+: (all.bins.map gB).map (k.table.get on) := by
  have hcf := cfgOk_of hagg
  have hLs := grouper_lawful gr gr.origin0 hgr.anchored pos
  have hst := gridSpec_strict (gr.closed == .right) gr.labelRight gr.origin0 gr.freq pos front hgr.anchored.1
  have hst' := gridSpec_strict (gr.closed == .right) gr.labelRight gr.origin0 gr.freq pos rows hgr.anchored.1
  obtain ⟨t, ht⟩ := h.rows_front
  have hsub : rows.Sublist front := by rw [← ht]; exact List.sublist_append_left _ _
  obtain ⟨one, e1, e2, _⟩ := frame_once_bins O get hcf z hLs ordered hne (hasc.sublist hsub) (fun o h => (ho o h).sublist hsub)
    (strictLabels_ok hst')
  obtain ⟨all, f1, f2, _⟩ := frame_once_bins O get hcf z hLs ordered (by rintro rfl; simp_all) hasc ho (strictLabels_ok hst)
  have := C90_life (fun cfg hcfg => let hcfg := hJ cfg hcfg; keyLaws_bins O get hcf z hLs (ordered := ordered)
    hcfg.call.choose_spec hcfg.bins hcfg.post hcfg.write hcfg.label) hk ⟨_, rfl, frameOk_init O get trivial hLs⟩
    (binsValid_of hLs hasc ho hst) h
  have := this.1 (by simp [(hJ k hk).bins])
  rw [← e2, ← f2] at this
  exact ⟨one, all, e1, f1, this⟩

/-- **C90** Same with `by_x_rows`, if the labels of the results on all rows, at once, are in strict order. -/
theorem C90_rows (hk : Apart c.keys) (hi : c.keys[i]? = some (f, cfg))
    (hagg : setupCumsegagg agg dtype = .ok gc) (n : Nat) (hn0 : 0 < n) (cl : Closed) (pos : R → Int)
    (ordered : Option (R → Int)) {emb : Buf (Option RowsBuf) (List (List V)) → S}
    {e0 : Bool} (hcall : Embeds emb (inPlace (frameCall O get gc z (rowsFn n cl pos) ordered none e0)) cfg.call)
    (hres : cfg.resType = .bins) (hpost : PostRow cfg gB gS) (hw : WriteOk cfg.table cfg.params on d)
    (hT : ByLabel cfg.table on d gB) (hl : s.bufs.length = c.keys.length)
    (hb : s.bufs[i]? = some { seg := emb (Buf.init none), post := q0 }) (hm : (w cfg.main).rgs = [])
    (hne : received c f (as ++ [a]) s.restart s.pre ≠ [])
    (ho : ∀ o, ordered = some o → AscOn o (received c f (as ++ [a]) s.restart s.pre))
    (h1 : aggs c as s w = .ok (s1, w1)) (hc : Crash c a s1 w1 wc) :
    ∃ one, frameCall O get gc z (rowsFn n cl pos) ordered none false (received c f (as ++ [a]) s.restart s.pre) none =
        .ok (some one, none) ∧ ((one.bins.map Prod.fst).Pairwise (· < ·) →
      Later (cfg.table.get on) (readRows (w1 cfg.main).rgs) (readRows (wc cfg.main).rgs) ∧
      (aggs c [a] s1 w1 = .ok (s2, w2) →
        Later (cfg.table.get on) (readRows (wc cfg.main).rgs) (readRows (w2 cfg.main).rgs)) ∧
      (readRows (wc cfg.main).rgs).dropLast <+: one.bins.map gB ∧ (readRows (wc cfg.main).rgs).length ≤ one.bins.length) := by
  have hcf := cfgOk_of hagg
  have hL := rows_lawful n hn0 cl pos (fun _ => 0)
  have hasc : AscOn (fun _ => 0) (received c f (as ++ [a]) s.restart s.pre) := by
    unfold AscOn
    exact List.Pairwise.imp (R := fun _ _ => True) (by simp) (List.pairwise_of_forall (by simp))
  obtain ⟨one, e1, e2, _⟩ := frame_once_bins O get hcf z hL ordered hne hasc ho (xBins_labels _ n hn0 pos _)
  have hKL := keyLaws_bins O get hcf z hL (ordered := ordered) hcall hres hpost hw hT
  have hms : (w cfg.snapKey).rgs = [] := by simpa [KeyCfg.snapKey, hres] using hm
  have hr : cfg.resType ≠ .snaps := by simp [hres]
  refine ⟨one, e1, fun hst => ?_⟩
  rw [e2, binRes_fst] at hst
  have hv := binsValid_of hL hasc ho hst
  obtain ⟨l1, l2, l3, -⟩ := C90_during (s2 := s2) (w2 := w2) hk hi hKL hl hb ⟨_, rfl, frameOk_init O get trivial hL⟩ hm hms hv h1 hc
  obtain ⟨q, ⟨t, ht⟩, p1, p2⟩ := l3 hr
  refine ⟨l1.1 hr, fun h => (l2 h).1 hr, ?_, ?_⟩
  · rw [e2]
    refine p1.trans (List.IsPrefix.map gB ?_)
    rw [← ht] at hasc ⊢
    unfold binRes
    rw [← List.map_dropLast]
    exact (hL.dropLast_prefix q t hasc).map _
  · rw [e2]
    refine p2.trans ?_
    rw [← ht] at hasc ⊢
    have := (hL.labels_prefix q t hasc).length_le
    simpa [binRes] using this

/-- **C90** Same for snapshots from a `TimeGrouper`, stored alone or with bins. -/
theorem C90_snaps (hk : Apart c.keys) (hi : c.keys[i]? = some (f, cfg))
    (hagg : setupCumsegagg agg dtype = .ok gc) (gr : Grouper) (hgr : Fixed gr) (gs : Grouper) (hgs : Fixed gs) (pos : R → Int)
    {emb : Buf ScaleBuf (List (List V)) → S} {e0 : Bool}
    (hcall : Embeds emb (inPlace (frameCall O get gc z (grouperFn gr pos) (some pos) (some (.grouper gs)) e0)) cfg.call)
    (hres : cfg.resType ≠ .bins) (hd : cfg.resType = .both → cfg.main ≠ cfg.snap) (hpost : PostRow cfg gB gS)
    (hw : WriteOk cfg.table cfg.params on d) (hws : cfg.resType = .both → WriteOk cfg.table cfg.snapParams on d)
    (hT : cfg.resType = .both → ByLabel cfg.table on d gB) (hTs : ByLabel cfg.table on d gS)
    (hl : s.bufs.length = c.keys.length)
    (hb : s.bufs[i]? = some { seg := emb (Buf.init {}), post := q0 }) (hm : (w cfg.main).rgs = [])
    (hms : cfg.resType = .both → (w cfg.snap).rgs = [])
    (hne : received c f (as ++ [a]) s.restart s.pre ≠ []) (hasc : AscOn pos (received c f (as ++ [a]) s.restart s.pre))
    (h1 : aggs c as s w = .ok (s1, w1)) (hc : Crash c a s1 w1 wc) :
    KLater cfg on w1 wc ∧ (aggs c [a] s1 w1 = .ok (s2, w2) → KLater cfg on wc w2) ∧
    ∃ one sns, frameCall O get gc z (grouperFn gr pos) (some pos) (some (.grouper gs)) false
        (received c f (as ++ [a]) s.restart s.pre) none = .ok (some one, none) ∧ one.snaps = some sns ∧
      (readRows (wc cfg.snapKey).rgs).dropLast <+: sns.map gS ∧ (readRows (wc cfg.snapKey).rgs).length ≤ sns.length ∧
      (cfg.resType = .both → (readRows (wc cfg.main).rgs).dropLast <+: one.bins.map gB) := by
  have hcf := cfgOk_of hagg
  have hL := grouper_lawful gr gr.origin0 hgr.anchored pos
  have hSL := grouper_snaps gs gs.origin0 hgs.anchored gr.closed pos
  have hst : ∀ q, StrictLabels (gridSpec (gr.closed == .right) gr.labelRight gr.origin0 gr.freq pos q) := fun q =>
    gridSpec_strict _ _ _ _ _ _ hgr.1
  obtain ⟨one, sns, e1, e2, e3, e4⟩ := frame_once_snaps O get hcf z hL hSL hne hasc (strictLabels_ok (hst _))
    (gridSpec_sep _ _ _ _ _ _ hgr.1)
  have hKL := keyLaws_snaps O get hcf z hL hSL (gridPts_prefix gs hgs gr.closed pos) (gridPts_ne gs hgs gr.closed pos)
    hcall hres hd hpost hw hws hT hTs
  have hms' : (w cfg.snapKey).rgs = [] := by
    unfold KeyCfg.snapKey
    split
    · rename_i h; exact hms h
    · exact hm
  obtain ⟨l1, l2, l3, l4⟩ := C90_during (s2 := s2) (w2 := w2) hk hi hKL hl hb ⟨_, rfl, frameOk_init O get hSL.init hL⟩ hm hms'
    ⟨hasc, fun q _ => ⟨strictLabels_ok (hst q), gridSpec_sep _ _ _ _ _ _ hgr.1, fun _ => hst q, by
      rw [gridPts_fst]; exact gridSpec_strict _ _ _ _ _ _ hgs.1⟩⟩ h1 hc
  obtain ⟨q, ⟨t, ht⟩, p1, p2⟩ := l4 hres _ rfl
  refine ⟨l1, l2, one, sns, e1, e3, ?_, ?_, fun hr => ?_⟩
  · rw [e4]
    refine p1.trans (List.IsPrefix.map gS ?_)
    rw [← ht] at hasc ⊢
    exact snapRes_dropLast O get hcf hL hSL (nb := decide (cfg.resType = .both)) q t
      ⟨hasc, fun q _ => ⟨strictLabels_ok (hst q), gridSpec_sep _ _ _ _ _ _ hgr.1, fun _ => hst q, by
        rw [gridPts_fst]; exact gridSpec_strict _ _ _ _ _ _ hgs.1⟩⟩
  · rw [e4]
    refine p2.trans ?_
    rw [← ht] at hasc ⊢
    have := (gridPts_prefix gs hgs gr.closed pos q t hasc).length_le
    simpa [snapRes] using this
  · obtain ⟨q, ⟨t, ht⟩, p1, -⟩ := l3 (by simp [hr])
    rw [e2]
    refine p1.trans (List.IsPrefix.map gB ?_)
    rw [← ht] at hasc ⊢
    unfold binRes
    rw [← List.map_dropLast]
    exact (hL.dropLast_prefix q t hasc).map _

end

/-! ### Concrete runs -/

/-- Rows of a second call, in four frames. -/
def exReadSeed : List (List (Int × Int)) := exSeed2 ++ [[(52, 256)], [(63, 512)]]

/-- A read in the second call, once its first three frames are processed. -/
theorem exRead : ∃ (s1 s2 : State (List (List Int)) ExBuf Unit Unit) (w1 wc w2 : ExWorld ExBuf),
    aggs (exConf [(0, exKey 0 0)]) [⟨exSeed1, false, false, true⟩] (exState 1 (Buf.init {})) exWorld = .ok (s1, w1) ∧
    Crash (exConf [(0, exKey 0 0)]) ⟨exReadSeed, false, false, true⟩ s1 w1 wc ∧
    aggs (exConf [(0, exKey 0 0)]) [⟨exReadSeed, false, false, true⟩] s1 w1 = .ok (s2, w2) ∧
    readRows (w1 0).rgs = [(0, some [[1, 1]]), (10, some [[6, 4]]), (20, some [[8, 8]])] ∧
    readRows (wc 0).rgs = [(0, some [[1, 1]]), (10, some [[6, 4]]), (20, some [[24, 16]]), (30, some [[96, 64]])] ∧
    readRows (w2 0).rgs = [(0, some [[1, 1]]), (10, some [[6, 4]]), (20, some [[24, 16]]), (30, some [[96, 64]]),
      (40, some [[128, 128]]), (50, some [[256, 256]]), (60, some [[512, 512]])] := by
  obtain ⟨s1, w1, s2, w2, b, st, wc, h1, h2, h3, h4, h5, h6, h7, h8⟩ : ∃ (s1 : State (List (List Int)) ExBuf Unit Unit)
      (w1 : ExWorld ExBuf) (s2 : State (List (List Int)) ExBuf Unit Unit) (w2 : ExWorld ExBuf)
      (b st : KeyBuf (List (List Int)) ExBuf Unit) (wc : ExWorld ExBuf),
      aggs (exConf [(0, exKey 0 0)]) [⟨exSeed1, false, false, true⟩] (exState 1 (Buf.init {})) exWorld = .ok (s1, w1) ∧
      aggs (exConf [(0, exKey 0 0)]) [⟨exReadSeed, false, false, true⟩] s1 w1 = .ok (s2, w2) ∧
      s1.bufs = [b] ∧
      keyRun (exKey 0 0) (fun i => decide (i ≠ 0)) [.chunk [(26, 16), (38, 32)], .chunk [(39, 64), (41, 128)], .chunk [(52, 256)]]
        b w1 = .ok (st, wc) ∧
      readRows (w1 0).rgs = [(0, some [[1, 1]]), (10, some [[6, 4]]), (20, some [[8, 8]])] ∧
      readRows (wc 0).rgs = [(0, some [[1, 1]]), (10, some [[6, 4]]), (20, some [[24, 16]]), (30, some [[96, 64]])] ∧
      readRows (w2 0).rgs = [(0, some [[1, 1]]), (10, some [[6, 4]]), (20, some [[24, 16]]), (30, some [[96, 64]]),
        (40, some [[128, 128]]), (50, some [[256, 256]]), (60, some [[512, 512]])] ∧ s1.restart = some 25 :=
    ⟨_, _, _, _, _, _, _, rfl, rfl, rfl, rfl, rfl, rfl, rfl, rfl⟩
  refine ⟨s1, s2, w1, wc, w2, h1, ?_, h2, h5, h6, h7⟩
  intro i k b' hi hb
  cases i with
  | zero =>
    cases hi
    rw [h3] at hb
    cases hb
    refine ⟨_, [.chunk [(63, 512)]], st, wc, ?_, h4, .inl fun _ _ => rfl⟩
    rw [h8]
    rfl
  | succ i => simp [exConf] at hi

-- `C90_time`: what is read before, during and after the second call
example : ∃ (w1 wc w2 : ExWorld ExBuf),
    readRows (wc 0).rgs = [(0, some [[1, 1]]), (10, some [[6, 4]]), (20, some [[24, 16]]), (30, some [[96, 64]])] ∧
    Later Prod.fst (readRows (w1 0).rgs) (readRows (wc 0).rgs) ∧ Later Prod.fst (readRows (wc 0).rgs) (readRows (w2 0).rgs) ∧
    ∃ one, frameCall (fun _ => intOps) ex_get ex_cfg exZ (grouperFn { freq := 10 } Prod.fst) none none false
        (exSeed1 ++ exReadSeed).flatten none = .ok (some one, none) ∧
      (readRows (wc 0).rgs).dropLast <+: one.bins ∧ (readRows (wc 0).rgs).length ≤ one.bins.length := by
  obtain ⟨s1, s2, w1, wc, w2, h1, hc, h2, -, h3, -⟩ := exRead
  obtain ⟨l1, l2, one, e1, e2, e3⟩ := C90_time (emb := id) (e0 := true) (gB := id) (gS := id) (on := 0) (d := .one 0)
    (q0 := ()) (i := 0) (f := 0) (c := exConf [(0, exKey 0 0)]) (cfg := exKey 0 0) (fun _ : Unit => intOps) ex_get
    (dtype := fun _ => some ()) (agg := [(0, 0, some .sum), (1, 0, some .last)]) (gc := ex_cfg) exZ
    (s2 := s2) (w2 := w2) (by simp [Apart, exConf]) rfl rfl { freq := 10 } ⟨by decide, .inr (.inr ⟨rfl, by decide⟩)⟩ Prod.fst none
    (exEmbeds _) rfl ⟨rfl, rfl⟩ ⟨rfl, rfl, by decide, by decide⟩ exKey_byLabel rfl rfl rfl
    (by
      show [((1 : Int), (1 : Int)), (12, 2), (13, 4), (25, 8), (26, 16), (38, 32), (39, 64), (41, 128), (52, 256), (63, 512)] ≠ []
      simp)
    (by
      show AscOn _ [((1 : Int), (1 : Int)), (12, 2), (13, 4), (25, 8), (26, 16), (38, 32), (39, 64), (41, 128), (52, 256), (63, 512)]
      simp [AscOn])
    (by simp) h1 hc
  exact ⟨w1, wc, w2, h3, l1, l2 h2, one, e1, by rw [List.map_id] at e2; exact e2, e3⟩

/-- The last row read may change: the bin of label 20 holds one row after the first call, two ones in the second call. -/
theorem C90_last_fails : ∃ (s1 : State (List (List Int)) ExBuf Unit Unit) (w1 wc : ExWorld ExBuf),
    aggs (exConf [(0, exKey 0 0)]) [⟨exSeed1, false, false, true⟩] (exState 1 (Buf.init {})) exWorld = .ok (s1, w1) ∧
    Crash (exConf [(0, exKey 0 0)]) ⟨exReadSeed, false, false, true⟩ s1 w1 wc ∧
    ¬ readRows (w1 0).rgs <+: readRows (wc 0).rgs := by
  obtain ⟨s1, s2, w1, wc, w2, h1, hc, -, h3, h4, -⟩ := exRead
  refine ⟨s1, w1, wc, h1, hc, ?_⟩
  rw [h3, h4]
  decide

/-- A row that is read, and that is not the last one, may change when a stream has been stopped and the one that follows receives less
rows: the bin of label 20 holds three rows when the second stream is stopped, then two ones, with the bin of label 30 still there. -/
theorem C90_stop_fails : ∃ (s1 s2 s3 : State (List (List Int)) ExBuf Unit Unit) (w1 wc w3 : ExWorld ExBuf),
    aggs (exConf [(0, exKey 0 0)]) [⟨exSeed1, false, false, true⟩] (exState 1 (Buf.init {})) exWorld = .ok (s1, w1) ∧
    Crash (exConf [(0, exKey 0 0)])
      ⟨[[(26, 16), (28, 32), (38, 64)], [(39, 128), (41, 256)], [(52, 512)], [(63, 1024)]], false, false, false⟩ s1 w1 wc ∧
    initBuffers (Buf.init {}) () () (exConf [(0, exKey 0 0)]) wc = .ok s2 ∧
    agg (exConf [(0, exKey 0 0)]) ⟨[[(26, 16)]], false, false, true⟩ s2 wc = .ok (s3, w3, false) ∧
    readRows (wc 0).rgs = [(0, some [[1, 1]]), (10, some [[6, 4]]), (20, some [[56, 32]]), (30, some [[192, 128]])] ∧
    readRows (w3 0).rgs = [(0, some [[1, 1]]), (10, some [[6, 4]]), (20, some [[24, 16]]), (30, some [[192, 128]])] ∧
    ¬ Later Prod.fst (readRows (wc 0).rgs) (readRows (w3 0).rgs) := by
  obtain ⟨s1, w1, s', wc, s2, s3, w3, h1, h2, h3, h4, h5, h6⟩ : ∃ (s1 : State (List (List Int)) ExBuf Unit Unit)
      (w1 : ExWorld ExBuf) (s' : State (List (List Int)) ExBuf Unit Unit) (wc : ExWorld ExBuf)
      (s2 s3 : State (List (List Int)) ExBuf Unit Unit) (w3 : ExWorld ExBuf),
      aggs (exConf [(0, exKey 0 0)]) [⟨exSeed1, false, false, true⟩] (exState 1 (Buf.init {})) exWorld = .ok (s1, w1) ∧
      agg (exConf [(0, exKey 0 0)])
        ⟨[[(26, 16), (28, 32), (38, 64)], [(39, 128), (41, 256)], [(52, 512)], [(63, 1024)]], false, false, false⟩ s1 w1 =
        .ok (s', wc, false) ∧
      initBuffers (Buf.init {}) () () (exConf [(0, exKey 0 0)]) wc = .ok s2 ∧
      agg (exConf [(0, exKey 0 0)]) ⟨[[(26, 16)]], false, false, true⟩ s2 wc = .ok (s3, w3, false) ∧
      readRows (wc 0).rgs = [(0, some [[1, 1]]), (10, some [[6, 4]]), (20, some [[56, 32]]), (30, some [[192, 128]])] ∧
      readRows (w3 0).rgs = [(0, some [[1, 1]]), (10, some [[6, 4]]), (20, some [[24, 16]]), (30, some [[192, 128]])] :=
    ⟨_, _, _, _, _, _, _, rfl, rfl, rfl, rfl, rfl, rfl⟩
  refine ⟨s1, s2, s3, w1, wc, w3, h1, crash_of_agg (by simp [Apart, exConf]) rfl (aggs_length h1 rfl) h2, h3, h4, h5, h6, fun h => ?_⟩
  have := h.settled
  rw [h5, h6] at this
  revert this
  decide

-- `C90_time_life` (thus `C90_life`): after a session and a stop
example : ∃ w : ExWorld ExBuf,
    readRows (w 0).rgs = [(0, some [[1, 1]]), (10, some [[6, 4]]), (20, some [[24, 16]]), (30, some [[96, 64]])] ∧
    ∃ one all, frameCall (fun _ => intOps) ex_get ex_cfg exZ (grouperFn { freq := 10 } Prod.fst) none none false
        exSeed1.flatten none = .ok (some one, none) ∧
      frameCall (fun _ => intOps) ex_get ex_cfg exZ (grouperFn { freq := 10 } Prod.fst) none none false exAll none =
        .ok (some all, none) ∧
      one.bins.dropLast <+: readRows (w 0).rgs ∧ (readRows (w 0).rgs).map Prod.fst <+: all.bins.map Prod.fst := by
  obtain ⟨w, h, e⟩ := exStop
  obtain ⟨one, all, e1, e2, e3, e4⟩ := C90_time_life (emb := id) (gB := id) (gS := id) (on := 0) (d := .one 0) (fun _ => intOps) ex_get
    (dtype := fun _ => some ())
    (agg := [(0, 0, some .sum), (1, 0, some .last)]) (gc := ex_cfg) exZ rfl { freq := 10 } exFixed Prod.fst none
    (fun _ h => h.1) (exSame 100 1) (by decide) (by decide) (by simp) h
  rw [List.map_id] at e3 e4
  refine ⟨w, ?_, one, all, e1, e2, e3, e4⟩
  simp only [readRows, e]
  rfl

-- `C90_calls`: the second call has no final write; bins of labels 40 and 50 are held
example : ∃ (w1 w2 : ExWorld ExBuf),
    readRows (w1 0).rgs = [(0, some [[1, 1]]), (10, some [[6, 4]]), (20, some [[8, 8]])] ∧
    readRows (w2 0).rgs = [(0, some [[1, 1]]), (10, some [[6, 4]]), (20, some [[24, 16]]), (30, some [[96, 64]])] ∧
    KLater (exKey 0 0) 0 w1 w2 := by
  obtain ⟨s1, w1, s2, w2, h1, h2, h3, h4⟩ : ∃ (s1 : State (List (List Int)) ExBuf Unit Unit)
      (w1 : ExWorld ExBuf) (s2 : State (List (List Int)) ExBuf Unit Unit) (w2 : ExWorld ExBuf),
      aggs (exConf [(0, exKey 0 0)]) [⟨exSeed1, false, false, true⟩] (exState 1 (Buf.init {})) exWorld = .ok (s1, w1) ∧
      aggs (exConf [(0, exKey 0 0)]) [⟨exSeed2 ++ [[(52, 256)]], false, false, false⟩] s1 w1 = .ok (s2, w2) ∧
      readRows (w1 0).rgs = [(0, some [[1, 1]]), (10, some [[6, 4]]), (20, some [[8, 8]])] ∧
      readRows (w2 0).rgs = [(0, some [[1, 1]]), (10, some [[6, 4]]), (20, some [[24, 16]]), (30, some [[96, 64]])] :=
    ⟨_, _, _, _, rfl, rfl, rfl, rfl⟩
  have hg : Fixed ({ freq := 10 } : Grouper) := ⟨by decide, .inr (.inr ⟨rfl, by decide⟩)⟩
  have hL := grouper_lawful { freq := 10 } _ hg.anchored (Prod.fst : Int × Int → Int)
  have hKL : KeyLaws (exKey 0 0) _ _ _ _ id id 0 (.one 0) := keyLaws_bins (fun _ : Unit => intOps) ex_get
    (cfgOk_of (agg := [(0, 0, some .sum), (1, 0, some .last)]) (dtype := fun _ => some ()) (cfg := ex_cfg) rfl) exZ hL
    (ordered := none) (emb := id) (e0 := true) (exEmbeds _) rfl (show PostRow (exKey 0 0) id id from ⟨rfl, rfl⟩)
    ⟨rfl, rfl, by decide, by decide⟩ exKey_byLabel
  refine ⟨w1, w2, h3, h4, C90_calls (q0 := ()) (i := 0) (f := 0) (c := exConf [(0, exKey 0 0)]) (s := exState 1 (Buf.init {}))
    (w := exWorld) (by simp [Apart, exConf]) rfl hKL rfl rfl ⟨_, rfl, frameOk_init _ _ trivial hL⟩ rfl rfl
    (binsValid_of hL ?_ (by simp) (gridSpec_strict _ _ _ _ _ _ hg.1)) h1 h2⟩
  show AscOn _ [((1 : Int), (1 : Int)), (12, 2), (13, 4), (25, 8), (26, 16), (38, 32), (39, 64), (41, 128), (52, 256)]
  simp [AscOn]

-- `C90_polls`: reads after three frames and after five ones
example : ∃ (w1 w2 : ExWorld ExBuf),
    readRows (w1 0).rgs = [(0, some [[1, 1]]), (10, some [[6, 4]])] ∧
    readRows (w2 0).rgs = [(0, some [[1, 1]]), (10, some [[6, 4]]), (20, some [[24, 16]]), (30, some [[96, 64]])] ∧
    KLater (exKey 0 0) 0 w1 w2 := by
  obtain ⟨s1, w1, s2, w2, h1, h2, h3, h4⟩ : ∃ (s1 : KeyBuf (List (List Int)) ExBuf Unit)
      (w1 : ExWorld ExBuf) (s2 : KeyBuf (List (List Int)) ExBuf Unit) (w2 : ExWorld ExBuf),
      keyRun (exKey 0 0) (fun i => decide (i ≠ 0)) ((exSeed1 ++ exReadSeed).map KOp.chunk |>.take 3)
        { seg := Buf.init {}, post := () } exWorld = .ok (s1, w1) ∧
      keyRun (exKey 0 0) (fun i => decide (i ≠ 0)) ((exSeed1 ++ exReadSeed).map KOp.chunk |>.take 5)
        { seg := Buf.init {}, post := () } exWorld = .ok (s2, w2) ∧
      readRows (w1 0).rgs = [(0, some [[1, 1]]), (10, some [[6, 4]])] ∧
      readRows (w2 0).rgs = [(0, some [[1, 1]]), (10, some [[6, 4]]), (20, some [[24, 16]]), (30, some [[96, 64]])] :=
    ⟨_, _, _, _, rfl, rfl, rfl, rfl⟩
  have hg : Fixed ({ freq := 10 } : Grouper) := ⟨by decide, .inr (.inr ⟨rfl, by decide⟩)⟩
  have hL := grouper_lawful { freq := 10 } _ hg.anchored (Prod.fst : Int × Int → Int)
  have hKL : KeyLaws (exKey 0 0) _ _ _ _ id id 0 (.one 0) := keyLaws_bins (fun _ : Unit => intOps) ex_get
    (cfgOk_of (agg := [(0, 0, some .sum), (1, 0, some .last)]) (dtype := fun _ => some ()) (cfg := ex_cfg) rfl) exZ hL
    (ordered := none) (emb := id) (e0 := true) (exEmbeds _) rfl (show PostRow (exKey 0 0) id id from ⟨rfl, rfl⟩)
    ⟨rfl, rfl, by decide, by decide⟩ exKey_byLabel
  refine ⟨w1, w2, h3, h4, C90_polls (q0 := ()) hKL (w := exWorld) ⟨_, rfl, frameOk_init _ _ trivial hL⟩ rfl rfl
    (by simp [OpsOk, exSeed1, exSeed2, exReadSeed]) (binsValid_of hL ?_ (by simp) (gridSpec_strict _ _ _ _ _ _ hg.1)) (by decide) h1 h2⟩
  show AscOn _ [((1 : Int), (1 : Int)), (12, 2), (13, 4), (25, 8), (26, 16), (38, 32), (39, 64), (41, 128), (52, 256), (63, 512)]
  simp [AscOn]

theorem exKeyF_kept (cfg : KeyCfg Nat (Int × Int) (List (List Int)) ExBuf Unit) (h : ∃ m size, cfg = exKeyF 10 m size) :
    Embeds id (inPlace (frameCall (fun _ : Unit => intOps) ex_get ex_cfg exZ (grouperFn { freq := 10 } Prod.fst) none none true))
      cfg.call ∧ cfg.resType = .bins ∧ PostRow cfg id id ∧ WriteOk cfg.table cfg.params 0 (.one 0) ∧
    ByLabel cfg.table 0 (.one 0) id := by
  obtain ⟨m, size, rfl⟩ := h
  refine ⟨fun p b => ?_, rfl, ⟨rfl, rfl⟩,
    ⟨rfl, rfl, (by decide : 0 ∈ exT.cols), (by decide : Writer.DupKnown exT (some (.one 0)))⟩, exKey_byLabel⟩
  simp only [exKeyF, id]
  cases inPlace (frameCall (fun _ => intOps) ex_get ex_cfg exZ (grouperFn { freq := 10 } Prod.fst) none none true) p b <;> rfl

/-- Two sessions: row groups of one row and results held in the first one, row groups of two rows and no limit of memory in the
second one, which does not end with a final write. -/
theorem exReadTwo : ∃ (w1 w2 : ExWorld ExBuf) (s1 s2 s3 : State (List (List Int)) ExBuf Unit Unit),
    SessionRuns ex0 () () (exKeyF 10 100 1) (fun cfg => ∃ m size, cfg = exKeyF 10 m size) exWorld exSeed1.flatten w1 ∧
    initBuffers ex0 () () (exConf [(0, exKeyF 10 0 2)]) w1 = .ok s2 ∧
    agg (exConf [(0, exKeyF 10 0 2)]) ⟨exReadSeed, false, false, false⟩ s2 w1 = .ok (s3, w2, false) ∧
    received (exConf [(0, exKeyF 10 0 2)]) 0 [⟨exReadSeed, false, false, false⟩] s2.restart s2.pre = exReadSeed.flatten ∧
    s1.restart = some 25 ∧
    (w1 0).rgs.map RG.rows = [[(0, some [[1, 1]])], [(10, some [[6, 4]])], [(20, some [[8, 8]])]] ∧
    (w2 0).rgs.map RG.rows = [[(0, some [[1, 1]])], [(10, some [[6, 4]])], [(20, some [[24, 16]])], [(30, some [[96, 64]])]] := by
  obtain ⟨s1, w1, s2, s3, w2, e1, e2, e3, e4, e5, e6, e7⟩ : ∃ (s1 : State (List (List Int)) ExBuf Unit Unit)
      (w1 : ExWorld ExBuf) (s2 s3 : State (List (List Int)) ExBuf Unit Unit) (w2 : ExWorld ExBuf),
      aggs (exConf [(0, exKeyF 10 100 1)]) ([] ++ [⟨exSeed1, false, false, true⟩]) (exState 1 ex0) exWorld = .ok (s1, w1) ∧
      s1.restart = some 25 ∧ initBuffers ex0 () () (exConf [(0, exKeyF 10 0 2)]) w1 = .ok s2 ∧
      agg (exConf [(0, exKeyF 10 0 2)]) ⟨exReadSeed, false, false, false⟩ s2 w1 = .ok (s3, w2, false) ∧
      received (exConf [(0, exKeyF 10 0 2)]) 0 [⟨exReadSeed, false, false, false⟩] s2.restart s2.pre = exReadSeed.flatten ∧
      (w1 0).rgs.map RG.rows = [[(0, some [[1, 1]])], [(10, some [[6, 4]])], [(20, some [[8, 8]])]] ∧
      (w2 0).rgs.map RG.rows = [[(0, some [[1, 1]])], [(10, some [[6, 4]])], [(20, some [[24, 16]])], [(30, some [[96, 64]])]] :=
    ⟨_, _, _, _, _, rfl, rfl, rfl, rfl, rfl, rfl, rfl⟩
  refine ⟨w1, w2, s1, s2, s3, ?_, e3, e4, e5, e2, e6, e7⟩
  exact SessionRuns.session (k := exKeyF 10 100 1) (L := fun cfg => ∃ m size, cfg = exKeyF 10 m size) (i := 0) (f := 0)
    (c := exConf [(0, exKeyF 10 100 1)]) (cfg := exKeyF 10 100 1) (s := exState 1 ex0) (List.pairwise_singleton _ _) rfl
    ⟨rfl, rfl, rfl, rfl⟩ ⟨_, _, rfl⟩ rfl rfl e1 e2 rfl (.nil _)

-- `C90_time_sessions` (thus `C90_session_during`): what is read after the first session, and in the second one
example : ∃ (w1 w2 : ExWorld ExBuf),
    (w1 0).rgs.map RG.rows = [[(0, some [[1, 1]])], [(10, some [[6, 4]])], [(20, some [[8, 8]])]] ∧
    (w2 0).rgs.map RG.rows = [[(0, some [[1, 1]])], [(10, some [[6, 4]])], [(20, some [[24, 16]])], [(30, some [[96, 64]])]] ∧
    Later Prod.fst (readRows (w1 0).rgs) (readRows (w2 0).rgs) ∧
    ∃ one, frameCall (fun _ => intOps) ex_get ex_cfg exZ (grouperFn { freq := 10 } Prod.fst) none none false
        (exSeed1.flatten ++ exReadSeed.flatten) none = .ok (some one, none) ∧
      (readRows (w2 0).rgs).dropLast <+: one.bins := by
  obtain ⟨w1, w2, s1, s2, s3, hr, hs, ha, hrec, -, h1, h2⟩ := exReadTwo
  have hc := crash_of_agg (by simp [Apart, exConf]) rfl (initBuffers_key hs).1 ha
  obtain ⟨-, l1, -, one, e1, e2, -⟩ := C90_time_sessions (k := exKeyF 10 100 1) (emb := id) (gB := id) (gS := id) (on := 0) (d := .one 0)
    (q0 := ()) (i := 0) (f := 0) (c := exConf [(0, exKeyF 10 0 2)]) (cfg := exKeyF 10 0 2) (fun _ : Unit => intOps) ex_get
    (dtype := fun _ => some ()) (agg := [(0, 0, some .sum), (1, 0, some .last)]) (gc := ex_cfg) exZ (as := [])
    (s2 := s3) (w2 := w2) rfl { freq := 10 } ⟨by decide, .inr (.inr ⟨rfl, by decide⟩)⟩ Prod.fst none
    (L := fun cfg => ∃ m size, cfg = exKeyF 10 m size)
    (fun cfg h => ⟨⟨true, (exKeyF_kept cfg h).1⟩, (exKeyF_kept cfg h).2⟩)
    rfl rfl hr (by simp [Apart, exConf]) rfl ⟨rfl, rfl, rfl, rfl⟩ ⟨_, _, rfl⟩ hs
    (by simp [exSeed1]) (by rw [List.nil_append, hrec]; decide) (by simp) rfl hc
  rw [List.nil_append, hrec] at e1
  rw [List.map_id] at e2
  exact ⟨w1, w2, h1, h2, l1, one, e1, e2⟩

-- `C90_sessions`: two sessions, the second one ending with a final write
example : ∃ (w1 w2 : ExWorld ExBuf),
    (w1 0).rgs.map RG.rows = [[(0, some [[1, 1]])], [(10, some [[6, 4]])], [(20, some [[8, 8]])]] ∧
    (w2 0).rgs.map RG.rows = [[(0, some [[1, 1]])], [(10, some [[6, 4]])], [(20, some [[24, 16]])],
      [(30, some [[96, 64]]), (40, some [[128, 128]])]] ∧
    KLater (exKeyF 10 100 1) 0 w1 w2 := by
  obtain ⟨s1, w1, s2, s3, w2, e1, e2, e3, e4, e5, e6, e7, e8⟩ : ∃ (s1 : State (List (List Int)) ExBuf Unit Unit)
      (w1 : ExWorld ExBuf) (s2 s3 : State (List (List Int)) ExBuf Unit Unit) (w2 : ExWorld ExBuf),
      aggs (exConf [(0, exKeyF 10 100 1)]) ([] ++ [⟨exSeed1, false, false, true⟩]) (exState 1 ex0) exWorld = .ok (s1, w1) ∧
      s1.restart = some 25 ∧ initBuffers ex0 () () (exConf [(0, exKeyF 10 0 2)]) w1 = .ok s2 ∧
      aggs (exConf [(0, exKeyF 10 0 2)]) ([] ++ [⟨exSeed2, false, false, true⟩]) s2 w1 = .ok (s3, w2) ∧ s3.restart = some 41 ∧
      received (exConf [(0, exKeyF 10 0 2)]) 0 ([] ++ [⟨exSeed2, false, false, true⟩]) s2.restart s2.pre = exSeed2.flatten ∧
      (w1 0).rgs.map RG.rows = [[(0, some [[1, 1]])], [(10, some [[6, 4]])], [(20, some [[8, 8]])]] ∧
      (w2 0).rgs.map RG.rows = [[(0, some [[1, 1]])], [(10, some [[6, 4]])], [(20, some [[24, 16]])],
        [(30, some [[96, 64]]), (40, some [[128, 128]])]] := ⟨_, _, _, _, _, rfl, rfl, rfl, rfl, rfl, rfl, rfl, rfl⟩
  have hg : Fixed ({ freq := 10 } : Grouper) := ⟨by decide, .inr (.inr ⟨rfl, by decide⟩)⟩
  have hL := grouper_lawful { freq := 10 } _ hg.anchored (Prod.fst : Int × Int → Int)
  have hKL := fun cfg (h : ∃ m size, cfg = exKeyF 10 m size) => keyLaws_bins (fun _ : Unit => intOps) ex_get
    (cfgOk_of (agg := [(0, 0, some .sum), (1, 0, some .last)]) (dtype := fun _ => some ()) (cfg := ex_cfg) rfl) exZ hL
    (ordered := none) (key := cfg) (emb := id) (e0 := true) (exKeyF_kept cfg h).1 (exKeyF_kept cfg h).2.1 (exKeyF_kept cfg h).2.2.1
    (exKeyF_kept cfg h).2.2.2.1 (exKeyF_kept cfg h).2.2.2.2
  have r2 := SessionRuns.session (k := exKeyF 10 100 1) (L := fun cfg => ∃ m size, cfg = exKeyF 10 m size) (i := 0) (f := 0)
    (c := exConf [(0, exKeyF 10 0 2)]) (cfg := exKeyF 10 0 2) (List.pairwise_singleton _ _) rfl
    ⟨rfl, rfl, rfl, rfl⟩ ⟨_, _, rfl⟩ e3 rfl e4 e5 rfl (.nil _)
  rw [e6] at r2
  refine ⟨w1, w2, e7, e8, C90_sessions hKL ⟨_, rfl, frameOk_init _ _ trivial hL⟩ rfl rfl rfl
    (SessionRuns.session (k := exKeyF 10 100 1) (L := fun cfg => ∃ m size, cfg = exKeyF 10 m size) (i := 0) (f := 0)
      (c := exConf [(0, exKeyF 10 100 1)]) (cfg := exKeyF 10 100 1) (s := exState 1 ex0) (List.pairwise_singleton _ _) rfl
      ⟨rfl, rfl, rfl, rfl⟩ ⟨_, _, rfl⟩ rfl rfl e1 e2 rfl (.nil _)) r2
    (binsValid_of hL ?_ (by simp) (gridSpec_strict _ _ _ _ _ _ hg.1))⟩
  show AscOn _ [((1 : Int), (1 : Int)), (12, 2), (13, 4), (25, 8), (26, 16), (38, 32), (39, 64), (41, 128)]
  simp [AscOn]

-- `C90_rows`: bins of three rows, read at the end of a call without final write
example : ∃ (w1 wc : ExWorld (Buf (Option RowsBuf) (List (List Int)))),
    readRows (wc 0).rgs = [(1, some [[7, 4]]), (25, some [[56, 32]]), (39, some [[448, 256]])] ∧
    ∃ one, frameCall (fun _ => intOps) ex_get ex_cfg exZ (rowsFn 3 .left Prod.fst) none none false
        [(1, 1), (12, 2), (13, 4), (25, 8), (26, 16), (38, 32), (39, 64), (40, 128), (41, 256), (42, 512), (43, 1)] none =
        .ok (some one, none) ∧ ((one.bins.map Prod.fst).Pairwise (· < ·) →
      Later Prod.fst (readRows (w1 0).rgs) (readRows (wc 0).rgs) ∧ (readRows (wc 0).rgs).dropLast <+: one.bins) := by
  obtain ⟨s1, w1, s2, w2, h1, h2, h3⟩ : ∃ (s1 : State (List (List Int)) (Buf (Option RowsBuf) (List (List Int))) Unit Unit)
      (w1 : ExWorld (Buf (Option RowsBuf) (List (List Int))))
      (s2 : State (List (List Int)) (Buf (Option RowsBuf) (List (List Int))) Unit Unit)
      (w2 : ExWorld (Buf (Option RowsBuf) (List (List Int)))),
      aggs (exConf [(0, exRows 3 0)]) [⟨[[(1, 1), (12, 2)], [(13, 4), (25, 8), (26, 16)]], false, false, true⟩]
        (exState 1 (Buf.init none)) exWorld = .ok (s1, w1) ∧
      agg (exConf [(0, exRows 3 0)]) ⟨[[(38, 32), (39, 64)], [(40, 128), (41, 256), (42, 512)], [(43, 1)]], false, false, false⟩ s1 w1 =
        .ok (s2, w2, false) ∧
      readRows (w2 0).rgs = [(1, some [[7, 4]]), (25, some [[56, 32]]), (39, some [[448, 256]])] := ⟨_, _, _, _, rfl, rfl, rfl⟩
  have hc := crash_of_agg (by simp [Apart, exConf]) rfl (aggs_length h1 rfl) h2
  obtain ⟨one, e1, e2⟩ := C90_rows (emb := id) (e0 := true) (gB := id) (gS := id) (on := 0) (d := .one 0)
    (q0 := ()) (i := 0) (f := 0) (c := exConf [(0, exRows 3 0)]) (cfg := exRows 3 0) (fun _ : Unit => intOps) ex_get
    (dtype := fun _ => some ()) (agg := [(0, 0, some .sum), (1, 0, some .last)]) (gc := ex_cfg) exZ
    (s2 := s2) (w2 := w2) (by simp [Apart, exConf]) rfl rfl 3 (by decide) .left Prod.fst none
    (exEmbeds _) rfl ⟨rfl, rfl⟩ ⟨rfl, rfl, by decide, by decide⟩ exKey_byLabel rfl rfl rfl
    (by
      show [((1 : Int), (1 : Int)), (12, 2), (13, 4), (25, 8), (26, 16), (38, 32), (39, 64), (40, 128), (41, 256), (42, 512), (43, 1)] ≠ []
      simp)
    (by simp) h1 hc
  refine ⟨w1, w2, h3, one, e1, fun hst => ?_⟩
  obtain ⟨l1, -, l3, -⟩ := e2 hst
  rw [List.map_id] at l3
  exact ⟨l1, l3⟩

-- `C90_snaps`: bins and snapshots, read at the end of a call without final write
example : ∃ (w1 wc : ExWorld ExBuf),
    readRows (wc 0).rgs = [(0, some [[15, 8]])] ∧
    readRows (wc 1).rgs = [(5, some [[3, 2]]), (10, some [[15, 8]]), (15, some [[16, 16]])] ∧
    KLater (exBoth 0 none) 0 w1 wc ∧
    ∃ one sns, frameCall (fun _ => intOps) ex_get ex_cfg exZ (grouperFn { freq := 10 } Prod.fst) (some Prod.fst)
        (some (.grouper { freq := 5, labelRight := true })) false
        [(1, 1), (2, 2), (7, 4), (8, 8), (12, 16), (16, 32), (23, 64), (34, 128)] none = .ok (some one, none) ∧ one.snaps = some sns ∧
      (readRows (wc 1).rgs).dropLast <+: sns := by
  obtain ⟨s1, w1, s2, w2, h1, h2, h3, h4⟩ : ∃ (s1 : State (List (List Int)) ExBuf Unit Unit)
      (w1 : ExWorld ExBuf) (s2 : State (List (List Int)) ExBuf Unit Unit) (w2 : ExWorld ExBuf),
      aggs (exConf [(0, exBoth 0 none)]) [⟨[[(1, 1), (2, 2)], [(7, 4)]], false, false, true⟩]
        (exState 1 (Buf.init {})) exWorld = .ok (s1, w1) ∧
      agg (exConf [(0, exBoth 0 none)]) ⟨[[(8, 8)], [(12, 16), (16, 32)], [(23, 64)], [(34, 128)]], false, false, false⟩ s1 w1 =
        .ok (s2, w2, false) ∧
      readRows (w2 0).rgs = [(0, some [[15, 8]])] ∧
      readRows (w2 1).rgs = [(5, some [[3, 2]]), (10, some [[15, 8]]), (15, some [[16, 16]])] := ⟨_, _, _, _, rfl, rfl, rfl, rfl⟩
  have hc := crash_of_agg (by simp [Apart, exConf]) rfl (aggs_length h1 rfl) h2
  obtain ⟨l1, -, one, sns, e1, e2, e3, -⟩ := C90_snaps (emb := id) (e0 := true) (gB := id) (gS := id) (on := 0) (d := .one 0)
    (q0 := ()) (i := 0) (f := 0) (c := exConf [(0, exBoth 0 none)]) (cfg := exBoth 0 none) (fun _ : Unit => intOps) ex_get
    (dtype := fun _ => some ()) (agg := [(0, 0, some .sum), (1, 0, some .last)]) (gc := ex_cfg) exZ (s2 := s2) (w2 := w2)
    (by simp [Apart, exConf]) rfl rfl { freq := 10 } ⟨by decide, .inr (.inr ⟨rfl, by decide⟩)⟩
    { freq := 5, labelRight := true } ⟨by decide, .inr (.inr ⟨rfl, by decide⟩)⟩ Prod.fst (exEmbeds _) (by simp [exBoth])
    (by simp [exBoth]) ⟨rfl, rfl⟩ ⟨rfl, rfl, by decide, by decide⟩ (fun _ => ⟨rfl, rfl, by decide, by decide⟩)
    (fun _ => exKey_byLabel) exKey_byLabel rfl rfl rfl (fun _ => rfl)
    (by
      show [((1 : Int), (1 : Int)), (2, 2), (7, 4), (8, 8), (12, 16), (16, 32), (23, 64), (34, 128)] ≠ []
      simp)
    (by
      show AscOn _ [((1 : Int), (1 : Int)), (2, 2), (7, 4), (8, 8), (12, 16), (16, 32), (23, 64), (34, 128)]
      simp [AscOn])
    h1 hc
  rw [List.map_id] at e3
  exact ⟨w1, w2, h3, h4, l1, one, sns, e1, e2, e3⟩

end Oups.AggStream
