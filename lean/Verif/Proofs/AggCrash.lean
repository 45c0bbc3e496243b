import Verif.Proofs.AggRestart
import Verif.Spec.AggSettings
/-! A process that stops while chunks are processed, and starts again from the store. -/
set_option linter.unusedSimpArgs false
namespace Oups.AggStream
open Oups.Writer (Table Params RG Col DupOn dupCols readRows StrictOn Along Loose)
open Oups.Agg (Res AggErr)

section
variable {K R A S P Q : Type} [DecidableEq K]
variable {cfg : KeyCfg K R A S Q} {V : List R → Prop} {FB : List R → List (Row A)}
  {FS : Option (List R → List (Row A))} {ok : List R → S → Prop} {gB gS : Row A → Row A} {on : Col} {d : DupOn}
  {truthy : Int → Bool}

/-- Recorded metadata is not lost: the dataset has rows. -/
def Kept (cfg : KeyCfg K R A S Q) (w w' : World K A (Md S P Q)) : Prop :=
  (w cfg.main).rgs ≠ [] → (w' cfg.main).rgs ≠ [] ∧ (w' cfg.main).md = (w cfg.main).md ∧
    ((w cfg.main).inStore = true → (w' cfg.main).inStore = true)

theorem Kept.refl (w : World K A (Md S P Q)) : Kept cfg w w := fun h => ⟨h, rfl, id⟩

theorem Kept.trans {w1 w2 w3 : World K A (Md S P Q)} (h1 : Kept cfg w1 w2) (h2 : Kept cfg w2 w3) : Kept cfg w1 w3 := by
  intro h
  obtain ⟨a1, a2, a3⟩ := h1 h
  obtain ⟨b1, b2, b3⟩ := h2 a1
  exact ⟨b1, b2.trans a2, fun hi => b3 (a3 hi)⟩

theorem flushPrev_kept (L : KeyLaws cfg V FB FS ok gB gS on d) {Tot h0 h : List R} (hV : V Tot) {st st' : KeyBuf A S Q}
    {w w' : World K A (Md S P Q)} (hi : KInv cfg FB FS ok gB gS on d Tot h0 h st w)
    (hfl : flushPrev cfg truthy st w = .ok (st', w')) : Kept cfg w w' := by
  rename' h => hrows, hfl => h
  simp only [flushPrev] at h
  cases hb : st.bin with
  | none =>
    simp only [hb, Except.ok.injEq, Prod.mk.injEq] at h
    rw [← h.2]; exact .refl _
  | some b =>
    obtain ⟨hbne, hsn⟩ := hi.hasRes b hb
    have hbe : b.isEmpty = false := by cases b <;> simp_all
    simp only [hb, hbe, Bool.false_eq_true, if_false] at h
    split at h
    · have hb' : (pushPrev cfg st b).bin = some b := hb
      obtain ⟨_, w1, w2, w3⟩ := post_some L.post L.distinct h hb' hsn
      intro hne
      have hmd : (w' cfg.main).md = (w cfg.main).md := by
        obtain ⟨q, main, snap, -, h2, -⟩ := postNWrite_ok h
        cases main with
        | none => rw [(writeResults_none h2).2.1 rfl]
        | some rows => exact (storeSet_ok (writeResults_some L.distinct h2).1).2.2.2 rfl hne
      refine ⟨?_, hmd, fun _ => w3⟩
      by_cases hr : cfg.resType = .snaps
      · obtain ⟨f, hf, law⟩ := L.snaps (by simp [hr])
        have ht := hi.snaps (by simp [hr]) f hf
        obtain ⟨s, hs⟩ := hsn (by simp [hr])
        rw [hs] at ht
        have hw := w2 (by simp [hr]) s hs
        have hk : cfg.snapKey = cfg.main := by simp [KeyCfg.snapKey, hr]
        have hbuf : (pushPrev cfg st b).snapBuf = st.snapBuf ++ [s.dropLast] := by simp [pushPrev, hs]
        rw [hbuf] at hw
        have := (ht.mid_push.write law L.wsnap hV hi.pre hw).2.1
        rw [hk] at this
        exact this hne
      · have ht := hi.bins hr
        rw [hb] at ht
        exact (ht.mid_push.write (L.bins hr) L.wmain hV hi.pre (w1 hr)).2.1 hne
    · simp only [Except.ok.injEq, Prod.mk.injEq] at h
      rw [← h.2]; exact .refl _

/-- Coalescing does not change the results up to `h0`. -/
def KLoose (cfg : KeyCfg K R A S Q) (FB : List R → List (Row A)) (FS : Option (List R → List (Row A))) (h0 : List R)
    (w : World K A (Md S P Q)) : Prop :=
  (cfg.resType ≠ .snaps → Loose cfg.params (FB h0).dropLast.length (w cfg.main).rgs) ∧
  (cfg.resType ≠ .bins → ∀ f, FS = some f → Loose cfg.snapPars (f h0).dropLast.length (w cfg.snapKey).rgs)

theorem NoCoalescing.loose {cfg : KeyCfg K R A S Q} (h : NoCoalescing cfg) {FB : List R → List (Row A)}
    {FS : Option (List R → List (Row A))} {h0 : List R} {w : World K A (Md S P Q)} : KLoose cfg FB FS h0 w :=
  ⟨fun _ => Or.inl h.1, fun _ _ _ => Or.inl h.snap⟩

theorem NoCoalescing.safe {cfg : KeyCfg K R A S Q} (h : NoCoalescing cfg) (w : World K A (Md S P Q)) : KeySafe cfg w :=
  ⟨Or.inl h.1, fun hb => Or.inl (h.2 hb)⟩

theorem SameTarget.snapKey {k1 k2 : KeyCfg K R A S Q} (hs : SameTarget k1 k2) : k1.snapKey = k2.snapKey := by
  simp only [KeyCfg.snapKey, hs.main, hs.snap, hs.resType]

theorem flushPrev_loose (L : KeyLaws cfg V FB FS ok gB gS on d) {Tot h0 h : List R} (hV : V Tot) {st st' : KeyBuf A S Q}
    {w w' : World K A (Md S P Q)} (hi : KInv cfg FB FS ok gB gS on d Tot h0 h st w)
    (hfl : flushPrev cfg truthy st w = .ok (st', w')) (hlo : KLoose cfg FB FS h0 w) {cfg' : KeyCfg K R A S Q}
    (hs : SameTarget cfg' cfg) (hlo' : KLoose cfg' FB FS h0 w) : KLoose cfg' FB FS h0 w' := by
  rw [KLoose, hs.resType, hs.main, hs.snapKey] at hlo' ⊢
  rename' h => hrows, hfl => h
  simp only [flushPrev] at h
  cases hb : st.bin with
  | none =>
    simp only [hb, Except.ok.injEq, Prod.mk.injEq] at h
    rw [← h.2]; exact hlo'
  | some b =>
    obtain ⟨hbne, hsn⟩ := hi.hasRes b hb
    have hbe : b.isEmpty = false := by cases b <;> simp_all
    simp only [hb, hbe, Bool.false_eq_true, if_false] at h
    split at h
    · have hb' : (pushPrev cfg st b).bin = some b := hb
      obtain ⟨_, w1, w2, w3⟩ := post_some L.post L.distinct h hb' hsn
      refine ⟨fun hr => ?_, fun hr f hf => ?_⟩
      · have ht := hi.bins hr
        rw [hb] at ht
        exact (ht.mid_push.write (L.bins hr) L.wmain hV hi.pre (w1 hr)).2.2 (hlo.1 hr) _ (hlo'.1 hr)
      · obtain ⟨f', hf', law⟩ := L.snaps hr
        rw [hf, Option.some.injEq] at hf'
        subst hf'
        have ht := hi.snaps hr f hf
        obtain ⟨s, hs⟩ := hsn hr
        rw [hs] at ht
        have hw := w2 hr s hs
        have hbuf : (pushPrev cfg st b).snapBuf = st.snapBuf ++ [s.dropLast] := by simp [pushPrev, hs, hr]
        rw [hbuf] at hw
        exact (ht.mid_push.write law L.wsnap hV hi.pre hw).2.2 (hlo.2 hr f hf) _ (hlo'.2 hr f hf)
    · simp only [Except.ok.injEq, Prod.mk.injEq] at h
      rw [← h.2]; exact hlo'

/-- All operations are frames. -/
def Chunks (ops : List (KOp R P)) : Prop := ∀ op ∈ ops, ∃ ch, op = .chunk ch

theorem keyRun_kept (L : KeyLaws cfg V FB FS ok gB gS on d) {Tot h0 : List R} (hV : V Tot) {ops : List (KOp R P)}
    (hops : OpsOk ops) (hch : Chunks ops) {h : List R} {st st' : KeyBuf A S Q}
    {w w' : World K A (Md S P Q)} (hi : KInv cfg FB FS ok gB gS on d Tot h0 h st w)
    (hpre : h ++ opRows ops <+: Tot) (hr : keyRun cfg truthy ops st w = .ok (st', w')) : Kept cfg w w' := by
  induction ops generalizing h st w with
  | nil =>
    simp only [keyRun, Except.ok.injEq, Prod.mk.injEq] at hr
    rw [← hr.2]; exact .refl _
  | cons op ops ih =>
    obtain ⟨c, rfl⟩ := hch op (by simp)
    simp only [keyRun] at hr
    cases hst : keyStep cfg truthy (.chunk c) st w with
    | error e => simp [hst] at hr
    | ok r =>
      obtain ⟨st1, w1⟩ := r
      simp only [hst] at hr
      simp only [opRows, ← List.append_assoc] at hpre
      have hi1 := aggIter_inv L hV hi (hops c (by simp)) (List.IsPrefix.trans ⟨_, rfl⟩ hpre) hst
      obtain ⟨st2, _, _, hfl, -, -⟩ := aggIter_ok hst
      exact (flushPrev_kept L hV hi hfl).trans
        (ih (fun ch hc => hops ch (by simp [hc])) (fun op h => hch op (by simp [h])) hi1 hpre hr)

/-- Same for the results written at the end of `agg`. -/
theorem final_loose (L : KeyLaws cfg V FB FS ok gB gS on d) {Tot h0 h : List R} (hV : V Tot) {st st' : KeyBuf A S Q}
    {w w' : World K A (Md S P Q)} (hi : KInv cfg FB FS ok gB gS on d Tot h0 h st w) {fin : Option (Int × P)}
    (hag : postNWrite cfg truthy true fin st w = .ok (st', w')) (hlo : KLoose cfg FB FS h0 w) {cfg' : KeyCfg K R A S Q}
    (hs : SameTarget cfg' cfg) (hlo' : KLoose cfg' FB FS h0 w) : KLoose cfg' FB FS h0 w' := by
  rw [KLoose, hs.resType, hs.main, hs.snapKey] at hlo' ⊢
  cases hb : st.bin with
  | none =>
    obtain ⟨q, main, snap, r1, r2, r3⟩ := postNWrite_ok hag
    have := results_none r1 hb
    simp only [Prod.mk.injEq] at this
    obtain ⟨rfl, rfl, rfl⟩ := this
    obtain ⟨e1, e2, e3, e4, e5⟩ := writeResults_none r2
    have hrgs : ∀ k, (w' k).rgs = (w k).rgs := by
      intro k
      by_cases hk : k = cfg.main
      · subst hk
        cases hin : (w cfg.main).inStore with
        | true => exact e4 hin
        | false => rw [hi.wf hin]; exact e5 hin (hi.wf hin)
      · rw [e1 k hk]
    rw [hrgs, hrgs]
    exact hlo'
  | some b =>
    obtain ⟨hbne, hsn⟩ := hi.hasRes b hb
    obtain ⟨-, w1, w2, w3⟩ := post_some L.post L.distinct hag hb hsn
    refine ⟨fun hr => ?_, fun hr f hf => ?_⟩
    · have ht := hi.bins hr
      rw [hb] at ht
      exact (TrackOk.final (L.bins hr) L.wmain hV hi.pre ht (w1 hr)).2.2.2 (hlo.1 hr) _ (hlo'.1 hr)
    · obtain ⟨s, hs⟩ := hsn hr
      obtain ⟨f', hf', law⟩ := L.snaps hr
      rw [hf, Option.some.injEq] at hf'
      subst hf'
      have ht := hi.snaps hr f hf
      rw [hs] at ht
      exact (TrackOk.final law L.wsnap hV hi.pre ht (w2 hr s hs)).2.2.2 (hlo.2 hr f hf) _ (hlo'.2 hr f hf)

theorem keyRun_loose (L : KeyLaws cfg V FB FS ok gB gS on d) {Tot h0 : List R} (hV : V Tot) {ops : List (KOp R P)}
    (hops : OpsOk ops) {h : List R} {st st' : KeyBuf A S Q}
    {w w' : World K A (Md S P Q)} (hi : KInv cfg FB FS ok gB gS on d Tot h0 h st w)
    (hpre : h ++ opRows ops <+: Tot) (hr : keyRun cfg truthy ops st w = .ok (st', w')) (hlo : KLoose cfg FB FS h0 w)
    {cfg' : KeyCfg K R A S Q} (hs : SameTarget cfg' cfg) (hlo' : KLoose cfg' FB FS h0 w) : KLoose cfg' FB FS h0 w' := by
  induction ops generalizing h st w with
  | nil =>
    simp only [keyRun, Except.ok.injEq, Prod.mk.injEq] at hr
    rw [← hr.2]; exact hlo'
  | cons op ops ih =>
    simp only [keyRun] at hr
    cases hst : keyStep cfg truthy op st w with
    | error e => simp [hst] at hr
    | ok r =>
      obtain ⟨st1, w1⟩ := r
      simp only [hst] at hr
      have hops' : OpsOk ops := fun ch hc => hops ch (by simp [hc])
      cases op with
      | chunk c =>
        simp only [opRows, ← List.append_assoc] at hpre
        have hi1 := aggIter_inv L hV hi (hops c (by simp)) (List.IsPrefix.trans ⟨_, rfl⟩ hpre) hst
        obtain ⟨st2, _, _, hfl, -, -⟩ := aggIter_ok hst
        exact ih hops' hi1 hpre hr
          (flushPrev_loose L hV hi hfl hlo ⟨rfl, rfl, rfl, rfl⟩ hlo) (flushPrev_loose L hV hi hfl hlo hs hlo')
      | final r pb =>
        simp only [opRows] at hpre
        exact ih hops' (final_inv L hV hi hst).1 hpre hr
          (final_loose L hV hi hst hlo ⟨rfl, rfl, rfl, rfl⟩ hlo) (final_loose L hV hi hst hlo hs hlo')

/-- Rows received since do not matter. -/
theorem KLoose.forth {cfg' : KeyCfg K R A S Q} {Tot h0 h : List R} {st : KeyBuf A S Q} {w : World K A (Md S P Q)}
    (hi : KInv cfg FB FS ok gB gS on d Tot h0 h st w) (hs : SameTarget cfg' cfg) (hlo : KLoose cfg' FB FS h0 w) :
    KLoose cfg' FB FS h w := by
  refine ⟨fun hr => (hlo.1 hr).mono ?_, fun hr f hf => (hlo.2 hr f hf).mono ?_⟩
  · exact (hi.bins (by rw [← hs.resType]; exact hr)).1.length_le
  · exact (hi.snaps (by rw [← hs.resType]; exact hr) f hf).1.length_le

theorem chunks_nil {ops : List (KOp R P)} (hops : OpsOk ops) (hch : Chunks ops) (h : opRows ops = []) : ops = [] := by
  cases ops with
  | nil => rfl
  | cons op ops =>
    obtain ⟨c, rfl⟩ := hch op (by simp)
    simp only [opRows, List.append_eq_nil_iff] at h
    exact absurd h.1 (hops c (by simp))

theorem prefix_self {α : Type} {h r : List α} (hp : h ++ r <+: h) : r = [] := by
  have := hp.length_le
  rw [List.length_append] at this
  exact List.length_eq_zero_iff.1 (by omega)

theorem keyCrash_kept (L : KeyLaws cfg V FB FS ok gB gS on d) {Tot h : List R} (hV : V Tot) {ops : List (KOp R P)}
    (hops : OpsOk ops) (hch : Chunks ops) {st : KeyBuf A S Q} {w wc : World K A (Md S P Q)}
    (hi : KInv cfg FB FS ok gB gS on d Tot h h st w)
    (hpre : h ++ opRows ops <+: Tot) (hc : KeyCrash cfg truthy ops st w wc) : Kept cfg w wc := by
  obtain ⟨done, rest, st1, w1, rfl, hrun, hc⟩ := hc
  have ho1 : OpsOk done := fun ch hc => hops ch (List.mem_append_left _ hc)
  have hc1 : Chunks done := fun op hc => hch op (List.mem_append_left _ hc)
  rw [opRows_append, ← List.append_assoc] at hpre
  have hp1 : h ++ opRows done <+: Tot := List.IsPrefix.trans ⟨_, rfl⟩ hpre
  have hi1 := keyRun_inv L hV ho1 hi hp1 hrun
  have hk1 := keyRun_kept L hV ho1 hc1 hi hp1 hrun
  rcases hc with hag | ⟨op, rest', st2, w2, rfl, hstep, hm, hother⟩
  · have em := hag _ (touches_main cfg)
    exact fun hne => by rw [em]; exact hk1 hne
  · obtain ⟨c, rfl⟩ := hch op (by simp)
    obtain ⟨st3, _, _, hfl, -, -⟩ := aggIter_ok hstep
    have hk2 := hk1.trans (flushPrev_kept L hV hi1 hfl)
    exact fun hne => by rw [hm]; exact hk2 hne

/-- What is on disk after a crash is as after the last final write, for a stream that is run again beyond what the crashed
one had processed. -/
theorem keyCrash_inv (L : KeyLaws cfg V FB FS ok gB gS on d) {Tot h : List R} (hV : V Tot) {ops : List (KOp R P)}
    (hops : OpsOk ops) (hch : Chunks ops) {st : KeyBuf A S Q} {w wc : World K A (Md S P Q)} (hst : st.Rest)
    (hi : KInv cfg FB FS ok gB gS on d Tot h h st w) (hlo : KLoose cfg FB FS h w)
    (hpre : h ++ opRows ops <+: Tot) (hc : KeyCrash cfg truthy ops st w wc) :
    KInv cfg FB FS ok gB gS on d Tot h h st wc := by
  obtain ⟨done, rest, st1, w1, rfl, hrun, hc⟩ := hc
  have hb : st.bin = none := by rw [hst]
  have hbb : st.binBuf = [] := by rw [hst]
  have hsn : st.snap = none := by rw [hst]
  have hsb : st.snapBuf = [] := by rw [hst]
  have ho1 : OpsOk done := fun ch hc => hops ch (List.mem_append_left _ hc)
  have hc1 : Chunks done := fun op hc => hch op (List.mem_append_left _ hc)
  rw [opRows_append, ← List.append_assoc] at hpre
  have hp1 : h ++ opRows done <+: Tot := List.IsPrefix.trans ⟨_, rfl⟩ hpre
  have hi1 := keyRun_inv L hV ho1 hi hp1 hrun
  have hlo1 := keyRun_loose L hV ho1 hi hp1 hrun hlo ⟨rfl, rfl, rfl, rfl⟩ hlo
  rcases hc with hag | ⟨op, rest', st2, w2, rfl, hstep, hm, hother⟩
  · have em := hag _ (touches_main cfg)
    have es := hag _ (touches_snapKey cfg)
    by_cases hT : h = Tot
    · have : done = [] := chunks_nil ho1 hc1 (prefix_self (by rw [← hT] at hp1; exact hp1))
      subst this
      simp only [keyRun, Except.ok.injEq, Prod.mk.injEq] at hrun
      obtain ⟨-, rfl⟩ := hrun
      exact ⟨hi.ok, hi.pre, hi.noRes, hi.hasRes, by rw [em]; exact hi.bins, by rw [es]; exact hi.snaps,
        by rw [em]; exact hi.wf⟩
    · refine ⟨hi.ok, hi.pre, hi.noRes, hi.hasRes, fun hr => ?_, fun hr f hf => ?_, by rw [em]; exact hi1.wf⟩
      · rw [em, hb, hbb]; exact (hi1.bins hr).replay hT (hlo1.1 hr)
      · rw [es, hsn, hsb]; exact (hi1.snaps hr f hf).replay hT (hlo1.2 hr f hf)
  · obtain ⟨c, rfl⟩ := hch op (by simp)
    have hcne : c ≠ [] := hops c (by simp)
    have hT : h ≠ Tot := by
      rintro rfl
      rw [List.append_assoc] at hpre
      have := prefix_self hpre
      simp [opRows, hcne] at this
    obtain ⟨st3, _, _, hfl, -, -⟩ := aggIter_ok hstep
    have hmid := flushPrev_inv L hV hi1 hfl
    have hlo2 := flushPrev_loose L hV hi1 hfl hlo1 ⟨rfl, rfl, rfl, rfl⟩ hlo1
    refine ⟨hi.ok, hi.pre, hi.noRes, hi.hasRes, fun hr => ?_, fun hr f hf => ?_, by rw [hm]; exact hmid.wf⟩
    · rw [hm, hb, hbb]; exact (hmid.bins hr).replay hT (hlo2.1 hr)
    · rw [hsn, hsb]
      by_cases hboth : cfg.resType = .both
      · have e : cfg.snapKey = cfg.snap := by simp [KeyCfg.snapKey, hboth]
        rw [e, hother cfg.snap (Or.inr ⟨hboth, rfl⟩) (Ne.symm (L.distinct hboth)), ← e]
        exact (hi1.snaps hr f hf).replay hT (hlo1.2 hr f hf)
      · have e : cfg.snapKey = cfg.main := by simp [KeyCfg.snapKey, hboth]
        have := (hmid.snaps hr f hf).replay hT (hlo2.2 hr f hf)
        rw [e, hm]
        rwa [e] at this

/-- Same for row groups, for any settings. -/
theorem keyCrash_loose (L : KeyLaws cfg V FB FS ok gB gS on d) {Tot h : List R} (hV : V Tot) {ops : List (KOp R P)}
    (hops : OpsOk ops) (hch : Chunks ops) {st : KeyBuf A S Q} {w wc : World K A (Md S P Q)}
    (hi : KInv cfg FB FS ok gB gS on d Tot h h st w) (hlo : KLoose cfg FB FS h w)
    (hpre : h ++ opRows ops <+: Tot) (hc : KeyCrash cfg truthy ops st w wc) {cfg' : KeyCfg K R A S Q}
    (hs : SameTarget cfg' cfg) (hlo' : KLoose cfg' FB FS h w) : KLoose cfg' FB FS h wc := by
  obtain ⟨done, rest, st1, w1, rfl, hrun, hc⟩ := hc
  have ho1 : OpsOk done := fun ch hc => hops ch (List.mem_append_left _ hc)
  have hc1 : Chunks done := fun op hc => hch op (List.mem_append_left _ hc)
  rw [opRows_append, ← List.append_assoc] at hpre
  have hp1 : h ++ opRows done <+: Tot := List.IsPrefix.trans ⟨_, rfl⟩ hpre
  have hi1 := keyRun_inv L hV ho1 hi hp1 hrun
  have hlo1 := keyRun_loose L hV ho1 hi hp1 hrun hlo ⟨rfl, rfl, rfl, rfl⟩ hlo
  have hlo1' := keyRun_loose L hV ho1 hi hp1 hrun hlo hs hlo'
  rcases hc with hag | ⟨op, rest', st2, w2, rfl, hstep, hm, hother⟩
  · have em := hag _ (touches_main cfg)
    have es := hag _ (touches_snapKey cfg)
    rw [KLoose, hs.resType, hs.main, hs.snapKey] at hlo1' ⊢
    exact ⟨by rw [em]; exact hlo1'.1, by rw [es]; exact hlo1'.2⟩
  · obtain ⟨c, rfl⟩ := hch op (by simp)
    obtain ⟨st3, _, _, hfl, -, -⟩ := aggIter_ok hstep
    have hlo2 := flushPrev_loose L hV hi1 hfl hlo1 hs hlo1'
    rw [KLoose, hs.resType, hs.main, hs.snapKey] at hlo1' hlo2 ⊢
    refine ⟨by rw [hm]; exact hlo2.1, fun hr f hf => ?_⟩
    by_cases hboth : cfg.resType = .both
    · have e : cfg.snapKey = cfg.snap := by simp [KeyCfg.snapKey, hboth]
      rw [e, hother cfg.snap (Or.inr ⟨hboth, rfl⟩) (Ne.symm (L.distinct hboth)), ← e]
      exact hlo1'.2 hr f hf
    · have e : cfg.snapKey = cfg.main := by simp [KeyCfg.snapKey, hboth]
      have := hlo2.2 hr f hf
      rw [e, hm]
      rwa [e] at this

/-- After a final write, with more rows to come. -/
theorem KInv.advance (L : KeyLaws cfg V FB FS ok gB gS on d) {Tot Tot' h0 h : List R} (hV : V Tot') (hT : Tot <+: Tot')
    {st : KeyBuf A S Q} {w : World K A (Md S P Q)} (hst : st.Rest) (hi : KInv cfg FB FS ok gB gS on d Tot h0 h st w) :
    KInv cfg FB FS ok gB gS on d Tot' h h st w := by
  have hb : st.bin = none := by rw [hst]
  have hbb : st.binBuf = [] := by rw [hst]
  have hsn : st.snap = none := by rw [hst]
  have hsb : st.snapBuf = [] := by rw [hst]
  refine ⟨hi.ok, hi.pre.trans hT, hi.noRes, hi.hasRes, fun hr => ?_, fun hr f hf => ?_, hi.wf⟩
  · have := hi.bins hr
    rw [hb, hbb] at this ⊢
    exact (this.extend (L.bins hr) hV hT hi.pre).rebase
  · have := hi.snaps hr f hf
    rw [hsn, hsb] at this ⊢
    obtain ⟨f', hf', law⟩ := L.snaps hr
    rw [hf, Option.some.injEq] at hf'
    subst hf'
    exact (this.extend law hV hT hi.pre).rebase

/-- With what is stored after a final write, from the row groups. -/
theorem KInv.loose {h0 h : List R} {st : KeyBuf A S Q} {w : World K A (Md S P Q)} (hst : st.Rest)
    (hi : KInv cfg FB FS ok gB gS on d h h0 h st w) (hs : KeySafe cfg w) : KLoose cfg FB FS h w := by
  have key : ∀ {p : Params} {F : List R → List (Row A)} {g : Row A → Row A} {base : List (Row A)} {rgs : List (RG (Row A))},
      TrackOk p F g cfg.table on d h base h [] none rgs → ReplaySafe p rgs → Loose p (F h).dropLast.length rgs := by
    intro p F g base rgs ht hr
    have he := ht.exact_none
    obtain ⟨-, _, -, -, hso, -⟩ := ht
    refine hr.imp id ?_
    rintro ⟨m, r, r', rs, hm, rfl, hc⟩
    refine ⟨m, r, r' :: rs, hm, rfl, hc, ?_⟩
    have hne : r'.rows ≠ [] := (hso.along.layout.1 r'.rows (by simp)).1
    have hl := congrArg List.length he
    simp only [readRows, List.map_cons, List.flatten_cons, List.length_append, List.length_map] at hl
    have := List.length_pos_iff.2 hne
    rw [List.length_dropLast]
    omega
  rw [hst] at hi
  refine ⟨fun hr => key (hi.bins hr) hs.1, fun hr f hf => key (hi.snaps hr f hf) ?_⟩
  unfold KeyCfg.snapPars KeyCfg.snapKey
  split
  · rename_i hb; exact hs.2 hb
  · exact hs.1

theorem KInv.rest {Tot h0 h : List R} {st : KeyBuf A S Q} {w : World K A (Md S P Q)}
    (hi : KInv cfg FB FS ok gB gS on d Tot h0 h st w) (hb : st.bin = none) : st.Rest := by
  obtain ⟨h1, h2, h3, h4⟩ := hi.noRes hb
  obtain ⟨_, _, _, _, _, _, _⟩ := st
  simp only at hb h1 h2 h3 h4
  subst hb h1 h2 h3 h4
  rfl

end
end Oups.AggStream
