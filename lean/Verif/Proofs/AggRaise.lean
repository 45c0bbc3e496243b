import Verif.Spec.AggRaise
import Verif.Proofs.AggCrash
/-! What an exception leaves, and what can be done from there. -/
set_option linter.unusedSimpArgs false
namespace Oups.AggStream
open Oups.Writer (Table Params RG Col DupOn dupCols readRows StrictOn Along)
open Oups.Agg (Res AggErr)

section
variable {K R A S P Q : Type} [DecidableEq K]
variable {cfg : KeyCfg K R A S Q} {truthy : Int → Bool} {left : List R → S → S}

/-! ### Same results when nothing is raised -/

theorem postNWriteR_none {al : Bool} {fin : Option (Int × P)} {st st' : KeyBuf A S Q} {w w' : World K A (Md S P Q)} :
    postNWriteR cfg truthy al fin st w = (st', w', none) ↔ postNWrite cfg truthy al fin st w = .ok (st', w') := by
  simp only [postNWriteR, postNWrite]
  cases results cfg al st with
  | error e => simp
  | ok r =>
    obtain ⟨q, main, snap⟩ := r
    cases hw : writeResults cfg (pendingMd truthy fin st.seg q) main snap w with
    | error e => simp [hw]
    | ok w1 => simp [hw]

theorem postNWriteR_some {al : Bool} {fin : Option (Int × P)} {st st' : KeyBuf A S Q} {w w' : World K A (Md S P Q)} {e : Err}
    (h : postNWriteR cfg truthy al fin st w = (st', w', some e)) : postNWrite cfg truthy al fin st w = .error e := by
  simp only [postNWriteR, postNWrite] at h ⊢
  cases hr : results cfg al st with
  | error e => simp only [hr, Prod.mk.injEq, Option.some.injEq] at h ⊢; rw [h.2.2]
  | ok r =>
    obtain ⟨q, main, snap⟩ := r
    simp only [hr] at h ⊢
    cases hw : writeResults cfg (pendingMd truthy fin st.seg q) main snap w with
    | error e => simp only [hw, Prod.mk.injEq, Option.some.injEq] at h ⊢; rw [h.2.2]
    | ok w1 => simp [hw] at h

theorem flushPrevR_none {st st' : KeyBuf A S Q} {w w' : World K A (Md S P Q)} :
    flushPrevR cfg truthy st w = (st', w', none) ↔ flushPrev cfg truthy st w = .ok (st', w') := by
  simp only [flushPrevR, flushPrev]
  cases st.bin with
  | none => simp
  | some b =>
    simp only
    split
    · simp
    · split
      · exact postNWriteR_none
      · simp

theorem flushPrevR_some {st st' : KeyBuf A S Q} {w w' : World K A (Md S P Q)} {e : Err}
    (h : flushPrevR cfg truthy st w = (st', w', some e)) : flushPrev cfg truthy st w = .error e := by
  simp only [flushPrevR, flushPrev] at h ⊢
  cases hb : st.bin with
  | none => simp [hb] at h
  | some b =>
    simp only [hb] at h ⊢
    split at h
    · simp at h
    · rename_i hbe
      split at h
      · rename_i hs
        simp only [Bool.not_eq_true] at hbe
        simp only [hbe, Bool.false_eq_true, if_false, hs, if_true]
        exact postNWriteR_some h
      · simp at h

theorem aggIterR_none {chunk : List R} {st st' : KeyBuf A S Q} {w w' : World K A (Md S P Q)} :
    aggIterR cfg left truthy chunk st w = (st', w', none) ↔ aggIter cfg truthy chunk st w = .ok (st', w') := by
  simp only [aggIterR, aggIter]
  rcases hf : flushPrevR cfg truthy st w with ⟨st1, w1, _ | e⟩
  · rw [flushPrevR_none.1 hf]
    simp only
    cases cfg.call chunk st1.seg with
    | error e => simp
    | ok r => obtain ⟨res, seg⟩ := r; simp
  · rw [flushPrevR_some hf]
    simp

theorem aggIterR_some {chunk : List R} {st st' : KeyBuf A S Q} {w w' : World K A (Md S P Q)} {e : Err}
    (h : aggIterR cfg left truthy chunk st w = (st', w', some e)) : aggIter cfg truthy chunk st w = .error e := by
  simp only [aggIterR, aggIter] at h ⊢
  rcases hf : flushPrevR cfg truthy st w with ⟨st1, w1, _ | e'⟩
  · rw [flushPrevR_none.1 hf]
    simp only [hf] at h ⊢
    cases hc : cfg.call chunk st1.seg with
    | error e => simp only [hc, Prod.mk.injEq, Option.some.injEq] at h ⊢; rw [h.2.2]
    | ok r => obtain ⟨res, seg⟩ := r; simp [hc] at h
  · rw [flushPrevR_some hf]
    simp only [hf, Prod.mk.injEq, Option.some.injEq] at h ⊢
    rw [h.2.2]

/-! ### A key does not depend on the datasets of others -/

theorem writeLeft_local (md : Option (Md S P Q)) (main : Option (List (Row A)))
    {w1 w2 : World K A (Md S P Q)} (h : Agree cfg w1 w2) :
    Agree cfg (writeLeft cfg md main w1) (writeLeft cfg md main w2) ∧
      (∀ k, ¬ cfg.touches k → writeLeft cfg md main w1 k = w1 k) := by
  have hm := h _ (touches_main cfg)
  simp only [writeLeft]
  cases main with
  | none => exact ⟨h, fun _ _ => rfl⟩
  | some rows =>
    simp only [hm]
    cases storeSet cfg.table cfg.params (w2 cfg.main) rows md with
    | error e => exact ⟨h, fun _ _ => rfl⟩
    | ok d =>
      refine ⟨fun k hk => ?_, fun k hk => set_other _ _ fun e => hk (e ▸ touches_main cfg)⟩
      by_cases e : k = cfg.main
      · subst e; simp only [set_same]
      · simp only [set_other _ _ e]; exact h k hk

theorem postNWriteR_local (al : Bool) (fin : Option (Int × P)) (st : KeyBuf A S Q) {w1 w2 : World K A (Md S P Q)}
    (h : Agree cfg w1 w2) :
    (postNWriteR cfg truthy al fin st w1).1 = (postNWriteR cfg truthy al fin st w2).1 ∧
    (postNWriteR cfg truthy al fin st w1).2.2 = (postNWriteR cfg truthy al fin st w2).2.2 ∧
    Agree cfg (postNWriteR cfg truthy al fin st w1).2.1 (postNWriteR cfg truthy al fin st w2).2.1 ∧
    (∀ k, ¬ cfg.touches k → (postNWriteR cfg truthy al fin st w1).2.1 k = w1 k) := by
  simp only [postNWriteR]
  cases results cfg al st with
  | error e => exact ⟨rfl, rfl, h, fun _ _ => rfl⟩
  | ok r =>
    obtain ⟨q, main, snap⟩ := r
    simp only
    have hw := writeResults_local cfg (pendingMd truthy fin st.seg q) main snap h
    have hl := writeLeft_local (cfg := cfg) (pendingMd truthy fin st.seg q) main h
    cases h1 : writeResults cfg (pendingMd truthy fin st.seg q) main snap w1 with
    | error e1 =>
      cases h2 : writeResults cfg (pendingMd truthy fin st.seg q) main snap w2 with
      | ok _ => simp [h1, h2] at hw
      | error e2 =>
        simp only [h1, h2] at hw
        exact ⟨rfl, by rw [hw], hl.1, hl.2⟩
    | ok w1' =>
      cases h2 : writeResults cfg (pendingMd truthy fin st.seg q) main snap w2 with
      | error _ => simp [h1, h2] at hw
      | ok w2' =>
        simp only [h1, h2] at hw
        exact ⟨rfl, rfl, hw.1, hw.2.1⟩

theorem flushPrevR_local (st : KeyBuf A S Q) {w1 w2 : World K A (Md S P Q)} (h : Agree cfg w1 w2) :
    (flushPrevR cfg truthy st w1).1 = (flushPrevR cfg truthy st w2).1 ∧
    (flushPrevR cfg truthy st w1).2.2 = (flushPrevR cfg truthy st w2).2.2 ∧
    Agree cfg (flushPrevR cfg truthy st w1).2.1 (flushPrevR cfg truthy st w2).2.1 ∧
    (∀ k, ¬ cfg.touches k → (flushPrevR cfg truthy st w1).2.1 k = w1 k) := by
  simp only [flushPrevR]
  cases st.bin with
  | none => exact ⟨rfl, rfl, h, fun _ _ => rfl⟩
  | some b =>
    simp only
    split
    · exact ⟨rfl, rfl, h, fun _ _ => rfl⟩
    · split
      · exact postNWriteR_local _ _ _ h
      · exact ⟨rfl, rfl, h, fun _ _ => rfl⟩

theorem aggIterR_local (chunk : List R) (st : KeyBuf A S Q) {w1 w2 : World K A (Md S P Q)} (h : Agree cfg w1 w2) :
    (aggIterR cfg left truthy chunk st w1).1 = (aggIterR cfg left truthy chunk st w2).1 ∧
    (aggIterR cfg left truthy chunk st w1).2.2 = (aggIterR cfg left truthy chunk st w2).2.2 ∧
    Agree cfg (aggIterR cfg left truthy chunk st w1).2.1 (aggIterR cfg left truthy chunk st w2).2.1 ∧
    (∀ k, ¬ cfg.touches k → (aggIterR cfg left truthy chunk st w1).2.1 k = w1 k) := by
  obtain ⟨e1, e2, e3, e4⟩ := flushPrevR_local (truthy := truthy) st h
  simp only [aggIterR]
  rcases h1 : flushPrevR cfg truthy st w1 with ⟨st1, w1', x1⟩
  rcases h2 : flushPrevR cfg truthy st w2 with ⟨st2, w2', x2⟩
  simp only [h1, h2] at e1 e2 e3 e4
  subst e1 e2
  cases x1 with
  | some e => exact ⟨rfl, rfl, e3, e4⟩
  | none =>
    simp only
    cases cfg.call chunk st1.seg with
    | error e => exact ⟨rfl, rfl, e3, e4⟩
    | ok r => exact ⟨rfl, rfl, e3, e4⟩

/-! ### Datasets of a key that raised -/

/-- Nothing written; or the intermediate write was done; or, for two keys, the first half of it. -/
theorem aggIterR_world {chunk : List R} {st stc : KeyBuf A S Q} {w wc : World K A (Md S P Q)} {e : Err}
    (h : aggIterR cfg left truthy chunk st w = (stc, wc, some e)) :
    wc = w ∨ (∃ st', flushPrev cfg truthy st w = .ok (st', wc)) ∨
    ∃ b q rows snap d, st.bin = some b ∧ cfg.resType = .both ∧
      results cfg false (pushPrev cfg st b) = .ok (q, some rows, snap) ∧
      storeSet cfg.table cfg.params (w cfg.main) rows none = .ok d ∧ wc = w.set cfg.main d := by
  simp only [aggIterR] at h
  rcases hf : flushPrevR cfg truthy st w with ⟨st1, w1, _ | e'⟩
  · simp only [hf] at h
    cases hc : cfg.call chunk st1.seg with
    | ok r => obtain ⟨res, seg⟩ := r; simp [hc] at h
    | error e =>
      simp only [hc, Prod.mk.injEq] at h
      rw [← h.2.1]
      exact Or.inr (Or.inl ⟨st1, flushPrevR_none.1 hf⟩)
  · simp only [hf, Prod.mk.injEq] at h
    obtain ⟨-, rfl, -⟩ := h
    simp only [flushPrevR] at hf
    cases hb : st.bin with
    | none => simp [hb] at hf
    | some b =>
      simp only [hb] at hf
      split at hf
      · simp at hf
      · split at hf
        · simp only [postNWriteR] at hf
          cases hr : results cfg false (pushPrev cfg st b) with
          | error _ => simp only [hr, Prod.mk.injEq] at hf; exact Or.inl hf.2.1.symm
          | ok r =>
            obtain ⟨q, main, snap⟩ := r
            simp only [hr, pendingMd] at hf
            cases hw : writeResults cfg (none : Option (Md S P Q)) main snap w with
            | ok _ => simp [hw] at hf
            | error e2 =>
              simp only [hw, Prod.mk.injEq] at hf
              obtain ⟨-, hf, -⟩ := hf
              subst hf
              cases main with
              | none => exact Or.inl rfl
              | some rows =>
                simp only [writeLeft]
                cases hs : storeSet cfg.table cfg.params (w cfg.main) rows none with
                | error _ => exact Or.inl rfl
                | ok d =>
                  refine Or.inr (Or.inr ⟨b, q, rows, snap, d, rfl, ?_, hr, hs, rfl⟩)
                  by_cases hboth : cfg.resType = .both
                  · exact hboth
                  · simp [writeResults, hs, hboth] at hw
        · simp at hf

/-! ### Recovery -/

variable {V : List R → Prop} {FB : List R → List (Row A)}
  {FS : Option (List R → List (Row A))} {ok : List R → S → Prop} {gB gS : Row A → Row A} {on : Col} {d : DupOn}

theorem opRows_map (l : List (List R)) : opRows (l.map fun c => (.chunk c : KOp R P)) = l.flatten := by
  induction l with
  | nil => rfl
  | cons c l ih => simp [opRows, ih]

/-- What is on disk after an exception is as after the last final write, for a stream that is run again beyond what had been
processed. -/
theorem keyLeft_inv (L : KeyLaws cfg V FB FS ok gB gS on d) {Tot h : List R} (hV : V Tot) {chunks done : List (List R)}
    (hne : ∀ c ∈ chunks, c ≠ []) {st stc : KeyBuf A S Q} {w wc : World K A (Md S P Q)} (hst : st.Rest)
    (hi : KInv cfg FB FS ok gB gS on d Tot h h st w) (hpre : h ++ done.flatten <+: Tot)
    (hc : KeyLeft cfg left truthy chunks st w done stc wc) :
    Kept cfg w wc ∧ (KLoose cfg FB FS h w → KInv cfg FB FS ok gB gS on d Tot h h st wc) := by
  obtain ⟨rest, st1, w1, rfl, hrun, hc⟩ := hc
  have hb : st.bin = none := by rw [hst]
  have hbb : st.binBuf = [] := by rw [hst]
  have hsn : st.snap = none := by rw [hst]
  have hsb : st.snapBuf = [] := by rw [hst]
  have ho1 : OpsOk (done.map fun c => (.chunk c : KOp R P)) := by
    intro ch hch
    obtain ⟨c, hcm, he⟩ := List.mem_map.1 hch
    simp only [KOp.chunk.injEq] at he
    exact he ▸ hne c (List.mem_append_left _ hcm)
  have hc1 : Chunks (done.map fun c => (.chunk c : KOp R P)) := by
    intro op hop
    obtain ⟨c, -, he⟩ := List.mem_map.1 hop
    exact ⟨c, he.symm⟩
  have hp1 : h ++ opRows (done.map fun c => (.chunk c : KOp R P)) <+: Tot := by rw [opRows_map]; exact hpre
  have hi1 := keyRun_inv L hV ho1 hi hp1 hrun
  have hk1 := keyRun_kept L hV ho1 hc1 hi hp1 hrun
  have hlo1 := fun hlo => keyRun_loose L hV ho1 hi hp1 hrun hlo ⟨rfl, rfl, rfl, rfl⟩ hlo
  rw [opRows_map] at hi1
  -- datasets as after the frames processed
  have agree : ∀ {wc : World K A (Md S P Q)}, (∀ k, cfg.touches k → wc k = w1 k) →
      Kept cfg w wc ∧ (KLoose cfg FB FS h w → KInv cfg FB FS ok gB gS on d Tot h h st wc) := by
    intro wc hag
    have em := hag _ (touches_main cfg)
    have es := hag _ (touches_snapKey cfg)
    refine ⟨fun hne => by rw [em]; exact hk1 hne, fun hlo => ?_⟩
    have hlo1 := hlo1 hlo
    by_cases hT : h = Tot
    · have : done.map (fun c => (.chunk c : KOp R P)) = [] :=
        chunks_nil ho1 hc1 (prefix_self (by rw [← hT] at hp1; exact hp1))
      rw [this] at hrun
      simp only [keyRun, Except.ok.injEq, Prod.mk.injEq] at hrun
      obtain ⟨-, rfl⟩ := hrun
      exact ⟨hi.ok, hi.pre, hi.noRes, hi.hasRes, by rw [em]; exact hi.bins, by rw [es]; exact hi.snaps,
        by rw [em]; exact hi.wf⟩
    · refine ⟨hi.ok, hi.pre, hi.noRes, hi.hasRes, fun hr => ?_, fun hr f hf => ?_, by rw [em]; exact hi1.wf⟩
      · rw [em, hb, hbb]; exact (hi1.bins hr).replay hT (hlo1.1 hr)
      · rw [es, hsn, hsb]; exact (hi1.snaps hr f hf).replay hT (hlo1.2 hr f hf)
  rcases hc with ⟨-, hag⟩ | ⟨c, rest', w2, e, rfl, hit, hag⟩
  · exact agree hag
  · by_cases hT : h = Tot
    · -- nothing was processed: nothing to write
      have h0 : done.map (fun c => (.chunk c : KOp R P)) = [] :=
        chunks_nil ho1 hc1 (prefix_self (by rw [← hT] at hp1; exact hp1))
      rw [h0] at hrun
      simp only [keyRun, Except.ok.injEq, Prod.mk.injEq] at hrun
      obtain ⟨rfl, rfl⟩ := hrun
      rcases aggIterR_world hit with rfl | ⟨st', hfl⟩ | ⟨b, _, _, _, _, hb', -⟩
      · exact agree hag
      · simp only [flushPrev, hb, Except.ok.injEq, Prod.mk.injEq] at hfl
        rw [← hfl.2] at hag
        exact agree hag
      · rw [hb] at hb'; cases hb'
    · rcases aggIterR_world hit with rfl | ⟨st', hfl⟩ | ⟨b, q, rows, snap, dd, hb', hboth, hres, hset, rfl⟩
      · exact agree hag
      · have hmid := flushPrev_inv L hV hi1 hfl
        have hk2 := hk1.trans (flushPrev_kept L hV hi1 hfl)
        have em := hag _ (touches_main cfg)
        have es := hag _ (touches_snapKey cfg)
        refine ⟨fun hne => by rw [em]; exact hk2 hne, fun hlo =>
          ⟨hi.ok, hi.pre, hi.noRes, hi.hasRes, fun hr => ?_, fun hr f hf => ?_, by rw [em]; exact hmid.wf⟩⟩
        · rw [em, hb, hbb]; exact (hmid.bins hr).replay hT ((flushPrev_loose L hV hi1 hfl (hlo1 hlo) ⟨rfl, rfl, rfl, rfl⟩ (hlo1 hlo)).1 hr)
        · rw [es, hsn, hsb]; exact (hmid.snaps hr f hf).replay hT ((flushPrev_loose L hV hi1 hfl (hlo1 hlo) ⟨rfl, rfl, rfl, rfl⟩ (hlo1 hlo)).2 hr f hf)
      · have em := hag _ (touches_main cfg)
        have es := hag _ (touches_snapKey cfg)
        have e : cfg.snapKey = cfg.snap := by simp [KeyCfg.snapKey, hboth]
        rw [set_same] at em
        rw [e, set_other _ _ (Ne.symm (L.distinct hboth)), ← e] at es
        obtain ⟨s1, s2, -, s3⟩ := storeSet_ok hset
        obtain ⟨hbne, hsnp⟩ := hi1.hasRes b hb'
        have hr : cfg.resType ≠ .snaps := by rw [hboth]; simp
        have hrows := (results_spec L.post hres (b := b) hb' (fun h => by
          obtain ⟨s, hs⟩ := hsnp h
          exact ⟨s, hs⟩)).1 hr
        rw [Option.some.injEq] at hrows
        have ht := hi1.bins hr
        rw [hb'] at ht
        have hwr := ht.mid_push.write (L.bins hr) L.wmain hV hi1.pre (rgs' := dd.rgs) (by
          rw [← s1, hrows]; rfl)
        refine ⟨?_, fun hlo => ⟨hi.ok, hi.pre, hi.noRes, hi.hasRes, fun _ => ?_, fun hr f hf => ?_, by rw [em, s2]; simp⟩⟩
        · intro hne
          obtain ⟨k1, k2, k3⟩ := hk1 hne
          rw [em]
          exact ⟨hwr.2.1 k1, (s3 rfl k1).trans k2, fun _ => s2⟩
        · rw [em, hb, hbb]; exact hwr.1.replay hT (hwr.2.2 ((hlo1 hlo).1 hr) _ ((hlo1 hlo).1 hr))
        · rw [es, hsn, hsb]; exact (hi1.snaps hr f hf).replay hT ((hlo1 hlo).2 hr f hf)
end

section
variable {K R A S P Q F : Type} [DecidableEq K] [DecidableEq F]
variable {left : List R → S → S} {truthy : Int → Bool}

/-! ### Jobs one after the other -/

theorem forKeysR_frame {sel : F → Bool} {chunk : List R} {keys : List (F × KeyCfg K R A S Q)} {bs bs' : List (KeyBuf A S Q)}
    {w w' : World K A (Md S P Q)} {x : Option Err}
    (h : forKeysR sel (fun cfg => aggIterR cfg left truthy chunk) keys bs w = (bs', w', x)) {y : K}
    (hy : ∀ k ∈ keys, ¬ k.2.touches y) : w' y = w y := by
  induction keys generalizing bs bs' w w' x with
  | nil => simp only [forKeysR, Prod.mk.injEq] at h; rw [h.2.1]
  | cons k ks ih =>
    cases bs with
    | nil => simp only [forKeysR, Prod.mk.injEq] at h; rw [h.2.1]
    | cons b bs =>
      simp only [forKeysR] at h
      have hks : ∀ k' ∈ ks, ¬ k'.2.touches y := fun k' hk' => hy k' (List.mem_cons_of_mem _ hk')
      split at h
      · have hl := (aggIterR_local (left := left) (truthy := truthy) (cfg := k.2) chunk b (w1 := w) (w2 := w)
          (fun _ _ => rfl)).2.2.2 y (hy k (by simp))
        rcases hf : aggIterR k.2 left truthy chunk b w with ⟨b1, w1, _ | e⟩
        · simp only [hf] at h hl
          rcases hr : forKeysR sel (fun cfg => aggIterR cfg left truthy chunk) ks bs w1 with ⟨bs2, w2, x2⟩
          simp only [hr, Prod.mk.injEq] at h
          rw [← h.2.1, ih hr hks, hl]
        · simp only [hf, Prod.mk.injEq] at h hl
          rw [← h.2.1, hl]
      · rcases hr : forKeysR sel (fun cfg => aggIterR cfg left truthy chunk) ks bs w with ⟨bs2, w2, x2⟩
        simp only [hr, Prod.mk.injEq] at h
        rw [← h.2.1, ih hr hks]

/-- Each key is untouched, or has processed the frame, or raised. -/
theorem forKeysR_key {sel : F → Bool} {chunk : List R} {keys : List (F × KeyCfg K R A S Q)} (hk : Apart keys)
    {bs bs' : List (KeyBuf A S Q)} {w w' : World K A (Md S P Q)} {x : Option Err}
    (h : forKeysR sel (fun cfg => aggIterR cfg left truthy chunk) keys bs w = (bs', w', x))
    {i : Nat} {k : F × KeyCfg K R A S Q} {b : KeyBuf A S Q} (hi : keys[i]? = some k) (hb : bs[i]? = some b) :
    ∃ b', bs'[i]? = some b' ∧
      ((b' = b ∧ Agree k.2 w' w ∧ (x = none → sel k.1 = false)) ∨
       (sel k.1 = true ∧ ∃ w2, aggIterR k.2 left truthy chunk b w = (b', w2, none) ∧ Agree k.2 w' w2) ∨
       (sel k.1 = true ∧ x ≠ none ∧ ∃ w2 e, aggIterR k.2 left truthy chunk b w = (b', w2, some e) ∧ Agree k.2 w' w2)) := by
  induction keys generalizing bs bs' w w' x i with
  | nil => simp at hi
  | cons k0 ks ih =>
    cases bs with
    | nil => simp at hb
    | cons b0 bs =>
      simp only [Apart, List.pairwise_cons] at hk
      obtain ⟨hk0, hks⟩ := hk
      simp only [forKeysR] at h
      split at h
      · rename_i hsel
        rcases hf : aggIterR k0.2 left truthy chunk b0 w with ⟨b1, w1, _ | e⟩
        · simp only [hf] at h
          rcases hr : forKeysR sel (fun cfg => aggIterR cfg left truthy chunk) ks bs w1 with ⟨bs2, w2, x2⟩
          simp only [hr, Prod.mk.injEq] at h
          obtain ⟨rfl, rfl, rfl⟩ := h
          have hfr := (aggIterR_local (left := left) (truthy := truthy) (cfg := k0.2) chunk b0 (w1 := w) (w2 := w)
            (fun _ _ => rfl)).2.2.2
          rw [hf] at hfr
          cases i with
          | zero =>
            simp only [List.getElem?_cons_zero, Option.some.injEq] at hi hb ⊢
            subst hi hb
            refine ⟨b1, rfl, Or.inr (Or.inl ⟨hsel, w1, hf, fun y hy => ?_⟩)⟩
            exact forKeysR_frame hr fun k' hk' ht => hk0 k' hk' y hy ht
          | succ i =>
            simp only [List.getElem?_cons_succ] at hi hb ⊢
            have hkm : k ∈ ks := List.mem_of_getElem? hi
            have ha : Agree k.2 w1 w := fun y hy => hfr y fun ht => hk0 k hkm y ht hy
            obtain ⟨b', e1, e2⟩ := ih hks hr hi hb
            refine ⟨b', e1, ?_⟩
            have hloc := aggIterR_local (left := left) (truthy := truthy) (cfg := k.2) chunk b ha
            rcases e2 with ⟨rfl, e3, e4⟩ | ⟨e3, v, e4, e5⟩ | ⟨e3, e6, v, e, e4, e5⟩
            · exact Or.inl ⟨rfl, fun y hy => (e3 y hy).trans (ha y hy), e4⟩
            · rw [e4] at hloc
              rcases hq : aggIterR k.2 left truthy chunk b w with ⟨q1, q2, q3⟩
              rw [hq] at hloc
              obtain ⟨l1, l2, l3, -⟩ := hloc
              simp only at l1 l2 l3
              subst l1 l2
              exact Or.inr (Or.inl ⟨e3, q2, rfl, fun y hy => (e5 y hy).trans (l3 y hy)⟩)
            · rw [e4] at hloc
              rcases hq : aggIterR k.2 left truthy chunk b w with ⟨q1, q2, q3⟩
              rw [hq] at hloc
              obtain ⟨l1, l2, l3, -⟩ := hloc
              simp only at l1 l2 l3
              subst l1 l2
              exact Or.inr (Or.inr ⟨e3, e6, q2, e, rfl, fun y hy => (e5 y hy).trans (l3 y hy)⟩)
        · simp only [hf, Prod.mk.injEq] at h
          obtain ⟨rfl, rfl, rfl⟩ := h
          have hfr := (aggIterR_local (left := left) (truthy := truthy) (cfg := k0.2) chunk b0 (w1 := w) (w2 := w)
            (fun _ _ => rfl)).2.2.2
          rw [hf] at hfr
          cases i with
          | zero =>
            simp only [List.getElem?_cons_zero, Option.some.injEq] at hi hb ⊢
            subst hi hb
            exact ⟨b1, rfl, Or.inr (Or.inr ⟨hsel, by simp, w1, e, hf, fun _ _ => rfl⟩)⟩
          | succ i =>
            simp only [List.getElem?_cons_succ] at hi hb ⊢
            have hkm : k ∈ ks := List.mem_of_getElem? hi
            exact ⟨b, hb, Or.inl ⟨rfl, fun y hy => hfr y fun ht => hk0 k hkm y ht hy, by simp⟩⟩
      · rename_i hsel
        rcases hr : forKeysR sel (fun cfg => aggIterR cfg left truthy chunk) ks bs w with ⟨bs2, w2, x2⟩
        simp only [hr, Prod.mk.injEq] at h
        obtain ⟨rfl, rfl, rfl⟩ := h
        cases i with
        | zero =>
          simp only [List.getElem?_cons_zero, Option.some.injEq] at hi hb ⊢
          subst hi hb
          refine ⟨b0, rfl, Or.inl ⟨rfl, fun y hy => ?_, fun _ => by simpa using hsel⟩⟩
          exact forKeysR_frame hr fun k' hk' ht => hk0 k' hk' y hy ht
        | succ i =>
          simp only [List.getElem?_cons_succ] at hi hb ⊢
          exact ih hks hr hi hb

/-- Same datasets at the start. -/
theorem KeyLeft.of_agree {cfg : KeyCfg K R A S Q} {chunks done : List (List R)} {st stc : KeyBuf A S Q}
    {w v wc : World K A (Md S P Q)} (ha : Agree cfg w v) (h : KeyLeft cfg left truthy chunks st w done stc wc) :
    KeyLeft cfg left truthy chunks st v done stc wc := by
  obtain ⟨rest, st1, w1, rfl, hrun, hc⟩ := h
  have hl := keyRun_local cfg truthy (done.map fun c => (.chunk c : KOp R P)) st ha
  rw [hrun] at hl
  cases hv : keyRun cfg truthy (done.map fun c => (.chunk c : KOp R P)) st v with
  | error e => rw [hv] at hl; exact hl.elim
  | ok r =>
    obtain ⟨st2, v1⟩ := r
    rw [hv] at hl
    obtain ⟨rfl, l2, -, -⟩ := hl
    refine ⟨rest, st1, v1, rfl, hv, ?_⟩
    rcases hc with ⟨rfl, hag⟩ | ⟨c, rest', w2, e, rfl, hit, hag⟩
    · exact Or.inl ⟨rfl, fun y hy => (hag y hy).trans (l2 y hy)⟩
    · have hloc := aggIterR_local (left := left) (truthy := truthy) (cfg := cfg) c st1 l2
      rw [hit] at hloc
      rcases hq : aggIterR cfg left truthy c st1 v1 with ⟨q1, q2, q3⟩
      rw [hq] at hloc
      obtain ⟨m1, m2, m3, -⟩ := hloc
      simp only at m1 m2 m3
      subst m1 m2
      exact Or.inr ⟨c, rest', q2, e, rfl, hq, fun y hy => (hag y hy).trans (m3 y hy)⟩

/-- One frame more at the start. -/
theorem KeyLeft.cons {cfg : KeyCfg K R A S Q} {c : List R} {chunks done : List (List R)} {st st1 stc : KeyBuf A S Q}
    {w w1 wc : World K A (Md S P Q)} (h1 : aggIter cfg truthy c st w = .ok (st1, w1))
    (h : KeyLeft cfg left truthy chunks st1 w1 done stc wc) :
    KeyLeft cfg left truthy (c :: chunks) st w (c :: done) stc wc := by
  obtain ⟨rest, st2, w2, rfl, hrun, hc⟩ := h
  refine ⟨rest, st2, w2, rfl, ?_, hc⟩
  simp only [List.map_cons, keyRun, keyStep, h1, hrun]

theorem aggLoopR_left {c : Config K R A S P Q F} (hk : Apart c.keys) {ys : List (Yield F R)} {r r' : Option Int}
    {bs bs' : List (KeyBuf A S Q)} {w w' : World K A (Md S P Q)} {e : Err}
    (h : aggLoopR c left ys r bs w = (r', bs', w', some e))
    {i : Nat} {k : F × KeyCfg K R A S Q} {b : KeyBuf A S Q} (hi : c.keys[i]? = some k) (hb : bs[i]? = some b) :
    ∃ done b', bs'[i]? = some b' ∧
      KeyLeft k.2 left c.truthy ((ys.filter fun y => decide (y.filt = k.1)).map Yield.rows) b w done b' w' := by
  induction ys generalizing r bs w b with
  | nil => simp [aggLoopR] at h
  | cons y ys ih =>
    simp only [aggLoopR] at h
    rcases hf : forKeysR (fun f => decide (f = y.filt)) (fun cfg => aggIterR cfg left c.truthy y.rows) c.keys bs w with
      ⟨bs1, w1, x⟩
    obtain ⟨b1, e1, e2⟩ := forKeysR_key hk hf hi hb
    cases x with
    | none =>
      simp only [hf] at h
      obtain ⟨done, b', e3, e4⟩ := ih h e1
      rcases e2 with ⟨rfl, e5, e6⟩ | ⟨e5, v, e6, e7⟩ | ⟨-, e5, -⟩
      · have hs := e6 rfl
        simp only [decide_eq_false_iff_not] at hs
        refine ⟨done, b', e3, ?_⟩
        rw [List.filter_cons_of_neg (by simpa using fun h => hs h.symm)]
        exact e4.of_agree e5
      · simp only [decide_eq_true_eq] at e5
        refine ⟨y.rows :: done, b', e3, ?_⟩
        rw [List.filter_cons_of_pos (by simp [e5]), List.map_cons]
        exact (e4.of_agree e7).cons (aggIterR_none.1 e6)
      · exact absurd rfl e5
    | some e' =>
      simp only [hf, Prod.mk.injEq] at h
      obtain ⟨-, rfl, rfl, -⟩ := h
      rcases e2 with ⟨rfl, e5, -⟩ | ⟨e5, v, e6, e7⟩ | ⟨e5, -, v, e, e6, e7⟩
      · exact ⟨[], b1, e1, _, b1, w, rfl, rfl, Or.inl ⟨rfl, e5⟩⟩
      · simp only [decide_eq_true_eq] at e5
        refine ⟨[y.rows], b1, e1, ?_⟩
        rw [List.filter_cons_of_pos (by simp [e5]), List.map_cons]
        refine KeyLeft.cons (aggIterR_none.1 e6) ⟨_, b1, v, rfl, rfl, Or.inl ⟨rfl, e7⟩⟩
      · simp only [decide_eq_true_eq] at e5
        refine ⟨[], b1, e1, ?_⟩
        rw [List.filter_cons_of_pos (by simp [e5]), List.map_cons]
        exact ⟨_, b, w, rfl, rfl, Or.inr ⟨y.rows, _, v, e, rfl, e6, e7⟩⟩

theorem forKeysR_eq (sel : F → Bool) (chunk : List R) (keys : List (F × KeyCfg K R A S Q)) (bs : List (KeyBuf A S Q))
    (w : World K A (Md S P Q)) :
    forKeys sel (fun cfg => aggIter cfg truthy chunk) keys bs w =
      match forKeysR sel (fun cfg => aggIterR cfg left truthy chunk) keys bs w with
      | (bs, w, none) => .ok (bs, w)
      | (_, _, some e) => .error e := by
  induction keys generalizing bs w with
  | nil => simp [forKeysR, forKeys]
  | cons k ks ih =>
    cases bs with
    | nil => simp [forKeysR, forKeys]
    | cons b bs =>
      simp only [forKeysR, forKeys]
      split
      · rcases hf : aggIterR k.2 left truthy chunk b w with ⟨b1, w1, _ | e⟩
        · rw [aggIterR_none.1 hf]
          simp only [ih bs w1]
          rcases forKeysR sel (fun cfg => aggIterR cfg left truthy chunk) ks bs w1 with ⟨bs2, w2, _ | e⟩ <;> rfl
        · rw [aggIterR_some hf]
      · rw [ih bs w]
        rcases forKeysR sel (fun cfg => aggIterR cfg left truthy chunk) ks bs w with ⟨bs2, w2, _ | e⟩ <;> rfl

theorem aggLoopR_eq (c : Config K R A S P Q F) (ys : List (Yield F R)) (r : Option Int)
    (bs : List (KeyBuf A S Q)) (w : World K A (Md S P Q)) :
    aggLoop c ys r bs w =
      match aggLoopR c left ys r bs w with
      | (r, bs, w, none) => .ok (r, bs, w)
      | (_, _, _, some e) => .error e := by
  induction ys generalizing r bs w with
  | nil => simp [aggLoopR, aggLoop]
  | cons y ys ih =>
    simp only [aggLoopR, aggLoop, forKeysR_eq (left := left)]
    rcases forKeysR (fun f => decide (f = y.filt)) (fun cfg => aggIterR cfg left c.truthy y.rows) c.keys bs w with
      ⟨bs1, w1, _ | e⟩
    · exact ih _ _ _
    · rfl

end
end Oups.AggStream
