import Verif.Spec.AggStream
import Verif.Proofs.AggWrite
/-! Streaming of one key: invariant linking buffers and stored rows. -/
set_option linter.unusedSimpArgs false
namespace Oups.AggStream
open Oups.Writer (Table Params RG Col DupOn dupCols readRows StrictOn Along Loose)
open Oups.Agg (Res)
variable {K R A S P Q : Type} [DecidableEq K]

/-- Results `F h` are rows `pre`, then those buffered. `stale`: with nothing buffered, the last row may be missing. -/
def Pend (F : List R → List (Row A)) (h : List R) (stale : Prop) (pre : List (Row A)) (buf : List (List (Row A)))
    (last : Option (List (Row A))) : Prop :=
  match last with
  | none => buf = [] ∧ (pre = F h ∨ (pre = (F h).dropLast ∧ stale))
  | some b => b ≠ [] ∧ F h = pre ++ buf.flatten ++ b

/-- Stored rows, for results `F` written as `g`. -/
structure Stored (T : Table (Row A)) (on : Col) (d : DupOn) (g : Row A → Row A) (G : List (Row A)) (rgs : List (RG (Row A)))
    (pre : List (Row A)) : Prop where
  along : Along T on d (G.map g) rgs
  pre : pre.map g <+: readRows rgs

/-- Stored rows are at most `n`, unless coalescing is not used, or does not change the first row group, within the first `base` rows. -/
def Tight (p : Params) (base : Nat) (rgs : List (RG (Row A))) (n : Nat) : Prop := Loose p base rgs ∨ (readRows rgs).length ≤ n

theorem Stored.write {T : Table (Row A)} {p : Params} {on : Col} {d : DupOn} {g : Row A → Row A} {G pre data : List (Row A)}
    {rgs rgs' : List (RG (Row A))} (hw : WriteOk T p on d) {base : Nat} (hbase : base ≤ pre.length) (hn : Tight p base rgs (pre.length + 1)) (hG : StrictOn (T.get on) (G.map g))
    (h : Stored T on d g G rgs pre)
    (hk : ((pre ++ data).map g).map (T.key (dupCols T.cols on d)) <+: (G.map g).map (T.key (dupCols T.cols on d)))
    (hwr : Writer.write T p rgs (data.map g) = .ok rgs') :
    Stored T on d g G rgs' (pre ++ data) ∧ (rgs ≠ [] → rgs' ≠ []) ∧
      Tight p base rgs' (max (pre.length + 1) (pre ++ data).length) ∧ (Loose p base rgs → ∀ p', Loose p' base rgs → Loose p' base rgs') := by
  rw [List.map_append] at hk
  obtain ⟨h1, h2, h3, _, h5, h6⟩ := Along.write hw.ordered hw.dup
    (hn.imp (fun h => h.mono (by rw [List.length_map]; exact hbase)) (fun h => by rw [List.length_map]; exact h)) hw.col hG
    h.along h.pre hk hwr
  have h6 := h6 base (by rw [List.length_map]; exact hbase)
  refine ⟨⟨h1, by rw [List.map_append]; exact h2⟩, h3, hn.imp (fun h => h6 h p h) fun h => ?_, h6⟩
  simp only [List.length_append, List.length_map] at h5 ⊢
  omega

/-- At the end of the stream, stored rows are the results. -/
theorem Stored.exact {T : Table (Row A)} {on : Col} {d : DupOn} {g : Row A → Row A} {G : List (Row A)}
    {rgs : List (RG (Row A))} (h : Stored T on d g G rgs G) : readRows rgs = G.map g := by
  have h1 := h.along.keys.length_le
  simp only [List.length_map] at h1
  exact (List.IsPrefix.eq_of_length h.pre (le_antisymm h.pre.length_le (by simpa using h1))).symm

theorem Stored.mono {T : Table (Row A)} {on : Col} {d : DupOn} {g : Row A → Row A} {G : List (Row A)}
    {rgs : List (RG (Row A))} {pre pre' : List (Row A)} (h : Stored T on d g G rgs pre) (hp : pre' <+: pre) :
    Stored T on d g G rgs pre' := ⟨h.along, (hp.map g).trans h.pre⟩

/-! ### What is written -/

/-- Rows put together by `_concat_agg_res`. -/
def cat (al : Bool) (buf : List (List (Row A))) (last : List (Row A)) : List (Row A) :=
  (if al then buf ++ [last] else buf).flatten

theorem concatRes_ok {al : Bool} {buf : List (List (Row A))} {last l : List (Row A)}
    (h : concatRes buf last al = .ok l) : l = cat al buf last := by
  simp only [concatRes] at h
  split at h
  · cases h
  · cases h; rfl

theorem concatSnap_ok {al : Bool} {st : KeyBuf A S Q} {l : Option (List (Row A))}
    (h : concatSnap st al = .ok l) : l = st.snap.map (cat al st.snapBuf) := by
  simp only [concatSnap] at h
  split at h
  · cases h; simp_all
  · rename_i s hs
    split at h
    · cases h
    · rename_i l' hl
      cases h
      rw [hs, concatRes_ok hl]; rfl

/-- Results to write, for a `post` that works row by row. -/
theorem results_spec {cfg : KeyCfg K R A S Q} {gB gS : Row A → Row A} (hpost : PostRow cfg gB gS) {al : Bool}
    {st : KeyBuf A S Q} {q : Q} {main snap : Option (List (Row A))} (h : results cfg al st = .ok (q, main, snap))
    {b : List (Row A)} (hb : st.bin = some b) (hsn : cfg.resType ≠ .bins → ∃ s, st.snap = some s) :
    (cfg.resType ≠ .snaps → main = some ((cat al st.binBuf b).map gB)) ∧
    (∀ s, st.snap = some s → (cfg.resType = .snaps → main = some ((cat al st.snapBuf s).map gS)) ∧
      (cfg.resType = .both → snap = some ((cat al st.snapBuf s).map gS))) := by
  simp only [results, hb] at h
  cases hc : concatRes st.binBuf b al with
  | error e => simp [hc] at h
  | ok bins =>
    rw [hc] at h
    simp only at h
    cases hc2 : concatSnap st al with
    | error e => simp [hc2] at h
    | ok snaps =>
      rw [hc2] at h
      simp only at h
      have e1 := concatRes_ok hc
      have e2 := concatSnap_ok hc2
      subst e1
      simp only [PostRow] at hpost
      cases hp : cfg.post with
      | none =>
        rw [hp] at h hpost
        obtain ⟨rfl, rfl⟩ := hpost
        simp only [Except.ok.injEq, Prod.mk.injEq] at h
        obtain ⟨_, h1, h2⟩ := h
        refine ⟨fun hr => ?_, fun s hs => ⟨fun hr => ?_, fun hr => ?_⟩⟩
        · rw [← h1, if_neg hr]; simp
        · rw [← h1, if_pos hr, e2, hs]; simp
        · rw [← h2, e2, hs]; simp
      | some f =>
        rw [hp] at h hpost
        simp only at h hpost
        cases hr : cfg.resType with
        | bins =>
          rw [hr] at h hpost
          obtain ⟨q', hq⟩ := hpost st.post (cat al st.binBuf b) []
          simp only [if_true, hq, Except.ok.injEq, Prod.mk.injEq] at h
          refine ⟨fun _ => h.2.1.symm, fun s hs => ⟨by simp, by simp⟩⟩
        | snaps =>
          rw [hr] at h hpost
          obtain ⟨s, hs⟩ := hsn (by rw [hr]; simp)
          obtain ⟨q', hq⟩ := hpost st.post (cat al st.binBuf b) (cat al st.snapBuf s)
          rw [e2, hs] at h
          simp only [reduceCtorEq, if_false, Option.map_some, hq, Except.ok.injEq, Prod.mk.injEq] at h
          refine ⟨by simp, fun s' hs' => ⟨fun _ => ?_, by simp⟩⟩
          rw [hs, Option.some.injEq] at hs'
          subst hs'
          exact h.2.1.symm
        | both =>
          rw [hr] at h hpost
          obtain ⟨s, hs⟩ := hsn (by rw [hr]; simp)
          obtain ⟨q', hq⟩ := hpost st.post (cat al st.binBuf b) (cat al st.snapBuf s)
          rw [e2, hs] at h
          simp only [reduceCtorEq, if_false, Option.map_some, hq, Except.ok.injEq, Prod.mk.injEq] at h
          refine ⟨fun _ => h.2.1.symm, fun s' hs' => ⟨by simp, fun _ => ?_⟩⟩
          rw [hs, Option.some.injEq] at hs'
          subst hs'
          exact h.2.2.symm

theorem results_none {cfg : KeyCfg K R A S Q} {al : Bool} {st : KeyBuf A S Q} {r}
    (h : results cfg al st = .ok r) (hb : st.bin = none) : r = (st.post, none, none) := by
  simp only [results, hb, Except.ok.injEq] at h
  exact h.symm

/-! ### Writes -/

theorem storeSet_ok {M : Type} {T : Table (Row A)} {p : Params} {d d' : Dataset (Row A) M} {rows : List (Row A)}
    {md : Option M} (h : storeSet T p d rows md = .ok d') :
    Writer.write T p d.rgs rows = .ok d'.rgs ∧ d'.inStore = true ∧
      (∀ m, md = some m → d'.md = some m) ∧ (md = none → d.rgs ≠ [] → d'.md = d.md) := by
  simp only [storeSet] at h
  cases hw : Writer.write T p d.rgs rows with
  | error e => simp [hw] at h
  | ok rgs =>
    simp only [hw, Except.ok.injEq] at h
    subst h
    refine ⟨rfl, rfl, fun m hm => by subst hm; rfl, fun hm hne => ?_⟩
    subst hm
    have : d.rgs.isEmpty = false := by cases hd : d.rgs <;> simp_all
    simp [this]

theorem set_same {M : Type} (w : World K A M) (k : K) (d : Dataset (Row A) M) : (w.set k d) k = d := by
  simp [World.set]

theorem set_other {M : Type} (w : World K A M) {k k' : K} (d : Dataset (Row A) M) (h : k' ≠ k) : (w.set k d) k' = w k' := by
  simp [World.set, h]

/-- Effect of writing results. -/
theorem writeResults_some {cfg : KeyCfg K R A S Q} {md : Option (Md S P Q)} {rows : List (Row A)}
    {snap : Option (List (Row A))} {w w' : World K A (Md S P Q)} (hd : cfg.resType = .both → cfg.main ≠ cfg.snap)
    (h : writeResults cfg md (some rows) snap w = .ok w') :
    storeSet cfg.table cfg.params (w cfg.main) rows md = .ok (w' cfg.main) ∧
    (cfg.resType = .both → ∃ srows, snap = some srows ∧
      storeSet cfg.table cfg.snapParams (w cfg.snap) srows none = .ok (w' cfg.snap)) ∧
    ∀ k, k ≠ cfg.main → ¬ (cfg.resType = .both ∧ k = cfg.snap) → w' k = w k := by
  simp only [writeResults] at h
  cases hs : storeSet cfg.table cfg.params (w cfg.main) rows md with
  | error e => simp [hs] at h
  | ok d =>
    simp only [hs] at h
    split at h
    · rename_i hb
      cases snap with
      | none => simp at h
      | some srows =>
        simp only at h
        rw [set_other _ _ (Ne.symm (hd hb))] at h
        cases hs2 : storeSet cfg.table cfg.snapParams (w cfg.snap) srows none with
        | error e => simp [hs2] at h
        | ok d' =>
          simp only [hs2, Except.ok.injEq] at h
          subst h
          refine ⟨?_, fun _ => ⟨srows, rfl, ?_⟩, fun k h1 h2 => ?_⟩
          · rw [set_other _ _ (hd hb), set_same]
          · rw [set_same, hs2]
          · rw [set_other _ _ (fun e => h2 ⟨hb, e⟩), set_other _ _ h1]
    · rename_i hb
      simp only [Except.ok.injEq] at h
      subst h
      refine ⟨by rw [set_same], fun hb' => absurd hb' hb, fun k h1 _ => set_other _ _ h1⟩

theorem writeResults_none {cfg : KeyCfg K R A S Q} {md : Option (Md S P Q)}
    {snap : Option (List (Row A))} {w w' : World K A (Md S P Q)}
    (h : writeResults cfg md none snap w = .ok w') :
    (∀ k, k ≠ cfg.main → w' k = w k) ∧ (md = none → w' = w) ∧
    (∀ m, md = some m → (w' cfg.main).md = some m ∧ (w' cfg.main).inStore = true) ∧
    ((w cfg.main).inStore = true → (w' cfg.main).rgs = (w cfg.main).rgs) ∧
    ((w cfg.main).inStore = false → (w cfg.main).rgs = [] → (w' cfg.main).rgs = []) := by
  simp only [writeResults] at h
  cases md with
  | none =>
    simp only [Except.ok.injEq] at h
    subst h
    exact ⟨fun _ _ => rfl, fun _ => rfl, by simp, fun _ => rfl, fun _ h => h⟩
  | some m =>
    simp only [Except.ok.injEq] at h
    subst h
    refine ⟨fun k hk => set_other _ _ hk, by simp, fun m' hm => ?_, fun hi => ?_, fun hi hr => ?_⟩
    · rw [set_same]
      cases hm
      split <;> simp_all
    · rw [set_same, hi]; rfl
    · rw [set_same, hi]; rfl

/-! ### One track: bins or snapshots -/

section track
variable {V : List R → Prop} {F : List R → List (Row A)} {g : Row A → Row A} {T : Table (Row A)} {on : Col} {d : DupOn}
  {p : Params}

/-- Stored rows and buffered ones make up `F h`; rows `base` are stored. -/
def TrackOk (p : Params) (F : List R → List (Row A)) (g : Row A → Row A) (T : Table (Row A)) (on : Col) (d : DupOn) (Tot : List R)
    (base : List (Row A)) (h : List R) (buf : List (List (Row A))) (last : Option (List (Row A)))
    (rgs : List (RG (Row A))) : Prop :=
  base <+: (F h).dropLast ∧
  ∃ pre, base <+: pre ∧ Pend F h (h ≠ Tot) pre buf last ∧ Stored T on d g (F Tot) rgs pre ∧
    Tight p base.length rgs (if last = none then (F h).length else pre.length + 1)

/-- Same, between the two halves of `agg_iter`: the last row of `F h` is not kept. -/
def TrackMid (p : Params) (F : List R → List (Row A)) (g : Row A → Row A) (T : Table (Row A)) (on : Col) (d : DupOn) (Tot : List R)
    (base : List (Row A)) (h : List R) (buf : List (List (Row A))) (rgs : List (RG (Row A))) : Prop :=
  base <+: (F h).dropLast ∧
  ∃ pre, base <+: pre ∧ pre ++ buf.flatten = (F h).dropLast ∧ Stored T on d g (F Tot) rgs pre ∧ Tight p base.length rgs (pre.length + 1)

theorem dropLast_pre {α : Type} (l : List α) : l.dropLast <+: l := List.dropLast_prefix l

theorem TrackOk.mid_none {Tot h base buf rgs} (ht : TrackOk p F g T on d Tot base h buf none rgs) :
    TrackMid p F g T on d Tot base h buf rgs := by
  obtain ⟨hb, pre, h1, ⟨rfl, h2⟩, h3, h4⟩ := ht
  refine ⟨hb, (F h).dropLast, hb, by simp, h3.mono ?_, h4.imp id fun h => by simp at h ⊢; omega⟩
  rcases h2 with rfl | ⟨rfl, _⟩
  · exact dropLast_pre _
  · exact List.prefix_refl _

theorem TrackOk.mid_push {Tot h base buf rgs b} (ht : TrackOk p F g T on d Tot base h buf (some b) rgs) :
    TrackMid p F g T on d Tot base h (buf ++ [b.dropLast]) rgs := by
  obtain ⟨hb, pre, h1, ⟨hbne, h2⟩, h3, h4⟩ := ht
  refine ⟨hb, pre, h1, ?_, h3, h4⟩
  rw [h2, List.dropLast_append_of_ne_nil hbne]
  simp

theorem keys_dropLast {V : List R → Prop} (law : StreamLaw V F g T on d) {Tot h : List R} (hV : V Tot) (hh : h <+: Tot)
    {l : List (Row A)} (hl : l <+: F h) :
    (l.map g).map (T.key (dupCols T.cols on d)) <+: ((F Tot).map g).map (T.key (dupCols T.cols on d)) := by
  obtain ⟨t, rfl⟩ := hh
  exact ((hl.map g).map _).trans (law.keys h t hV)

theorem TrackMid.write (law : StreamLaw V F g T on d) (hw : WriteOk T p on d) {Tot h : List R} (hV : V Tot) (hh : h <+: Tot)
    {base buf rgs rgs'} (ht : TrackMid p F g T on d Tot base h buf rgs)
    (hwr : Writer.write T p rgs (buf.flatten.map g) = .ok rgs') :
    TrackMid p F g T on d Tot base h [] rgs' ∧ (rgs ≠ [] → rgs' ≠ []) ∧ (Loose p base.length rgs → ∀ p', Loose p' base.length rgs → Loose p' base.length rgs') := by
  obtain ⟨hb, pre, h1, h2, h3, h6⟩ := ht
  obtain ⟨h4, h5, h7, h8⟩ := h3.write hw h1.length_le h6 (law.strict Tot hV)
    (by rw [h2]; exact keys_dropLast law hV hh (dropLast_pre _)) hwr
  exact ⟨⟨hb, _, h1.trans ⟨_, rfl⟩, by rw [h2]; simp, h4, h7.imp id fun h => by simp only [List.length_append] at h ⊢; omega⟩, h5, h8⟩

theorem TrackMid.call {Tot h base buf rgs} (ht : TrackMid p F g T on d Tot base h buf rgs) {q : List R} {new : List (Row A)}
    (hF : F (h ++ q) = (F h).dropLast ++ new) (hne : new ≠ []) :
    TrackOk p F g T on d Tot base (h ++ q) buf (some new) rgs := by
  obtain ⟨hb, pre, h1, h2, h3, h4⟩ := ht
  refine ⟨?_, pre, h1, ⟨hne, by rw [hF, h2]⟩, h3, h4⟩
  rw [hF, List.dropLast_append_of_ne_nil hne]
  exact hb.trans ⟨_, rfl⟩

theorem TrackOk.final (law : StreamLaw V F g T on d) (hw : WriteOk T p on d) {Tot h : List R} (hV : V Tot) (hh : h <+: Tot)
    {base buf rgs rgs' b} (ht : TrackOk p F g T on d Tot base h buf (some b) rgs)
    (hwr : Writer.write T p rgs ((cat true buf b).map g) = .ok rgs') :
    TrackOk p F g T on d Tot base h [] none rgs' ∧ (h = Tot → readRows rgs' = (F Tot).map g) ∧ rgs' ≠ [] ∧
      (Loose p base.length rgs → ∀ p', Loose p' base.length rgs → Loose p' base.length rgs') := by
  obtain ⟨hb, pre, h1, ⟨hbne, h2⟩, h3, h7⟩ := ht
  have hcat : pre ++ cat true buf b = F h := by rw [h2]; simp [cat]
  obtain ⟨h4, h5, h8, h9⟩ := h3.write hw h1.length_le h7 (law.strict Tot hV)
    (by rw [hcat]; exact keys_dropLast law hV hh (List.prefix_refl _)) hwr
  have hlen : pre.length + 1 ≤ (F h).length := by
    have := List.length_pos_iff.2 hbne
    rw [h2]; simp only [List.length_append]; omega
  rw [hcat] at h4 h8
  refine ⟨⟨hb, _, hb.trans (dropLast_pre _), ⟨rfl, Or.inl rfl⟩, h4, h8.imp id fun h => by simp; omega⟩, fun he => ?_, fun he => ?_, h9⟩
  · subst he; exact h4.exact
  · have h6 := h4.pre
    rw [he] at h6
    have : F h = [] := by simpa [readRows] using h6
    rw [this] at hcat
    simp only [List.append_eq_nil_iff, cat, if_true, List.flatten_eq_nil_iff] at hcat
    exact hbne (hcat.2 b (by simp))

theorem TrackOk.exact_none {Tot base buf rgs} (ht : TrackOk p F g T on d Tot base Tot buf none rgs) :
    readRows rgs = (F Tot).map g := by
  obtain ⟨hb, pre, h1, ⟨rfl, h2⟩, h3, _⟩ := ht
  rcases h2 with rfl | ⟨_, h⟩
  · exact h3.exact
  · exact absurd rfl h

/-- Start of a stream. -/
theorem TrackOk.init (law : StreamLaw V F g T on d) (Tot : List R) : TrackOk p F g T on d Tot [] [] [] none [] :=
  ⟨by simp, [], by simp, ⟨rfl, Or.inl law.nil.symm⟩, ⟨.nil, by simp⟩, Or.inr (by simp [readRows])⟩

/-- Start again from earlier rows `h0`, the stream being run up to more than that. -/
theorem TrackOk.replay {Tot h0 h : List R} {buf last rgs} (ht : TrackOk p F g T on d Tot (F h0).dropLast h buf last rgs)
    (hne : h0 ≠ Tot) (hfree : Loose p (F h0).dropLast.length rgs) : TrackOk p F g T on d Tot (F h0).dropLast h0 [] none rgs := by
  obtain ⟨_, pre, h1, _, h3, _⟩ := ht
  exact ⟨List.prefix_refl _, _, List.prefix_refl _, ⟨rfl, Or.inr ⟨rfl, hne⟩⟩, h3.mono h1, Or.inl hfree⟩

theorem TrackMid.replay {Tot h0 h : List R} {buf rgs} (ht : TrackMid p F g T on d Tot (F h0).dropLast h buf rgs)
    (hne : h0 ≠ Tot) (hfree : Loose p (F h0).dropLast.length rgs) : TrackOk p F g T on d Tot (F h0).dropLast h0 [] none rgs := by
  obtain ⟨_, pre, h1, _, h3, _⟩ := ht
  exact ⟨List.prefix_refl _, _, List.prefix_refl _, ⟨rfl, Or.inr ⟨rfl, hne⟩⟩, h3.mono h1, Or.inl hfree⟩

/-- The base can be set to where the stream is, once all is written. -/
theorem TrackOk.rebase {Tot h base rgs} (ht : TrackOk p F g T on d Tot base h [] none rgs) :
    TrackOk p F g T on d Tot (F h).dropLast h [] none rgs := by
  obtain ⟨hb, pre, h1, ⟨_, h2⟩, h3, h4⟩ := ht
  refine ⟨List.prefix_refl _, pre, ?_, ⟨rfl, h2⟩, h3, h4.imp (fun h => h.mono hb.length_le) id⟩
  rcases h2 with rfl | ⟨rfl, _⟩
  · exact dropLast_pre _
  · exact List.prefix_refl _

/-- A longer stream. -/
theorem TrackOk.extend (law : StreamLaw V F g T on d) {Tot Tot' h base buf last rgs} (hV : V Tot') (hT : Tot <+: Tot')
    (hh : h <+: Tot) (ht : TrackOk p F g T on d Tot base h buf last rgs) : TrackOk p F g T on d Tot' base h buf last rgs := by
  obtain ⟨hb, pre, h1, h2, h3, h4⟩ := ht
  obtain ⟨t, rfl⟩ := hT
  refine ⟨hb, pre, h1, ?_, ⟨⟨h3.along.layout, h3.along.keys.trans (law.keys Tot t hV)⟩, h3.pre⟩, h4⟩
  cases last with
  | some b => exact h2
  | none =>
    refine ⟨h2.1, h2.2.imp id fun h => ⟨h.1, fun he => h.2 ?_⟩⟩
    have h4 := hh.length_le
    rw [he, List.length_append] at h4
    have : t = [] := List.length_eq_zero_iff.1 (by omega)
    rw [he, this, List.append_nil]

end track

/-! ### One key -/

/-- Store key of snapshots. -/
def KeyCfg.snapKey (cfg : KeyCfg K R A S Q) : K := if cfg.resType = .both then cfg.snap else cfg.main

/-- Parameters for writing snapshots. -/
def KeyCfg.snapPars (cfg : KeyCfg K R A S Q) : Params := if cfg.resType = .both then cfg.snapParams else cfg.params

theorem NoCoalescing.snap {cfg : KeyCfg K R A S Q} (h : NoCoalescing cfg) : cfg.snapPars.maxNirgs = none := by
  unfold KeyCfg.snapPars
  split
  · rename_i hb; exact h.2 hb
  · exact h.1

theorem postNWrite_ok {cfg : KeyCfg K R A S Q} {truthy : Int → Bool} {al : Bool} {fin : Option (Int × P)}
    {st st' : KeyBuf A S Q} {w w' : World K A (Md S P Q)}
    (h : postNWrite cfg truthy al fin st w = .ok (st', w')) :
    ∃ q main snap, results cfg al st = .ok (q, main, snap) ∧
      writeResults cfg (pendingMd truthy fin st.seg q) main snap w = .ok w' ∧
      st' = (if st.bin.isSome then { seg := st.seg, post := q } else { st with post := q }) := by
  simp only [postNWrite] at h
  cases hr : results cfg al st with
  | error e => simp [hr] at h
  | ok r =>
    obtain ⟨q, main, snap⟩ := r
    simp only [hr] at h
    cases hw : writeResults cfg (pendingMd truthy fin st.seg q) main snap w with
    | error e => simp [hw] at h
    | ok w1 =>
      simp only [hw, Except.ok.injEq, Prod.mk.injEq] at h
      exact ⟨q, main, snap, rfl, by rw [hw, h.2], h.1.symm⟩

theorem post_some {cfg : KeyCfg K R A S Q} {gB gS : Row A → Row A} (hpost : PostRow cfg gB gS)
    (hd : cfg.resType = .both → cfg.main ≠ cfg.snap) {truthy : Int → Bool} {al : Bool} {fin : Option (Int × P)}
    {st st' : KeyBuf A S Q} {w w' : World K A (Md S P Q)}
    (h : postNWrite cfg truthy al fin st w = .ok (st', w')) {b : List (Row A)} (hb : st.bin = some b)
    (hsn : cfg.resType ≠ .bins → ∃ s, st.snap = some s) :
    (∃ q, st' = { seg := st.seg, post := q }) ∧
    (cfg.resType ≠ .snaps →
      Writer.write cfg.table cfg.params (w cfg.main).rgs ((cat al st.binBuf b).map gB) = .ok (w' cfg.main).rgs) ∧
    (cfg.resType ≠ .bins → ∀ s, st.snap = some s →
      Writer.write cfg.table cfg.snapPars (w cfg.snapKey).rgs ((cat al st.snapBuf s).map gS) =
        .ok (w' cfg.snapKey).rgs) ∧
    (w' cfg.main).inStore = true := by
  obtain ⟨q, main, snap, h1, h2, h3⟩ := postNWrite_ok h
  obtain ⟨r1, r2⟩ := results_spec hpost h1 hb hsn
  have hmain : ∃ rows, main = some rows := by
    cases hr : cfg.resType with
    | bins => exact ⟨_, r1 (by rw [hr]; simp)⟩
    | both => exact ⟨_, r1 (by rw [hr]; simp)⟩
    | snaps =>
      obtain ⟨s, hs⟩ := hsn (by rw [hr]; simp)
      exact ⟨_, (r2 s hs).1 hr⟩
  obtain ⟨rows, rfl⟩ := hmain
  obtain ⟨w1, w2, w3⟩ := writeResults_some hd h2
  have hso := storeSet_ok w1
  refine ⟨⟨q, by rw [h3, hb]; rfl⟩, fun hr => ?_, fun hr s hs => ?_, hso.2.1⟩
  · have := r1 hr
    rw [Option.some.injEq] at this
    rw [← this]
    exact hso.1
  · simp only [KeyCfg.snapKey, KeyCfg.snapPars]
    split
    · rename_i hb'
      obtain ⟨srows, e1, e2⟩ := w2 hb'
      have := (r2 s hs).2 hb'
      rw [e1, Option.some.injEq] at this
      rw [← this]
      exact (storeSet_ok e2).1
    · rename_i hb'
      have hrs : cfg.resType = .snaps := by
        cases hx : cfg.resType <;> simp_all
      have := (r2 s hs).1 hrs
      rw [Option.some.injEq] at this
      rw [← this]
      exact hso.1

/-- Hypotheses on a key, for results written in order. -/
structure KeyLaws (cfg : KeyCfg K R A S Q) (V : List R → Prop) (FB : List R → List (Row A))
    (FS : Option (List R → List (Row A))) (ok : List R → S → Prop) (gB gS : Row A → Row A) (on : Col) (d : DupOn) :
    Prop where
  call : CallLaw V cfg.call FB FS ok
  post : PostRow cfg gB gS
  distinct : cfg.resType = .both → cfg.main ≠ cfg.snap
  wmain : WriteOk cfg.table cfg.params on d
  wsnap : WriteOk cfg.table cfg.snapPars on d
  bins : cfg.resType ≠ .snaps → StreamLaw V FB gB cfg.table on d
  snaps : cfg.resType ≠ .bins → ∃ f, FS = some f ∧ StreamLaw V f gS cfg.table on d
  valid : ∀ h p, V (h ++ p) → V h

/-- Invariant of a key: `h` are the rows aggregated so far, a prefix of `Tot`; results up to `h0` were written. -/
structure KInv (cfg : KeyCfg K R A S Q) (FB : List R → List (Row A))
    (FS : Option (List R → List (Row A))) (ok : List R → S → Prop) (gB gS : Row A → Row A) (on : Col) (d : DupOn)
    (Tot h0 h : List R) (st : KeyBuf A S Q) (w : World K A (Md S P Q)) : Prop where
  ok : ok h st.seg
  pre : h <+: Tot
  noRes : st.bin = none → st.snap = none ∧ st.binBuf = [] ∧ st.snapBuf = [] ∧ st.size = 0
  hasRes : ∀ b, st.bin = some b → b ≠ [] ∧ (cfg.resType ≠ .bins → ∃ s, st.snap = some s)
  bins : cfg.resType ≠ .snaps →
    TrackOk cfg.params FB gB cfg.table on d Tot (FB h0).dropLast h st.binBuf st.bin (w cfg.main).rgs
  snaps : cfg.resType ≠ .bins → ∀ f, FS = some f →
    TrackOk cfg.snapPars f gS cfg.table on d Tot (f h0).dropLast h st.snapBuf st.snap (w cfg.snapKey).rgs
  wf : (w cfg.main).inStore = false → (w cfg.main).rgs = []

/-- Same, between the two halves of `agg_iter`. -/
structure KMid (cfg : KeyCfg K R A S Q) (FB : List R → List (Row A))
    (FS : Option (List R → List (Row A))) (ok : List R → S → Prop) (gB gS : Row A → Row A) (on : Col) (d : DupOn)
    (Tot h0 h : List R) (st : KeyBuf A S Q) (w : World K A (Md S P Q)) : Prop where
  ok : ok h st.seg
  bins : cfg.resType ≠ .snaps →
    TrackMid cfg.params FB gB cfg.table on d Tot (FB h0).dropLast h st.binBuf (w cfg.main).rgs
  snaps : cfg.resType ≠ .bins → ∀ f, FS = some f →
    TrackMid cfg.snapPars f gS cfg.table on d Tot (f h0).dropLast h st.snapBuf (w cfg.snapKey).rgs
  wf : (w cfg.main).inStore = false → (w cfg.main).rgs = []

section key
variable {cfg : KeyCfg K R A S Q} {V : List R → Prop} {FB : List R → List (Row A)}
  {FS : Option (List R → List (Row A))} {ok : List R → S → Prop} {gB gS : Row A → Row A} {on : Col} {d : DupOn}
  {truthy : Int → Bool}

theorem flushPrev_inv (L : KeyLaws cfg V FB FS ok gB gS on d) {Tot h0 h : List R} (hV : V Tot) {st st' : KeyBuf A S Q}
    {w w' : World K A (Md S P Q)} (hi : KInv cfg FB FS ok gB gS on d Tot h0 h st w)
    (hfl : flushPrev cfg truthy st w = .ok (st', w')) : KMid cfg FB FS ok gB gS on d Tot h0 h st' w' := by
  rename' h => hrows, hfl => h
  simp only [flushPrev] at h
  cases hb : st.bin with
  | none =>
    simp only [hb, Except.ok.injEq, Prod.mk.injEq] at h
    obtain ⟨rfl, rfl⟩ := h
    refine ⟨hi.ok, fun hr => ?_, fun hr f hf => ?_, hi.wf⟩
    · have := hi.bins hr
      rw [hb] at this
      exact this.mid_none
    · have := hi.snaps hr f hf
      rw [(hi.noRes hb).1] at this
      exact this.mid_none
  | some b =>
    obtain ⟨hbne, hsn⟩ := hi.hasRes b hb
    have hbe : b.isEmpty = false := by cases b <;> simp_all
    simp only [hb, hbe, Bool.false_eq_true, if_false] at h
    have hpB : cfg.resType ≠ .snaps → TrackMid cfg.params FB gB cfg.table on d Tot (FB h0).dropLast hrows
        (pushPrev cfg st b).binBuf (w cfg.main).rgs := by
      intro hr
      have := hi.bins hr
      rw [hb] at this
      exact this.mid_push
    have hpS : cfg.resType ≠ .bins → ∀ f, FS = some f → TrackMid cfg.snapPars f gS cfg.table on d Tot (f h0).dropLast hrows
        (pushPrev cfg st b).snapBuf (w cfg.snapKey).rgs := by
      intro hr f hf
      have := hi.snaps hr f hf
      obtain ⟨s, hs⟩ := hsn hr
      rw [hs] at this
      simp only [pushPrev, hs]
      exact this.mid_push
    split at h
    · have hb' : (pushPrev cfg st b).bin = some b := hb
      obtain ⟨⟨q, rfl⟩, w1, w2, w3⟩ := post_some L.post L.distinct h hb' hsn
      refine ⟨hi.ok, fun hr => ?_, fun hr f hf => ?_, fun hf => by rw [w3] at hf; cases hf⟩
      · have hw := w1 hr
        exact ((hpB hr).write (L.bins hr) L.wmain hV hi.pre hw).1
      · obtain ⟨s, hs⟩ := hsn hr
        have hw := w2 hr s hs
        obtain ⟨f', hf', law⟩ := L.snaps hr
        rw [hf, Option.some.injEq] at hf'
        subst hf'
        exact ((hpS hr f hf).write law L.wsnap hV hi.pre hw).1
    · simp only [Except.ok.injEq, Prod.mk.injEq] at h
      obtain ⟨rfl, rfl⟩ := h
      exact ⟨hi.ok, hpB, hpS, hi.wf⟩

theorem aggIter_ok {chunk : List R} {st st' : KeyBuf A S Q} {w w' : World K A (Md S P Q)}
    (h : aggIter cfg truthy chunk st w = .ok (st', w')) :
    ∃ st1 res seg, flushPrev cfg truthy st w = .ok (st1, w') ∧ cfg.call chunk st1.seg = .ok (res, seg) ∧
      st' = { st1 with seg := seg, bin := res.map Res.bins, snap := res.bind Res.snaps } := by
  simp only [aggIter] at h
  cases hf : flushPrev cfg truthy st w with
  | error e => simp [hf] at h
  | ok r =>
    obtain ⟨st1, w1⟩ := r
    simp only [hf] at h
    cases hc : cfg.call chunk st1.seg with
    | error e => simp [hc] at h
    | ok r =>
      obtain ⟨res, seg⟩ := r
      simp only [hc, Except.ok.injEq, Prod.mk.injEq] at h
      obtain ⟨h1, rfl⟩ := h
      exact ⟨st1, res, seg, rfl, hc, h1.symm⟩

/-- A delivered frame. -/
theorem aggIter_inv (L : KeyLaws cfg V FB FS ok gB gS on d) {Tot h0 h : List R} (hV : V Tot) {st st' : KeyBuf A S Q}
    {w w' : World K A (Md S P Q)} (hi : KInv cfg FB FS ok gB gS on d Tot h0 h st w) {chunk : List R} (hne : chunk ≠ [])
    (hpre : h ++ chunk <+: Tot) (hag : aggIter cfg truthy chunk st w = .ok (st', w')) :
    KInv cfg FB FS ok gB gS on d Tot h0 (h ++ chunk) st' w' := by
  obtain ⟨st1, res, seg, h1, h2, rfl⟩ := aggIter_ok hag
  have hm := flushPrev_inv L hV hi h1
  have hV' : V (h ++ chunk) := by
    obtain ⟨t, ht⟩ := hpre
    rw [← ht] at hV
    exact L.valid _ t hV
  obtain ⟨hok, r, rfl, hrne, hrb, hrs⟩ := L.call.step hm.ok hne hV' h2
  refine ⟨hok, hpre, by simp, ?_, fun hr => ?_, fun hr f hf => ?_, hm.wf⟩
  · intro b hb
    simp only [Option.map_some, Option.some.injEq] at hb
    subst hb
    refine ⟨hrne, fun hr => ?_⟩
    obtain ⟨f, hf, _⟩ := L.snaps hr
    rw [hf] at hrs
    obtain ⟨sn, hsn, _⟩ := hrs
    exact ⟨sn, by simp [hsn]⟩
  · exact (hm.bins hr).call hrb hrne
  · rw [hf] at hrs
    obtain ⟨sn, hsn, hsne, hsF⟩ := hrs
    simp only [Option.bind_some, hsn]
    exact (hm.snaps hr f hf).call hsF hsne

/-- A final write. -/
theorem final_inv (L : KeyLaws cfg V FB FS ok gB gS on d) {Tot h0 h : List R} (hV : V Tot) {st st' : KeyBuf A S Q}
    {w w' : World K A (Md S P Q)} (hi : KInv cfg FB FS ok gB gS on d Tot h0 h st w) {fin : Option (Int × P)}
    (hag : postNWrite cfg truthy true fin st w = .ok (st', w')) :
    KInv cfg FB FS ok gB gS on d Tot h0 h st' w' ∧ st'.bin = none ∧
      (h = Tot → (cfg.resType ≠ .snaps → readRows (w' cfg.main).rgs = (FB Tot).map gB) ∧
        (cfg.resType ≠ .bins → ∀ f, FS = some f → readRows (w' cfg.snapKey).rgs = (f Tot).map gS)) := by
  cases hb : st.bin with
  | none =>
    obtain ⟨q, main, snap, r1, r2, r3⟩ := postNWrite_ok hag
    have := results_none r1 hb
    simp only [Prod.mk.injEq] at this
    obtain ⟨rfl, rfl, rfl⟩ := this
    simp only [hb, Option.isSome_none, Bool.false_eq_true, if_false] at r3
    subst r3
    obtain ⟨e1, e2, e3, e4, e5⟩ := writeResults_none r2
    have hrgs : ∀ k, (w' k).rgs = (w k).rgs := by
      intro k
      by_cases hk : k = cfg.main
      · subst hk
        cases hin : (w cfg.main).inStore with
        | true => exact e4 hin
        | false => rw [hi.wf hin]; exact e5 hin (hi.wf hin)
      · rw [e1 k hk]
    have hb' : ∀ hr, TrackOk cfg.params FB gB cfg.table on d Tot (FB h0).dropLast h st.binBuf none (w cfg.main).rgs :=
      fun hr => by have := hi.bins hr; rwa [hb] at this
    have hs' : ∀ hr f hf, TrackOk cfg.snapPars f gS cfg.table on d Tot (f h0).dropLast h st.snapBuf none (w cfg.snapKey).rgs :=
      fun hr f hf => by have := hi.snaps hr f hf; rwa [(hi.noRes hb).1] at this
    refine ⟨⟨hi.ok, hi.pre, fun _ => hi.noRes hb, by simp, ?_, ?_, ?_⟩, rfl, fun he => ⟨fun hr => ?_, fun hr f hf => ?_⟩⟩
    · intro hr; rw [hrgs]; exact hb' hr
    · intro hr f hf; rw [hrgs]; exact hi.snaps hr f hf
    · intro hin
      rw [hrgs]
      cases hin' : (w cfg.main).inStore with
      | false => exact hi.wf hin'
      | true =>
        exfalso
        cases hmd : pendingMd truthy fin st.seg st.post with
        | none => rw [e2 hmd, hin'] at hin; cases hin
        | some m => rw [(e3 m hmd).2] at hin; cases hin
    · subst he; rw [hrgs]; exact (hb' hr).exact_none
    · subst he; rw [hrgs]; exact (hs' hr f hf).exact_none
  | some b =>
    obtain ⟨hbne, hsn⟩ := hi.hasRes b hb
    obtain ⟨⟨q, rfl⟩, w1, w2, w3⟩ := post_some L.post L.distinct hag hb hsn
    have hB : ∀ hr : cfg.resType ≠ .snaps, _ := fun hr =>
      TrackOk.final (L.bins hr) L.wmain hV hi.pre (hb ▸ hi.bins hr) (w1 hr)
    have hS : ∀ hr : cfg.resType ≠ .bins, ∀ f, FS = some f →
        TrackOk cfg.snapPars f gS cfg.table on d Tot (f h0).dropLast h [] none (w' cfg.snapKey).rgs ∧
        (h = Tot → readRows (w' cfg.snapKey).rgs = (f Tot).map gS) := by
      intro hr f hf
      obtain ⟨s, hs⟩ := hsn hr
      obtain ⟨f', hf', law⟩ := L.snaps hr
      rw [hf, Option.some.injEq] at hf'
      subst hf'
      have h1 := hi.snaps hr f hf
      rw [hs] at h1
      have := TrackOk.final law L.wsnap hV hi.pre h1 (w2 hr s hs)
      exact ⟨this.1, this.2.1⟩
    refine ⟨⟨hi.ok, hi.pre, fun _ => ⟨rfl, rfl, rfl, rfl⟩, by simp, fun hr => (hB hr).1, fun hr f hf => (hS hr f hf).1,
      fun hin => by rw [w3] at hin; cases hin⟩, rfl, fun he => ⟨fun hr => (hB hr).2.1 he, fun hr f hf => (hS hr f hf).2 he⟩⟩

/-- Delivered frames are not empty. -/
def OpsOk (ops : List (KOp R P)) : Prop := ∀ c, KOp.chunk c ∈ ops → c ≠ []

theorem keyRun_inv (L : KeyLaws cfg V FB FS ok gB gS on d) {Tot h0 : List R} (hV : V Tot) {ops : List (KOp R P)}
    (hops : OpsOk ops) {h : List R} {st st' : KeyBuf A S Q}
    {w w' : World K A (Md S P Q)} (hi : KInv cfg FB FS ok gB gS on d Tot h0 h st w)
    (hpre : h ++ opRows ops <+: Tot) (hr : keyRun cfg truthy ops st w = .ok (st', w')) :
    KInv cfg FB FS ok gB gS on d Tot h0 (h ++ opRows ops) st' w' := by
  induction ops generalizing h st w with
  | nil =>
    simp only [keyRun, Except.ok.injEq, Prod.mk.injEq] at hr
    obtain ⟨rfl, rfl⟩ := hr
    simpa [opRows] using hi
  | cons op ops ih =>
    simp only [keyRun] at hr
    cases hs : keyStep cfg truthy op st w with
    | error e => simp [hs] at hr
    | ok r =>
      obtain ⟨st1, w1⟩ := r
      simp only [hs] at hr
      have hops' : OpsOk ops := fun c hc => hops c (by simp [hc])
      cases op with
      | chunk c =>
        simp only [opRows, ← List.append_assoc] at hpre ⊢
        exact ih hops' (aggIter_inv L hV hi (hops c (by simp)) (List.IsPrefix.trans ⟨_, rfl⟩ hpre) hs) hpre hr
      | final r pb =>
        simp only [opRows] at hpre ⊢
        exact ih hops' (final_inv L hV hi hs).1 hpre hr

theorem keyRun_append {a b : List (KOp R P)} {st st' : KeyBuf A S Q} {w w' : World K A (Md S P Q)}
    (h : keyRun cfg truthy (a ++ b) st w = .ok (st', w')) :
    ∃ st1 w1, keyRun cfg truthy a st w = .ok (st1, w1) ∧ keyRun cfg truthy b st1 w1 = .ok (st', w') := by
  induction a generalizing st w with
  | nil => exact ⟨st, w, rfl, h⟩
  | cons op a ih =>
    simp only [List.cons_append, keyRun] at h ⊢
    cases hs : keyStep cfg truthy op st w with
    | error e => simp [hs] at h
    | ok r => simp only [hs] at h ⊢; exact ih h

theorem opRows_append (a b : List (KOp R P)) : opRows (a ++ b) = opRows a ++ opRows b := by
  induction a with
  | nil => rfl
  | cons op a ih => cases op <;> simp [opRows, ih]

/-- Results stored after operations ending with a final write. -/
theorem keyRun_final (L : KeyLaws cfg V FB FS ok gB gS on d) {h0 h : List R} {ops : List (KOp R P)} {r : Option Int}
    {pb : P} (hops : OpsOk ops) {st st' : KeyBuf A S Q} {w w' : World K A (Md S P Q)}
    (hV : V (h ++ opRows ops)) (hi : KInv cfg FB FS ok gB gS on d (h ++ opRows ops) h0 h st w)
    (hr : keyRun cfg truthy (ops ++ [.final r pb]) st w = .ok (st', w')) :
    KInv cfg FB FS ok gB gS on d (h ++ opRows ops) h0 (h ++ opRows ops) st' w' ∧ st'.bin = none ∧
    (cfg.resType ≠ .snaps → readRows (w' cfg.main).rgs = (FB (h ++ opRows ops)).map gB) ∧
    (cfg.resType ≠ .bins → ∀ f, FS = some f → readRows (w' cfg.snapKey).rgs = (f (h ++ opRows ops)).map gS) := by
  obtain ⟨st1, w1, h1, h2⟩ := keyRun_append hr
  have hi1 := keyRun_inv L hV hops hi (List.prefix_refl _) h1
  simp only [keyRun] at h2
  cases hs : keyStep cfg truthy (.final r pb) st1 w1 with
  | error e => simp [hs] at h2
  | ok x =>
    obtain ⟨st2, w2⟩ := x
    simp only [hs, Except.ok.injEq, Prod.mk.injEq] at h2
    obtain ⟨rfl, rfl⟩ := h2
    obtain ⟨i1, i2, i3⟩ := final_inv L hV hi1 hs
    exact ⟨i1, i2, i3 rfl⟩

/-- State of a new key. -/
theorem KInv.init (L : KeyLaws cfg V FB FS ok gB gS on d) {s0 : S} {q0 : Q} (hok : ok [] s0) {w : World K A (Md S P Q)}
    (hm : (w cfg.main).rgs = []) (hs : (w cfg.snapKey).rgs = []) (Tot : List R) :
    KInv cfg FB FS ok gB gS on d Tot [] [] { seg := s0, post := q0 } w := by
  refine ⟨hok, by simp, fun _ => ⟨rfl, rfl, rfl, rfl⟩, by simp, fun hr => ?_, fun hr f hf => ?_, fun _ => hm⟩
  · rw [hm, (L.bins hr).nil]
    exact TrackOk.init (L.bins hr) Tot
  · obtain ⟨f', hf', law⟩ := L.snaps hr
    rw [hf, Option.some.injEq] at hf'
    subst hf'
    rw [hs, law.nil]
    exact TrackOk.init law Tot

end key

end Oups.AggStream
