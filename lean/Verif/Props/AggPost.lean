import Verif.Props.AggRestart
import Verif.Proofs.WriterRows
/-! Property C65: what `post` returns is what is recorded. -/
set_option linter.unusedSimpArgs false
namespace Oups.AggStream
open Oups.Writer (Table Params RG readRows)
open Oups.Agg Oups.Agg.Spec Oups.Segment

section
variable {K R A S P Q F : Type} [DecidableEq K] [DecidableEq F]

/-! ### Specification -/

/-- Frames recorded for what `post` returns: in the main dataset, and in that of snapshots. A key alone records a frame, and
nothing otherwise. A pair of keys records both frames of a pair, the second one only if there is a first one. -/
def recordedFrames : ResType → PostRes (Row A) → Option (List (Row A)) × Option (List (Row A))
  | .both, .two (some m) s => (some m, s)
  | .both, _ => (none, none)
  | _, .one m => (some m, none)
  | _, _ => (none, none)

/-- All that `post` can return for this key, in any circumstance, satisfies `I` (dataset, row). -/
def PostRows (I : K → Row A → Prop) (cfg : KeyCfg K R A S Q) : Prop :=
  ∃ f, cfg.post = some f ∧ ∀ q bins snaps,
    (∀ m, (recordedFrames cfg.resType (f q bins snaps).2).1 = some m → ∀ x ∈ m, I cfg.main x) ∧
    ∀ s, (recordedFrames cfg.resType (f q bins snaps).2).2 = some s → ∀ x ∈ s, I cfg.snap x

/-! ### One write -/

theorem results_post {cfg : KeyCfg K R A S Q} {f : Post (Row A) Q} (hf : cfg.post = some f) {al : Bool} {st : KeyBuf A S Q} {q}
    {main snap : Option (List (Row A))} (h : results cfg al st = .ok (q, main, snap)) :
    (main = none ∧ snap = none ∧ q = st.post ∧ st.bin = none) ∨
    ∃ bins snaps, (f st.post bins snaps).1 = q ∧ main = (recordedFrames cfg.resType (f st.post bins snaps).2).1 ∧
      (cfg.resType = .both → main ≠ none → snap = (recordedFrames cfg.resType (f st.post bins snaps).2).2) := by
  simp only [results] at h
  cases hb : st.bin with
  | none =>
    simp only [hb, Except.ok.injEq, Prod.mk.injEq] at h
    exact .inl ⟨h.2.1.symm, h.2.2.symm, h.1.symm, rfl⟩
  | some b =>
    right
    simp only [hb] at h
    cases hc : concatRes st.binBuf b al with
    | error e => simp [hc] at h
    | ok bins =>
      simp only [hc] at h
      cases hs : concatSnap st al with
      | error e => simp [hs] at h
      | ok snaps =>
        simp only [hs, hf] at h
        refine ⟨bins, if cfg.resType = .bins then none else snaps, ?_⟩
        generalize hfe : f st.post bins (if cfg.resType = .bins then none else snaps) = r at h
        obtain ⟨q', r⟩ := r
        cases ht : cfg.resType <;> cases r <;> simp only [ht] at h
        all_goals first
          | (split at h <;>
              first
              | (simp only [Except.ok.injEq, Prod.mk.injEq] at h; obtain ⟨rfl, rfl, rfl⟩ := h; simp [recordedFrames])
              | simp at h)
          | (simp only [Except.ok.injEq, Prod.mk.injEq] at h; obtain ⟨rfl, rfl, rfl⟩ := h; simp [recordedFrames])
          | simp at h
        rename_i m _
        cases m <;> simp


/-- Rows found after writes were there, or are of the frames given. -/
theorem writeResults_mem {cfg : KeyCfg K R A S Q} {md : Option (Md S P Q)} {main snap : Option (List (Row A))}
    {w w' : World K A (Md S P Q)} (h : writeResults cfg md main snap w = .ok w') {k : K} {x : Row A}
    (hx : x ∈ readRows (w' k).rgs) : x ∈ readRows (w k).rgs ∨ (k = cfg.main ∧ ∃ m, main = some m ∧ x ∈ m) ∨
      (k = cfg.snap ∧ cfg.resType = .both ∧ main ≠ none ∧ ∃ s, snap = some s ∧ x ∈ s) := by
  simp only [writeResults] at h
  cases main with
  | none =>
    simp only at h
    left
    cases md with
    | none => simp only [Except.ok.injEq] at h; subst h; exact hx
    | some m =>
      simp only [Except.ok.injEq] at h
      subst h
      by_cases hk : k = cfg.main
      · subst hk
        rw [set_same] at hx
        split at hx
        · exact hx
        · simp [readRows] at hx
      · rwa [set_other _ _ hk] at hx
  | some rows =>
    simp only at h
    cases hs : storeSet cfg.table cfg.params (w cfg.main) rows md with
    | error e => simp [hs] at h
    | ok d =>
      simp only [hs] at h
      have h1 : ∀ {k : K}, x ∈ readRows ((w.set cfg.main d) k).rgs → x ∈ readRows (w k).rgs ∨ (k = cfg.main ∧ x ∈ rows) := by
        intro k hx
        by_cases hk : k = cfg.main
        · subst hk
          rw [set_same] at hx
          exact (Writer.write_mem (storeSet_ok hs).1 hx).imp_right fun h => ⟨rfl, h⟩
        · rw [set_other _ _ hk] at hx; exact .inl hx
      split at h
      · rename_i hb
        cases snap with
        | none => simp at h
        | some srows =>
          simp only at h
          cases hs2 : storeSet cfg.table cfg.snapParams ((w.set cfg.main d) cfg.snap) srows none with
          | error e => simp [hs2] at h
          | ok d' =>
            simp only [hs2, Except.ok.injEq] at h
            subst h
            by_cases hk : k = cfg.snap
            · subst hk
              rw [set_same] at hx
              rcases Writer.write_mem (storeSet_ok hs2).1 hx with hx | hx
              · rcases h1 hx with hx | ⟨hk, hx⟩
                · exact .inl hx
                · exact .inr (.inl ⟨hk, rows, rfl, hx⟩)
              · exact .inr (.inr ⟨rfl, hb, by simp, srows, rfl, hx⟩)
            · rw [set_other _ _ hk] at hx
              rcases h1 hx with hx | ⟨hk, hx⟩
              · exact .inl hx
              · exact .inr (.inl ⟨hk, rows, rfl, hx⟩)
      · simp only [Except.ok.injEq] at h
        subst h
        rcases h1 hx with hx | ⟨hk, hx⟩
        · exact .inl hx
        · exact .inr (.inl ⟨hk, rows, rfl, hx⟩)

theorem postNWrite_rows {I : K → Row A → Prop} {cfg : KeyCfg K R A S Q} (hp : PostRows I cfg) {truthy : Int → Bool} {al : Bool}
    {fin : Option (Int × P)} {st st' : KeyBuf A S Q} {w w' : World K A (Md S P Q)}
    (h : postNWrite cfg truthy al fin st w = .ok (st', w')) (hw : ∀ k, ∀ x ∈ readRows (w k).rgs, I k x) :
    ∀ k, ∀ x ∈ readRows (w' k).rgs, I k x := by
  obtain ⟨f, hf, hI⟩ := hp
  obtain ⟨q, main, snap, hr, hwr, -⟩ := postNWrite_ok h
  intro k x hx
  rcases writeResults_mem hwr hx with hx | ⟨rfl, m, hm, hx⟩ | ⟨rfl, hb, hne, s, hs, hx⟩
  · exact hw k x hx
  · rcases results_post hf hr with ⟨hn, -⟩ | ⟨bins, snaps, -, he, -⟩
    · rw [hn] at hm; cases hm
    · exact (hI _ bins snaps).1 m (by rw [← he, hm]) x hx
  · rcases results_post hf hr with ⟨hn, -⟩ | ⟨bins, snaps, -, he, hse⟩
    · exact absurd hn hne
    · exact (hI _ bins snaps).2 s (by rw [← hse hb hne, hs]) x hx

/-! ### Histories -/

theorem forKeys_world {M : Type} {J : World K A M → Prop} {sel : F → Bool}
    {f : KeyCfg K R A S Q → KeyBuf A S Q → World K A M → Except Err (KeyBuf A S Q × World K A M)}
    {ks : List (F × KeyCfg K R A S Q)} (hJ : ∀ k ∈ ks, ∀ b b' w w', f k.2 b w = .ok (b', w') → J w → J w')
    {bs bs' : List (KeyBuf A S Q)} {w w' : World K A M} (h : forKeys sel f ks bs w = .ok (bs', w')) (hw : J w) : J w' := by
  induction ks generalizing bs bs' w w' with
  | nil =>
    simp only [forKeys, Except.ok.injEq, Prod.mk.injEq] at h
    rw [← h.2]; exact hw
  | cons k ks ih =>
    cases bs with
    | nil =>
      simp only [forKeys, Except.ok.injEq, Prod.mk.injEq] at h
      rw [← h.2]; exact hw
    | cons b bs =>
      simp only [forKeys] at h
      have ih := fun {bs bs' w w'} => ih (bs := bs) (bs' := bs') (w := w) (w' := w') fun k hk => hJ k (List.mem_cons_of_mem _ hk)
      split at h
      · cases hf : f k.2 b w with
        | error e => simp [hf] at h
        | ok x =>
          obtain ⟨b1, w1⟩ := x
          simp only [hf] at h
          cases hr : forKeys sel f ks bs w1 with
          | error e => simp [hr] at h
          | ok y =>
            obtain ⟨bs2, w2⟩ := y
            simp only [hr, Except.ok.injEq, Prod.mk.injEq] at h
            rw [← h.2]
            exact ih hr (hJ k List.mem_cons_self _ _ _ _ hf hw)
      · cases hr : forKeys sel f ks bs w with
        | error e => simp [hr] at h
        | ok y =>
          obtain ⟨bs2, w2⟩ := y
          simp only [hr, Except.ok.injEq, Prod.mk.injEq] at h
          rw [← h.2]
          exact ih hr hw

theorem aggIter_world {J : World K A (Md S P Q) → Prop} {cfg : KeyCfg K R A S Q} {truthy : Int → Bool}
    (hJ : ∀ al (fin : Option (Int × P)) b b' w w', postNWrite cfg truthy al fin b w = .ok (b', w') → J w → J w') {chunk : List R}
    {b b' : KeyBuf A S Q} {w w' : World K A (Md S P Q)} (h : aggIter cfg truthy chunk b w = .ok (b', w')) (hw : J w) : J w' := by
  simp only [aggIter] at h
  cases hf : flushPrev cfg truthy b w with
  | error e => simp [hf] at h
  | ok x =>
    obtain ⟨b1, w1⟩ := x
    simp only [hf] at h
    have h1 : J w1 := by
      simp only [flushPrev] at hf
      cases hb : b.bin with
      | none =>
        simp only [hb, Except.ok.injEq, Prod.mk.injEq] at hf
        rw [← hf.2]; exact hw
      | some l =>
        simp only [hb] at hf
        split at hf
        · simp only [Except.ok.injEq, Prod.mk.injEq] at hf
          rw [← hf.2]; exact hw
        · split at hf
          · exact hJ _ _ _ _ _ _ hf hw
          · simp only [Except.ok.injEq, Prod.mk.injEq] at hf
            rw [← hf.2]; exact hw
    cases hc : cfg.call chunk b1.seg with
    | error e => simp [hc] at h
    | ok y =>
      simp only [hc, Except.ok.injEq, Prod.mk.injEq] at h
      rw [← h.2]; exact h1

/-- What every write of a key preserves is preserved by calls to `agg`. -/
theorem aggs_world {J : World K A (Md S P Q) → Prop} {c : Config K R A S P Q F}
    (hJ : ∀ k ∈ c.keys, ∀ al (fin : Option (Int × P)) b b' w w', postNWrite k.2 c.truthy al fin b w = .ok (b', w') → J w → J w')
    {as : List (Call R)} {s s' : State A S P Q} {w w' : World K A (Md S P Q)} (h : aggs c as s w = .ok (s', w')) (hw : J w) : J w' := by
  have loop : ∀ {ys : List (Yield F R)} {r r' bs bs' w w'}, aggLoop c ys r bs w = .ok (r', bs', w') → J w → J w' := by
    intro ys
    induction ys with
    | nil =>
      intro r r' bs bs' w w' h hw
      simp only [aggLoop, Except.ok.injEq, Prod.mk.injEq] at h
      rw [← h.2.2]; exact hw
    | cons y ys ih =>
      intro r r' bs bs' w w' h hw
      simp only [aggLoop] at h
      cases hf : forKeys (fun f => decide (f = y.filt)) (fun cfg => aggIter cfg c.truthy y.rows) c.keys bs w with
      | error e => simp [hf] at h
      | ok x =>
        obtain ⟨bs1, w1⟩ := x
        simp only [hf] at h
        exact ih h (forKeys_world (J := J) (fun k hk b b' w w' h hw => aggIter_world (J := J) (hJ k hk) h hw) hf hw)
  induction as generalizing s w with
  | nil =>
    simp only [aggs, Except.ok.injEq, Prod.mk.injEq] at h
    rw [← h.2]; exact hw
  | cons a as ih =>
    simp only [aggs] at h
    cases hag : agg c a s w with
    | error e => simp [hag] at h
    | ok x =>
      obtain ⟨s1, w1, e⟩ := x
      simp only [hag] at h
      refine ih h ?_
      simp only [agg] at hag
      cases hl : aggLoop c (iterData c.ord s.restart c.pre s.pre c.filters a.trimStart a.discardLast a.seed).1 s.restart s.bufs w with
      | error e => simp [hl] at hag
      | ok y =>
        obtain ⟨r, bs, w2⟩ := y
        have h2 := loop hl hw
        simp only [hl] at hag
        split at hag
        · split at hag
          · cases hfw : finalWrite c ⟨r, (iterData c.ord s.restart c.pre s.pre c.filters a.trimStart a.discardLast a.seed).2.1, bs⟩ w2 with
            | error e => simp [hfw] at hag
            | ok z =>
              obtain ⟨s3, w3⟩ := z
              simp only [hfw, Except.ok.injEq, Prod.mk.injEq] at hag
              rw [← hag.2.1]
              simp only [finalWrite] at hfw
              cases hk : forKeys (fun _ => true)
                  (fun cfg => postNWrite cfg c.truthy true
                    (r.map fun i => (i, (iterData c.ord s.restart c.pre s.pre c.filters a.trimStart a.discardLast a.seed).2.1)))
                  c.keys bs w2 with
              | error e => simp [hk] at hfw
              | ok z =>
                obtain ⟨bs3, w4⟩ := z
                simp only [hk, Except.ok.injEq, Prod.mk.injEq] at hfw
                rw [← hfw.2]
                exact forKeys_world (J := J) (fun k hk b b' w w' h hw => hJ k hk _ _ _ _ _ _ h hw) hk h2
          · simp only [Except.ok.injEq, Prod.mk.injEq] at hag
            rw [← hag.2.1]; exact h2
        · simp at hag

/-- **C65** Only what `post` returns is recorded: if all the rows that the `post` functions can return, for a dataset,
satisfy a property, and those of the dataset at first, then those of the dataset after any calls do. -/
theorem C65_only_returned {I : K → Row A → Prop} {c : Config K R A S P Q F} (hp : ∀ k ∈ c.keys, PostRows I k.2)
    {as : List (Call R)} {s s' : State A S P Q} {w w' : World K A (Md S P Q)} (h : aggs c as s w = .ok (s', w'))
    (hw : ∀ k, ∀ x ∈ readRows (w k).rgs, I k x) : ∀ k, ∀ x ∈ readRows (w' k).rgs, I k x :=
  aggs_world (J := fun w => ∀ k, ∀ x ∈ readRows (w k).rgs, I k x) (fun k hk _ _ _ _ _ _ h hw => postNWrite_rows (hp k hk) h hw) h hw

/-- **C65** If `post` never returns a frame for the main key, nothing is recorded in any dataset, even if it returns frames
of snapshots. -/
theorem C65_main_needed {c : Config K R A S P Q F}
    (hp : ∀ k ∈ c.keys, ∃ f, k.2.post = some f ∧ ∀ q bins snaps, (recordedFrames k.2.resType (f q bins snaps).2).1 = none)
    {as : List (Call R)} {s s' : State A S P Q} {w w' : World K A (Md S P Q)} (h : aggs c as s w = .ok (s', w'))
    (hw : ∀ k, (w k).inStore = false → (w k).rgs = []) : ∀ k, (w' k).rgs = (w k).rgs := by
  refine (aggs_world (J := fun w1 => (∀ k, (w1 k).inStore = false → (w1 k).rgs = []) ∧ ∀ k, (w1 k).rgs = (w k).rgs)
    (fun k hk al fin b b' w1 w2 h hJ => ?_) h ⟨hw, fun _ => rfl⟩).2
  obtain ⟨f, hf, hn⟩ := hp k hk
  obtain ⟨q, main, snap, hr, hwr, -⟩ := postNWrite_ok h
  have hm : main = none := by
    rcases results_post hf hr with ⟨hn, -⟩ | ⟨bins, snaps, -, he, -⟩
    · exact hn
    · rw [he]; exact hn _ _ _
  subst hm
  simp only [writeResults] at hwr
  cases hmd : pendingMd c.truthy fin b.seg q with
  | none =>
    simp only [hmd, Except.ok.injEq] at hwr
    rw [← hwr]; exact hJ
  | some m =>
    simp only [hmd, Except.ok.injEq] at hwr
    subst hwr
    have hrg : ∀ k', (((w1.set k.2.main (if (w1 k.2.main).inStore then { w1 k.2.main with md := some m }
        else ⟨[], some m, true⟩)) k').rgs) = (w1 k').rgs := by
      intro k'
      by_cases hk' : k' = k.2.main
      · subst hk'
        rw [set_same]
        split
        · rfl
        · rename_i hi
          exact (hJ.1 _ (by simpa using hi)).symm
      · rw [set_other _ _ hk']
    refine ⟨fun k' hi => ?_, fun k' => (hrg k').trans (hJ.2 k')⟩
    rw [hrg]
    by_cases hk' : k' = k.2.main
    · subst hk'
      rw [set_same] at hi
      split at hi
      · exact hJ.1 _ hi
      · simp at hi
    · rw [set_other _ _ hk'] at hi
      exact hJ.1 _ hi

/-! ### The final write of a key -/

section
variable {cfg : KeyCfg K R A S Q} {f : Post (Row A) Q} {truthy : Int → Bool} {fin : Option (Int × P)} {st : KeyBuf A S Q}
  {b : List (Row A)} {w : World K A (Md S P Q)} {r : PostRes (Row A)} {q : Q}

/-- `post` is called on all the results in memory: bins, and snapshots if the key has any; it returns `r`. -/
def Returned (cfg : KeyCfg K R A S Q) (f : Post (Row A) Q) (st : KeyBuf A S Q) (b : List (Row A)) (q : Q) (r : PostRes (Row A)) :
    Prop :=
  cfg.post = some f ∧ st.bin = some b ∧
    f st.post (st.binBuf.flatten ++ b)
      (if cfg.resType = .bins then none else st.snap.map fun s => st.snapBuf.flatten ++ s) = (q, r)

theorem results_returned (h : Returned cfg f st b q r) : results cfg true st =
    match r, cfg.resType with
    | .two m s, .both => .ok (q, m, s)
    | .one _, .both => if cfg.table.cols.length = 2 then .ok (q, none, none) else .error .value
    | .nothing, .both => .error .type
    | .one m, _ => .ok (q, some m, st.snap.map fun s => st.snapBuf.flatten ++ s)
    | _, _ => .ok (q, none, st.snap.map fun s => st.snapBuf.flatten ++ s) := by
  obtain ⟨hf, hb, hr⟩ := h
  have hc : ∀ (buf : List (List (Row A))) (l : List (Row A)), concatRes buf l true = .ok (buf.flatten ++ l) := by
    intro buf l
    simp only [concatRes, if_true]
    cases buf <;> simp
  have hs : concatSnap st true = .ok (st.snap.map fun s => st.snapBuf.flatten ++ s) := by
    simp only [concatSnap]
    cases st.snap with
    | none => rfl
    | some s => simp only [hc, Option.map_some]
  simp only [results, hb, hc, hs, hf, hr]
  obtain ⟨_, _, rt⟩ := cfg
  cases r <;> cases rt <;> rfl

/-- **C65** Final write of a key alone: the frame returned is written, and nothing if it is not a frame. -/
theorem C65_single (ht : cfg.resType ≠ .both) (h : Returned cfg f st b q r) {st' : KeyBuf A S Q} {w' : World K A (Md S P Q)}
    (hw : postNWrite cfg truthy true fin st w = .ok (st', w')) :
    st' = { seg := st.seg, post := q } ∧ (∀ k, k ≠ cfg.main → w' k = w k) ∧
      (∀ m, r = .one m → Writer.write cfg.table cfg.params (w cfg.main).rgs m = .ok (w' cfg.main).rgs) ∧
      ((∀ m, r ≠ .one m) → (w cfg.main).inStore = true → (w' cfg.main).rgs = (w cfg.main).rgs) := by
  obtain ⟨q', main, snap, hr, hwr, hst⟩ := postNWrite_ok hw
  rw [results_returned h] at hr
  have hbin : st.bin.isSome = true := by rw [h.2.1]; rfl
  rw [hbin, if_pos rfl] at hst
  cases r with
  | one m =>
    have hr' : Except.ok (q, some m, st.snap.map fun s => st.snapBuf.flatten ++ s) =
        (.ok (q', main, snap) : Except Err _) := by
      rw [← hr]; cases ht' : cfg.resType <;> simp_all
    simp only [Except.ok.injEq, Prod.mk.injEq] at hr'
    obtain ⟨rfl, rfl, rfl⟩ := hr'
    obtain ⟨h1, -, h3⟩ := writeResults_some (fun hb => absurd hb ht) hwr
    refine ⟨hst, fun k hk => h3 k hk (fun hb => ht hb.1), fun m' hm => ?_, fun hn => absurd rfl (hn m)⟩
    cases hm
    exact (storeSet_ok h1).1
  | nothing =>
    have hr' : Except.ok (q, none, st.snap.map fun s => st.snapBuf.flatten ++ s) =
        (.ok (q', main, snap) : Except Err _) := by
      rw [← hr]; cases ht' : cfg.resType <;> simp_all
    simp only [Except.ok.injEq, Prod.mk.injEq] at hr'
    obtain ⟨rfl, rfl, rfl⟩ := hr'
    obtain ⟨h1, -, -, h4, -⟩ := writeResults_none hwr
    exact ⟨hst, h1, fun m hm => by simp at hm, fun _ => h4⟩
  | two m s =>
    have hr' : Except.ok (q, none, st.snap.map fun s => st.snapBuf.flatten ++ s) =
        (.ok (q', main, snap) : Except Err _) := by
      rw [← hr]; cases ht' : cfg.resType <;> simp_all
    simp only [Except.ok.injEq, Prod.mk.injEq] at hr'
    obtain ⟨rfl, rfl, rfl⟩ := hr'
    obtain ⟨h1, -, -, h4, -⟩ := writeResults_none hwr
    exact ⟨hst, h1, fun m hm => by simp at hm, fun _ => h4⟩

/-- **C65** Final write of a pair of keys: two frames are each written in its dataset. -/
theorem C65_pair (ht : cfg.resType = .both) (hd : cfg.main ≠ cfg.snap) {m s : List (Row A)}
    (h : Returned cfg f st b q (.two (some m) (some s))) {st' : KeyBuf A S Q} {w' : World K A (Md S P Q)}
    (hw : postNWrite cfg truthy true fin st w = .ok (st', w')) :
    st' = { seg := st.seg, post := q } ∧ (∀ k, k ≠ cfg.main → k ≠ cfg.snap → w' k = w k) ∧
      Writer.write cfg.table cfg.params (w cfg.main).rgs m = .ok (w' cfg.main).rgs ∧
      Writer.write cfg.table cfg.snapParams (w cfg.snap).rgs s = .ok (w' cfg.snap).rgs := by
  obtain ⟨q', main, snap, hr, hwr, hst⟩ := postNWrite_ok hw
  rw [results_returned h] at hr
  have hbin : st.bin.isSome = true := by rw [h.2.1]; rfl
  rw [hbin, if_pos rfl] at hst
  simp only [ht, Except.ok.injEq, Prod.mk.injEq] at hr
  obtain ⟨rfl, rfl, rfl⟩ := hr
  obtain ⟨h1, h2, h3⟩ := writeResults_some (fun _ => hd) hwr
  obtain ⟨s', hs', h2⟩ := h2 ht
  cases hs'
  exact ⟨hst, fun k hk hk' => h3 k hk (fun hb => hk' hb.2), (storeSet_ok h1).1, (storeSet_ok h2).1⟩

/-- **C65** Pair of keys: what is refused. Not a pair: `TypeError`. A frame: `ValueError`, unless it has two columns. No frame
of snapshots beside one of bins: an exception. -/
theorem C65_refused (ht : cfg.resType = .both) (h : Returned cfg f st b q r) :
    (r = .nothing → postNWrite cfg truthy true fin st w = .error .type) ∧
    (∀ m, r = .one m → cfg.table.cols.length ≠ 2 → postNWrite cfg truthy true fin st w = .error .value) ∧
    ∀ m, r = .two (some m) none → ∃ e, postNWrite cfg truthy true fin st w = .error e ∧
      ((∃ d, storeSet cfg.table cfg.params (w cfg.main) m (pendingMd truthy fin st.seg q) = .ok d) → e = .type) := by
  refine ⟨?_, ?_, ?_⟩
  · rintro rfl
    simp only [postNWrite, results_returned h, ht]
  · rintro m rfl hc
    simp only [postNWrite, results_returned h, ht, hc, if_false]
  · rintro m rfl
    simp only [postNWrite, results_returned h, ht, writeResults, if_true]
    cases hs : storeSet cfg.table cfg.params (w cfg.main) m (pendingMd truthy fin st.seg q) with
    | error e => exact ⟨e, rfl, fun ⟨d, hd⟩ => by cases hd⟩
    | ok d => exact ⟨.type, rfl, fun _ => rfl⟩

/-- **C65** Pair of keys: a pair without a frame of bins, or a frame with two columns, is accepted. Nothing is written, and
results are no longer in memory. -/
theorem C65_pair_dropped (ht : cfg.resType = .both)
    (hr : (∃ s, r = .two none s) ∨ (∃ m, r = .one m) ∧ cfg.table.cols.length = 2) (h : Returned cfg f st b q r) :
    ∃ w', postNWrite cfg truthy true fin st w = .ok ({ seg := st.seg, post := q }, w') ∧
      ∀ k, (w k).inStore = true → (w' k).rgs = (w k).rgs := by
  have hres : ∃ s, results cfg true st = .ok (q, none, s) := by
    rw [results_returned h]
    rcases hr with ⟨s, rfl⟩ | ⟨⟨m, rfl⟩, hc⟩
    · exact ⟨s, by simp only [ht]⟩
    · exact ⟨none, by simp only [ht, hc, if_true]⟩
  obtain ⟨s, hres⟩ := hres
  have hbin : st.bin.isSome = true := by rw [h.2.1]; rfl
  simp only [postNWrite, hres, hbin, if_true]
  cases hwr : writeResults cfg (pendingMd truthy fin st.seg q) none s w with
  | error e =>
    simp only [writeResults] at hwr
    split at hwr <;> simp at hwr
  | ok w' =>
    refine ⟨w', rfl, fun k hi => ?_⟩
    obtain ⟨h1, -, -, h4, -⟩ := writeResults_none hwr
    by_cases hk : k = cfg.main
    · subst hk; exact h4 hi
    · rw [h1 k hk]

end
end

/-! ### Examples -/

/-- Bins and snapshots, with this `post`. -/
def exPair (f : Post (Row (List (List Int))) Unit) : KeyCfg Nat (Int × Int) (List (List Int)) ExBuf Unit :=
  { exKey 0 100 with
    snap := 1
    resType := .both
    call := inPlace (frameCall (fun _ => intOps) ex_get ex_cfg exZ (grouperFn { freq := 10 } Prod.fst)
      (some Prod.fst) (some (.grouper { freq := 5 })) true)
    post := some f }

def exPairRun (f : Post (Row (List (List Int))) Unit) :
    Except Err (State (List (List Int)) ExBuf Unit Unit × ExWorld ExBuf) :=
  aggs (exConf [(0, exPair f)]) [⟨exSeed1, false, false, true⟩] (exState 1 ex0) exWorld

/-- C65: two frames. -/
example : exStored 0 (exPairRun fun _ b s => ((), .two (some b) s)) =
      some [[(0, some [[1, 1]]), (10, some [[6, 4]]), (20, some [[8, 8]])]] ∧
    (exStored 1 (exPairRun fun _ b s => ((), .two (some b) s))).map List.flatten =
      some [(0, some [[1, 1]]), (5, some [[1, 1]]), (10, some [[6, 4]]), (15, some [[6, 4]]), (20, none), (25, some [[8, 8]])] := ⟨rfl, rfl⟩

/-- C65: refusals. Here results have two columns: a frame alone is taken for a pair. -/
example : exErr (exPairRun fun _ _ _ => ((), .nothing)) = some .type ∧
    exErr (exPairRun fun _ b _ => ((), .two (some b) none)) = some .type ∧
    exStored 0 (exPairRun fun _ b _ => ((), .one b)) = some [] ∧
    exErr (aggs (exConf [(0, { exPair (fun _ b _ => ((), .one b)) with table := ⟨[0, 1, 2], fun _ _ => 0⟩ })])
      [⟨exSeed1, false, false, true⟩] (exState 1 ex0) exWorld) = some .value := ⟨rfl, rfl, rfl, rfl⟩

/-- C65: the rows recorded have one of the labels returned. -/
example {as : List (Call (Int × Int))} {s' w'}
    (h : aggs (exConf [(0, exPair fun _ b s => ((), .two (some (b.filter fun x => decide (10 ≤ x.1))) s))]) as (exState 1 ex0) exWorld =
      .ok (s', w')) : ∀ x ∈ readRows (w' 0).rgs, 10 ≤ x.1 := by
  intro x hx
  refine C65_only_returned (I := fun k x => k = 0 → 10 ≤ x.1) (fun k hk => ?_) h
    (fun k x hx => by simp [exWorld, readRows] at hx) 0 x hx rfl
  simp only [exConf, List.mem_cons, List.not_mem_nil, or_false] at hk
  subst hk
  refine ⟨_, rfl, fun q bins snaps => ⟨fun m hm x hx _ => ?_, fun s _ x _ h1 => ?_⟩⟩
  · simp only [exPair, recordedFrames, Option.some.injEq] at hm
    subst hm
    simpa using (List.mem_filter.1 hx).2
  · cases h1

/-- A `post` which waits for a bin before returning any loses the snapshots it returns in the meantime: they are not
written, and not given again. Here those before 25. -/
theorem C65_snapshots_lost_fails :
    let wait : Post (Row (List (List Int))) Unit := fun _ b s => ((), .two (if b.any fun x => x.1 == 40 then some b else none) s)
    let r := aggs (exConf [(0, exPair wait)]) [⟨exSeed1, false, false, true⟩, ⟨exSeed2, false, false, true⟩] (exState 1 ex0) exWorld
    exErr r = none ∧ (exStored 1 r).map (fun l => l.flatten.map Prod.fst) = some [25, 30, 35, 40] ∧
      (exStored 1 (aggs (exConf [(0, exPair fun _ b s => ((), .two (some b) s))])
        [⟨exSeed1, false, false, true⟩, ⟨exSeed2, false, false, true⟩] (exState 1 ex0) exWorld)).map (fun l => l.flatten.map Prod.fst) =
        some [0, 5, 10, 15, 20, 25, 30, 35, 40] := ⟨rfl, rfl, rfl⟩

end Oups.AggStream
