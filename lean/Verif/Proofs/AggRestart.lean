import Verif.Proofs.AggRun
/-! Restarting an aggregation stream from the store. -/
set_option linter.unusedSimpArgs false
namespace Oups.AggStream
open Oups.Writer (Table Params RG Col DupOn dupCols readRows StrictOn Along)
open Oups.Agg (Res AggErr)

section
variable {K R A S P Q : Type} [DecidableEq K]

/-- Without results, nothing is pending. -/
def Shape (b : KeyBuf A S Q) : Prop := b.bin = none → b.Rest

theorem Shape.rest {b : KeyBuf A S Q} (h : b.Rest) : Shape b := fun _ => h

theorem flushPrev_shape {cfg : KeyCfg K R A S Q} {truthy : Int → Bool} {st st' : KeyBuf A S Q}
    {w w' : World K A (Md S P Q)} (h : flushPrev cfg truthy st w = .ok (st', w')) : st'.seg = st.seg := by
  simp only [flushPrev] at h
  cases hb : st.bin with
  | none => simp only [hb, Except.ok.injEq, Prod.mk.injEq] at h; rw [← h.1]
  | some b =>
    simp only [hb] at h
    split at h
    · simp only [Except.ok.injEq, Prod.mk.injEq] at h; rw [← h.1]
    · split at h
      · obtain ⟨q, main, snap, -, -, rfl⟩ := postNWrite_ok h
        split <;> rfl
      · simp only [Except.ok.injEq, Prod.mk.injEq] at h; rw [← h.1]; rfl

/-- A final write leaves nothing pending. -/
theorem final_rest {cfg : KeyCfg K R A S Q} {truthy : Int → Bool} {r : Option Int} {pb : P} {st st' : KeyBuf A S Q}
    {w w' : World K A (Md S P Q)} (hs : Shape st) (h : keyStep cfg truthy (.final r pb) st w = .ok (st', w')) :
    st'.Rest := by
  obtain ⟨q, main, snap, h1, -, rfl⟩ := postNWrite_ok h
  cases hb : st.bin with
  | some b => simp only [hb, Option.isSome_some, if_true]; rfl
  | none =>
    have := results_none h1 hb
    simp only [Prod.mk.injEq] at this
    obtain ⟨rfl, -, -⟩ := this
    simp only [hb, Option.isSome_none, Bool.false_eq_true, if_false]
    have := hs hb
    rw [KeyBuf.Rest] at this ⊢
    rw [this]

theorem keyStep_shape {cfg : KeyCfg K R A S Q} (hc : Answers cfg.call) {truthy : Int → Bool} {op : KOp R P}
    {st st' : KeyBuf A S Q} {w w' : World K A (Md S P Q)} (hop : ∀ ch, op = .chunk ch → ch ≠ []) (hs : Shape st)
    (h : keyStep cfg truthy op st w = .ok (st', w')) : Shape st' := by
  cases op with
  | final r pb => exact .rest (final_rest hs h)
  | chunk ch =>
    obtain ⟨st1, res, seg, -, h2, rfl⟩ := aggIter_ok h
    intro hb
    cases res with
    | none => exact absurd rfl (hc _ _ _ _ (hop ch rfl) h2)
    | some r => simp at hb

theorem keyRun_shape {cfg : KeyCfg K R A S Q} (hc : Answers cfg.call) {truthy : Int → Bool} {ops : List (KOp R P)}
    {st st' : KeyBuf A S Q} {w w' : World K A (Md S P Q)} (hop : OpsOk ops) (hs : Shape st)
    (h : keyRun cfg truthy ops st w = .ok (st', w')) : Shape st' := by
  induction ops generalizing st w with
  | nil =>
    simp only [keyRun, Except.ok.injEq, Prod.mk.injEq] at h
    rw [← h.1]; exact hs
  | cons op ops ih =>
    simp only [keyRun] at h
    cases h1 : keyStep cfg truthy op st w with
    | error e => simp [h1] at h
    | ok r =>
      obtain ⟨st1, w1⟩ := r
      simp only [h1] at h
      exact ih (fun ch hc => hop ch (by simp [hc]))
        (keyStep_shape hc (fun ch he => hop ch (by simp [he])) hs h1) h

/-- A final write records the state of the key. -/
theorem final_md {cfg : KeyCfg K R A S Q} (hd : cfg.resType = .both → cfg.main ≠ cfg.snap) {truthy : Int → Bool} {i : Int}
    (hi : truthy i = true) {pb : P} {st st' : KeyBuf A S Q} {w w' : World K A (Md S P Q)}
    (h : keyStep cfg truthy (.final (some i) pb) st w = .ok (st', w')) :
    (w' cfg.main).inStore = true ∧ (w' cfg.main).md = some ⟨i, pb, st'.seg, st'.post⟩ := by
  obtain ⟨q, main, snap, h1, h2, rfl⟩ := postNWrite_ok h
  have hmd : pendingMd truthy ((some i).map fun i => (i, pb)) st.seg q = some ⟨i, pb, st.seg, q⟩ := by
    simp [pendingMd, hi]
  rw [hmd] at h2
  have hq : (if st.bin.isSome then ({ seg := st.seg, post := q } : KeyBuf A S Q) else { st with post := q }).seg = st.seg ∧
      (if st.bin.isSome then ({ seg := st.seg, post := q } : KeyBuf A S Q) else { st with post := q }).post = q := by
    split <;> exact ⟨rfl, rfl⟩
  rw [hq.1, hq.2]
  cases main with
  | some rows =>
    obtain ⟨w1, -, -⟩ := writeResults_some hd h2
    have := storeSet_ok w1
    exact ⟨this.2.1, this.2.2.1 _ rfl⟩
  | none =>
    have := (writeResults_none h2).2.2.1 _ rfl
    exact ⟨this.2, this.1⟩

end

section
variable {K R A S P Q F : Type} [DecidableEq K] [DecidableEq F]

/-- A call with a final write: what each key does last. -/
theorem agg_final {c : Config K R A S P Q F} (hk : Apart c.keys) {a : Call R} (ha : a.finalWrite = true)
    {s s' : State A S P Q} {w w' : World K A (Md S P Q)} {e : Bool} (h : agg c a s w = .ok (s', w', e))
    (hl : s.bufs.length = c.keys.length) {i : Nat} {k : F × KeyCfg K R A S Q} {b : KeyBuf A S Q}
    (hi : c.keys[i]? = some k) (hb : s.bufs[i]? = some b) :
    ∃ ops b1 w1 b' w2, OpsOk ops ∧ keyRun k.2 c.truthy ops b w = .ok (b1, w1) ∧
      keyStep k.2 c.truthy (.final s'.restart s'.pre) b1 w1 = .ok (b', w2) ∧
      s'.bufs[i]? = some b' ∧ Agree k.2 w2 w' := by
  obtain ⟨h1, h2, ys, exc, h3, h4, -⟩ := agg_idx h hl
  obtain ⟨b', w2, e1, e2, e3⟩ := (idxRun_proj hk h1).2.2.2 i k b hi hb
  have hok := keyOps_ok c k.1 a s.restart s.pre
  rw [opsOf_callOps hi] at e1
  simp only [keyOps, h3, ha, if_true] at e1 hok
  rw [← h4] at e1
  obtain ⟨b1, w1, e4, e5⟩ := keyRun_append e1
  refine ⟨_, b1, w1, b', w2, fun ch hc => hok ch (List.mem_append_left _ hc), e4, ?_, e2, e3⟩
  simp only [keyRun] at e5
  cases hs : keyStep k.2 c.truthy (.final s'.restart s'.pre) b1 w1 with
  | error e => simp [hs] at e5
  | ok x => simpa [hs] using e5

/-! ### `_init_buffers` -/

theorem initLoop_of_md {s0 : S} {q0 : Q} {w : World K A (Md S P Q)} {ks : List (F × KeyCfg K R A S Q)}
    {bs : List (KeyBuf A S Q)} {i : Int} {p : P} (hl : bs.length = ks.length)
    (h : ∀ (n : Nat) k b, ks[n]? = some k → bs[n]? = some b → b.Rest ∧ (w k.2.main).inStore = true ∧
      (w k.2.main).md = some ⟨i, p, b.seg, b.post⟩) :
    initLoop s0 q0 w ks = .ok (List.replicate ks.length (i, p), bs) := by
  induction ks generalizing bs with
  | nil =>
    have : bs = [] := List.length_eq_zero_iff.1 (by simpa using hl)
    subst this; rfl
  | cons k ks ih =>
    cases bs with
    | nil => simp at hl
    | cons b bs =>
      obtain ⟨h1, h2, h3⟩ := h 0 k b rfl rfl
      have := ih (bs := bs) (by simpa using hl) fun n k' b' hk hb => h (n + 1) k' b' (by simpa using hk) (by simpa using hb)
      simp only [initLoop, initKey, h2, h3, if_true, this, Option.toList, List.length_cons, List.replicate_succ,
        List.singleton_append]
      rw [KeyBuf.Rest] at h1
      rw [← h1]

theorem initBuffers_of_md {s0 : S} {p0 : P} {q0 : Q} {c : Config K R A S P Q F} {w : World K A (Md S P Q)}
    {s : State A S P Q} (hne : c.keys ≠ []) {i : Int} (hr : s.restart = some i) (hl : s.bufs.length = c.keys.length)
    (h : ∀ (n : Nat) k b, c.keys[n]? = some k → s.bufs[n]? = some b → b.Rest ∧ (w k.2.main).inStore = true ∧
      (w k.2.main).md = some ⟨i, s.pre, b.seg, b.post⟩) :
    initBuffers s0 p0 q0 c w = .ok s := by
  obtain ⟨n, hn⟩ : ∃ n, c.keys.length = n + 1 := ⟨c.keys.length - 1, by have := List.length_pos_iff.2 hne; omega⟩
  simp only [initBuffers, initLoop_of_md hl h, hn, List.replicate_succ]
  rw [if_pos (by simp)]
  have : ((List.replicate n (i, s.pre)).getLast?.map Prod.snd).getD s.pre = s.pre := by
    cases n with
    | zero => rfl
    | succ n => rw [List.getLast?_replicate]; simp
  rw [this, ← hr]

/-- After a final write, a new `AggStream` starts in the same state. -/
theorem agg_init {c : Config K R A S P Q F} (hk : Apart c.keys) (hne : c.keys ≠ [])
    (hd : ∀ k ∈ c.keys, k.2.resType = .both → k.2.main ≠ k.2.snap) (hc : ∀ k ∈ c.keys, Answers k.2.call)
    {a : Call R} (ha : a.finalWrite = true) {s s' : State A S P Q} {w w' : World K A (Md S P Q)} {e : Bool}
    (h : agg c a s w = .ok (s', w', e)) (hl : s.bufs.length = c.keys.length) (hs : ∀ b ∈ s.bufs, Shape b)
    {i : Int} (hi : s'.restart = some i) (ht : c.truthy i = true) (s0 : S) (p0 : P) (q0 : Q) :
    initBuffers s0 p0 q0 c w' = .ok s' ∧ ∀ b ∈ s'.bufs, b.Rest := by
  have hl' := (agg_idx h hl).2.1
  have key : ∀ (n : Nat) k b, c.keys[n]? = some k → s'.bufs[n]? = some b → b.Rest ∧ (w' k.2.main).inStore = true ∧
      (w' k.2.main).md = some ⟨i, s'.pre, b.seg, b.post⟩ := by
    intro n k b hkn hbn
    have hlt : n < s.bufs.length := by
      rw [hl]; exact (List.getElem?_eq_some_iff.1 hkn).1
    obtain ⟨ops, b1, w1, b', w2, e1, e2, e3, e4, e5⟩ := agg_final hk ha h hl hkn (List.getElem?_eq_getElem hlt)
    rw [e4, Option.some.injEq] at hbn
    subst hbn
    have hmem := List.mem_of_getElem? hkn
    have hsh := keyRun_shape (hc k hmem) e1 (hs _ (List.getElem_mem hlt)) e2
    rw [← e5 _ (touches_main k.2)]
    rw [hi] at e3
    exact ⟨final_rest hsh e3, final_md (hd k hmem) ht e3⟩
  refine ⟨initBuffers_of_md hne hi hl' key, fun b hb => ?_⟩
  obtain ⟨n, hn, rfl⟩ := List.getElem_of_mem hb
  exact (key n c.keys[n] _ (List.getElem?_eq_getElem (by omega)) (List.getElem?_eq_getElem hn)).1

theorem aggs_iterAfter {c : Config K R A S P Q F} {as : List (Call R)} {s s' : State A S P Q}
    {w w' : World K A (Md S P Q)} (h : aggs c as s w = .ok (s', w')) (hl : s.bufs.length = c.keys.length) :
    iterAfter c as s.restart s.pre = (s'.restart, s'.pre) := by
  induction as generalizing s w with
  | nil =>
    simp only [aggs, Except.ok.injEq, Prod.mk.injEq] at h
    rw [← h.1]; rfl
  | cons a as ih =>
    simp only [aggs] at h
    cases ha : agg c a s w with
    | error e => simp [ha] at h
    | ok x =>
      obtain ⟨s1, w1, e⟩ := x
      simp only [ha] at h
      obtain ⟨-, h2, ys, exc, h3, h4, -⟩ := agg_idx ha hl
      simp only [iterAfter, h3, ← h4]
      exact ih h h2

theorem aggs_shape {c : Config K R A S P Q F} (hk : Apart c.keys) (hc : ∀ k ∈ c.keys, Answers k.2.call)
    {as : List (Call R)} {s s' : State A S P Q} {w w' : World K A (Md S P Q)} (h : aggs c as s w = .ok (s', w'))
    (hl : s.bufs.length = c.keys.length) (hs : ∀ b ∈ s.bufs, Shape b) : ∀ b ∈ s'.bufs, Shape b := by
  intro b hb
  obtain ⟨n, hn, rfl⟩ := List.getElem_of_mem hb
  have hl' := aggs_length h hl
  have hkn : c.keys[n]? = some c.keys[n] := List.getElem?_eq_getElem (by omega)
  have hlt : n < s.bufs.length := by omega
  obtain ⟨b', w1, h1, h2, -⟩ := aggs_key hk h hl hkn (List.getElem?_eq_getElem hlt)
  rw [List.getElem?_eq_getElem hn, Option.some.injEq] at h2
  rw [h2]
  exact keyRun_shape (hc _ (List.getElem_mem _)) (keyOpsAll_ok c _ as _ _) (hs _ (List.getElem_mem hlt)) h1

theorem aggs_append_ok {c : Config K R A S P Q F} {as bs : List (Call R)} {s s1 : State A S P Q}
    {w w1 : World K A (Md S P Q)} (h : aggs c as s w = .ok (s1, w1)) : aggs c (as ++ bs) s w = aggs c bs s1 w1 := by
  induction as generalizing s w with
  | nil =>
    simp only [aggs, Except.ok.injEq, Prod.mk.injEq] at h
    obtain ⟨rfl, rfl⟩ := h; rfl
  | cons a as ih =>
    simp only [List.cons_append, aggs] at h ⊢
    cases ha : agg c a s w with
    | error e => simp [ha] at h
    | ok x => simp only [ha] at h ⊢; exact ih h

/-- Same, after calls of which the last one does a final write. -/
theorem aggs_init {c : Config K R A S P Q F} (hk : Apart c.keys) (hne : c.keys ≠ [])
    (hd : ∀ k ∈ c.keys, k.2.resType = .both → k.2.main ≠ k.2.snap) (hc : ∀ k ∈ c.keys, Answers k.2.call)
    {as : List (Call R)} {a : Call R} (ha : a.finalWrite = true) {s s' : State A S P Q} {w w' : World K A (Md S P Q)}
    (h : aggs c (as ++ [a]) s w = .ok (s', w')) (hl : s.bufs.length = c.keys.length) (hs : ∀ b ∈ s.bufs, Shape b)
    {i : Int} (hi : s'.restart = some i) (ht : c.truthy i = true) (s0 : S) (p0 : P) (q0 : Q) :
    initBuffers s0 p0 q0 c w' = .ok s' ∧ ∀ b ∈ s'.bufs, b.Rest := by
  obtain ⟨s1, w1, h1, h2⟩ := aggs_append h
  simp only [aggs] at h2
  cases hx : agg c a s1 w1 with
  | error e => simp [hx] at h2
  | ok x =>
    obtain ⟨s2, w2, e⟩ := x
    simp only [hx, Except.ok.injEq, Prod.mk.injEq] at h2
    obtain ⟨rfl, rfl⟩ := h2
    exact agg_init hk hne hd hc ha hx (aggs_length h1 hl) (aggs_shape hk hc h1 hl hs) hi ht s0 p0 q0

/-- Sessions are one run. -/
theorem sessions_run {c : Config K R A S P Q F} (hk : Apart c.keys) (hne : c.keys ≠ [])
    (hd : ∀ k ∈ c.keys, k.2.resType = .both → k.2.main ≠ k.2.snap) (hc : ∀ k ∈ c.keys, Answers k.2.call)
    {s0 : S} {p0 : P} {q0 : Q} {ss : List (List (Call R))} (hss : ∀ as ∈ ss, ∃ l a, as = l ++ [a] ∧ a.finalWrite = true)
    {s : State A S P Q} {w : World K A (Md S P Q)} (hl : s.bufs.length = c.keys.length) (hs : ∀ b ∈ s.bufs, b.Rest)
    (hin : ss ≠ [] → initBuffers s0 p0 q0 c w = .ok s)
    (hix : ∀ n, 0 < n → n < ss.length → ∃ i, (iterAfter c (ss.take n).flatten s.restart s.pre).1 = some i ∧
      c.truthy i = true) :
    sessions s0 p0 q0 c ss w = (aggs c ss.flatten s w).map Prod.snd := by
  induction ss generalizing s w with
  | nil => rfl
  | cons as rest ih =>
    simp only [sessions, hin (by simp), List.flatten_cons]
    cases h1 : aggs c as s w with
    | error e =>
      have : ∀ (bs : List (Call R)), aggs c (as ++ bs) s w = .error e := by
        intro bs
        clear hss ih hix hin hs hl
        induction as generalizing s w with
        | nil => simp [aggs] at h1
        | cons a as ih =>
          simp only [aggs, List.cons_append] at h1 ⊢
          cases ha : agg c a s w with
          | error e' => simpa [ha] using h1
          | ok x => simp only [ha] at h1 ⊢; exact ih h1
      rw [this]; rfl
    | ok x =>
      obtain ⟨s1, w1⟩ := x
      simp only
      rw [aggs_append_ok h1]
      have hit := aggs_iterAfter h1 hl
      obtain ⟨l, a, rfl, ha⟩ := hss as (by simp)
      by_cases hrest : rest = []
      · subst hrest; rfl
      · obtain ⟨i, hi, ht⟩ := hix 1 (by omega) (by
          have := List.length_pos_iff.2 hrest; simp; omega)
        simp only [List.take_succ_cons, List.take_zero, List.flatten_cons, List.flatten_nil, List.append_nil, hit] at hi
        obtain ⟨g1, g2⟩ := aggs_init hk hne hd hc ha h1 hl (fun b hb => .rest (hs b hb)) hi ht s0 p0 q0
        refine ih (fun as h => hss as (by simp [h])) (aggs_length h1 hl) g2 (fun _ => g1) fun n hn hn' => ?_
        obtain ⟨j, hj, htj⟩ := hix (n + 1) (by omega) (by simp; omega)
        refine ⟨j, ?_, htj⟩
        rw [List.take_succ_cons, List.flatten_cons] at hj
        have hsplit : ∀ (as bs : List (Call R)) (r : Option Int) (pb : P), iterAfter c (as ++ bs) r pb =
            iterAfter c bs (iterAfter c as r pb).1 (iterAfter c as r pb).2 := by
          intro as
          induction as with
          | nil => intro bs r pb; rfl
          | cons x as ih => intro bs r pb; simp only [List.cons_append, iterAfter]; exact ih _ _ _
        rw [hsplit, hit] at hj
        exact hj

end
end Oups.AggStream
