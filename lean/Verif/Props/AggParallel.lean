import Verif.Proofs.AggThreads
import Verif.Props.AggStream
/-! Property C52: keys processed in parallel. -/
set_option linter.unusedSimpArgs false
namespace Oups.AggStream
open Oups.Writer (Table Params RG)
variable {K R A S P Q F : Type} [DecidableEq K] [DecidableEq F]

/-! ### Threads -/

/-- **C52** Threads process keys that write to distinct datasets, each thread having its own steps in order, with steps of other
threads in between in any way. The outcome is the one of keys processed one after the other; in particular metadata
go to their own key, and none is left pending. -/
theorem C52_threads {sel : F → Bool} {truthy : Int → Bool} {op : KOp R P} {keys : List (F × KeyCfg K R A S Q)}
    (hk : Apart keys) {bs bs' : List (KeyBuf A S Q)} {w w' : World K A (Md S P Q)}
    (h : forKeys sel (fun cfg => keyStep cfg truthy op) keys bs w = .ok (bs', w'))
    (sched : List (Nat × K × Act A (Md S P Q)))
    (hs : ∀ i, stepsOf i sched = match keys[i]?, bs[i]? with
      | some k, some b => if sel k.1 then opActs k.2 truthy op b else []
      | _, _ => []) :
    runActs (sched.map Prod.snd) (clean w) = .ok (clean w') := by
  have hseq := seqSteps_run (n := 0) h
  have hst : ∀ i, stepsOf i (seqSteps sel truthy op 0 keys bs) = stepsOf i sched := by
    intro i
    rw [stepsOf_seq, hs, if_pos (Nat.zero_le _), Nat.sub_zero]
    cases keys[i]? <;> cases bs[i]? <;> rfl
  have ht : ∀ x ∈ seqSteps sel truthy op 0 keys bs, ∃ c, keys[x.1]? = some c ∧ c.2.touches x.2.1 := by
    intro x hx
    have : x.2 ∈ stepsOf x.1 (seqSteps sel truthy op 0 keys bs) := by
      simp only [stepsOf, List.mem_filterMap]
      exact ⟨x, hx, by simp⟩
    rw [hst, hs] at this
    cases h1 : keys[x.1]? with
    | none => simp [h1] at this
    | some k =>
      cases h2 : bs[x.1]? with
      | none => simp [h1, h2] at this
      | some b =>
        simp only [h1, h2] at this
        split at this
        · exact ⟨k, rfl, opActs_touch _ _ _ _ _ this⟩
        · simp at this
  apply runActs_of_cells
  intro k
  rw [← actsOn_sched hk hst ht k]
  exact runActs_ok hseq k

/-- **C52** Also over several chunks: the order between operations on different keys does not matter, be it the one of `agg`
or any other, for instance with keys that are ahead of others. -/
theorem C52_any_order {keys : List (F × KeyCfg K R A S Q)} (hk : Apart keys) {truthy : Int → Bool}
    {l1 l2 : List (Nat × KOp R P)} {bs bs' : List (KeyBuf A S Q)} {w w' : World K A (Md S P Q)}
    (hl : ∀ i, opsOf i l1 = opsOf i l2) (h : idxRun keys truthy l1 bs w = .ok (bs', w')) :
    idxRun keys truthy l2 bs w = .ok (bs', w') :=
  idxRun_comm hk hl h

/-! ### A key alone -/

theorem forKeys_alone {sel : F → Bool} {truthy : Int → Bool} {op : KOp R P} {keys : List (F × KeyCfg K R A S Q)}
    (hk : Apart keys) {bs bs' : List (KeyBuf A S Q)} {w w' v : World K A (Md S P Q)}
    (h : forKeys sel (fun cfg => keyStep cfg truthy op) keys bs w = .ok (bs', w')) (hl : bs.length = keys.length)
    {i : Nat} {k : F × KeyCfg K R A S Q} {b : KeyBuf A S Q} (hi : keys[i]? = some k) (hb : bs[i]? = some b)
    (hv : Agree k.2 w v) :
    ∃ b' v', forKeys sel (fun cfg => keyStep cfg truthy op) [k] [b] v = .ok ([b'], v') ∧ bs'[i]? = some b' ∧
      Agree k.2 w' v' ∧ bs'.length = keys.length := by
  have h1 := forKeys_idx h hl [] [] rfl
  simp only [List.nil_append, List.length_nil] at h1
  have hlen : bs'.length = keys.length := by rw [idxRun_length h1, hl]
  obtain ⟨b', w1, e1, e2, e3⟩ := (idxRun_proj hk h1).2.2.2 i k b hi hb
  rw [opsOf_selOps_key hi] at e1
  simp only [forKeys]
  cases hs : sel k.1 with
  | false =>
    simp only [hs, Bool.false_eq_true, if_false, keyRun, Except.ok.injEq, Prod.mk.injEq] at e1
    obtain ⟨rfl, rfl⟩ := e1
    exact ⟨b, v, by simp, e2, fun x hx => (e3 x hx).symm.trans (hv x hx), hlen⟩
  | true =>
    simp only [hs, if_true, keyRun] at e1
    cases hst : keyStep k.2 truthy op b w with
    | error e => simp [hst] at e1
    | ok y =>
      obtain ⟨b1, w2⟩ := y
      simp only [hst, Except.ok.injEq, Prod.mk.injEq] at e1
      obtain ⟨rfl, rfl⟩ := e1
      have := keyStep_local k.2 truthy op b hv
      rw [hst] at this
      cases hst2 : keyStep k.2 truthy op b v with
      | error e => rw [hst2] at this; exact this.elim
      | ok z =>
        obtain ⟨b3, w3⟩ := z
        rw [hst2] at this
        obtain ⟨rfl, a1, -, -⟩ := this
        exact ⟨b1, w3, by simp, e2, fun x hx => (e3 x hx).symm.trans (a1 x hx), hlen⟩

/-- The configuration with one key only. -/
def Config.only (c : Config K R A S P Q F) (k : F × KeyCfg K R A S Q) : Config K R A S P Q F := { c with keys := [k] }

theorem aggLoop_alone {c : Config K R A S P Q F} (hk : Apart c.keys) {ys : List (Yield F R)} {r r' : Option Int}
    {bs bs' : List (KeyBuf A S Q)} {w w' v : World K A (Md S P Q)} (h : aggLoop c ys r bs w = .ok (r', bs', w'))
    (hl : bs.length = c.keys.length) {i : Nat} {k : F × KeyCfg K R A S Q} {b : KeyBuf A S Q} (hi : c.keys[i]? = some k)
    (hb : bs[i]? = some b) (hv : Agree k.2 w v) :
    ∃ b' v', aggLoop (c.only k) ys r [b] v = .ok (r', [b'], v') ∧ bs'[i]? = some b' ∧ Agree k.2 w' v' ∧
      bs'.length = c.keys.length := by
  induction ys generalizing r bs w v b with
  | nil =>
    simp only [aggLoop, Except.ok.injEq, Prod.mk.injEq] at h
    obtain ⟨rfl, rfl, rfl⟩ := h
    exact ⟨b, v, rfl, hb, hv, hl⟩
  | cons y ys ih =>
    simp only [aggLoop] at h ⊢
    cases hf : forKeys (fun f => decide (f = y.filt)) (fun cfg => aggIter cfg c.truthy y.rows) c.keys bs w with
    | error e => simp [hf] at h
    | ok x =>
      obtain ⟨bs1, w1⟩ := x
      simp only [hf] at h
      obtain ⟨b1, v1, e1, e2, e3, e4⟩ := forKeys_alone (op := .chunk y.rows) hk hf hl hi hb hv
      obtain ⟨b', v', f1, f2, f3, f4⟩ := ih h e4 e2 e3
      refine ⟨b', v', ?_, f2, f3, f4⟩
      have e1' : forKeys (fun f => decide (f = y.filt)) (fun cfg => aggIter cfg (c.only k).truthy y.rows) (c.only k).keys [b] v =
        .ok ([b1], v1) := e1
      rw [e1']
      exact f1

theorem agg_alone {c : Config K R A S P Q F} (hk : Apart c.keys) {a : Call R} {s s' : State A S P Q}
    {w w' v : World K A (Md S P Q)} {e : Bool} (h : agg c a s w = .ok (s', w', e)) (hl : s.bufs.length = c.keys.length)
    {i : Nat} {k : F × KeyCfg K R A S Q} {b : KeyBuf A S Q} (hi : c.keys[i]? = some k) (hb : s.bufs[i]? = some b)
    (hv : Agree k.2 w v) :
    ∃ b' v', agg (c.only k) a ⟨s.restart, s.pre, [b]⟩ v = .ok (⟨s'.restart, s'.pre, [b']⟩, v', e) ∧ s'.bufs[i]? = some b' ∧
      Agree k.2 w' v' ∧ s'.bufs.length = c.keys.length := by
  simp only [agg] at h ⊢
  rw [show iterData (c.only k).ord s.restart (c.only k).pre s.pre (c.only k).filters a.trimStart a.discardLast a.seed =
    iterData c.ord s.restart c.pre s.pre c.filters a.trimStart a.discardLast a.seed from rfl]
  generalize iterData c.ord s.restart c.pre s.pre c.filters a.trimStart a.discardLast a.seed = it at h ⊢
  obtain ⟨ys, pb, exc⟩ := it
  simp only at h ⊢
  cases hx : aggLoop c ys s.restart s.bufs w with
  | error e => simp [hx] at h
  | ok x =>
    obtain ⟨r, bs, w1⟩ := x
    simp only [hx] at h
    obtain ⟨b1, v1, e1, e2, e3, e4⟩ := aggLoop_alone hk hx hl hi hb hv
    rw [e1]
    simp only
    by_cases hexc : exc = none ∨ exc = some .seedPre
    · simp only [hexc, if_true] at h ⊢
      cases hfw : a.finalWrite with
      | false =>
        simp only [hfw, Bool.false_eq_true, if_false, Except.ok.injEq, Prod.mk.injEq] at h ⊢
        obtain ⟨rfl, rfl, rfl⟩ := h
        exact ⟨b1, v1, ⟨rfl, rfl, rfl⟩, e2, e3, e4⟩
      | true =>
        simp only [hfw, if_true, finalWrite] at h ⊢
        cases hf : forKeys (fun _ => true) (fun cfg => postNWrite cfg c.truthy true (r.map fun i => (i, pb))) c.keys bs w1 with
        | error e => simp [hf] at h
        | ok y =>
          obtain ⟨bs2, w2⟩ := y
          simp only [hf, Except.ok.injEq, Prod.mk.injEq] at h
          obtain ⟨rfl, rfl, rfl⟩ := h
          obtain ⟨b2, v2, f1, f2, f3, f4⟩ := forKeys_alone (op := .final r pb) hk hf e4 hi e2 e3
          refine ⟨b2, v2, ?_, f2, f3, f4⟩
          have f1' : forKeys (fun _ => true) (fun cfg => postNWrite cfg (c.only k).truthy true (r.map fun i => (i, pb)))
            (c.only k).keys [b1] v1 = .ok ([b2], v2) := f1
          rw [f1']
    · simp only [hexc, if_false] at h
      cases h

/-- **C52** A key gets in its dataset(s) what it gets when it is alone in the configuration, over any number of calls. -/
theorem C52_alone {c : Config K R A S P Q F} (hk : Apart c.keys) {as : List (Call R)} {s s' : State A S P Q}
    {w w' : World K A (Md S P Q)} (h : aggs c as s w = .ok (s', w')) (hl : s.bufs.length = c.keys.length)
    {i : Nat} {k : F × KeyCfg K R A S Q} {b : KeyBuf A S Q} (hi : c.keys[i]? = some k) (hb : s.bufs[i]? = some b) :
    ∃ b' v, aggs (c.only k) as ⟨s.restart, s.pre, [b]⟩ w = .ok (⟨s'.restart, s'.pre, [b']⟩, v) ∧ s'.bufs[i]? = some b' ∧
      ∀ x, k.2.touches x → v x = w' x := by
  suffices ∀ v, Agree k.2 w v → ∃ b' v', aggs (c.only k) as ⟨s.restart, s.pre, [b]⟩ v =
      .ok (⟨s'.restart, s'.pre, [b']⟩, v') ∧ s'.bufs[i]? = some b' ∧ Agree k.2 w' v' by
    obtain ⟨b', v', h1, h2, h3⟩ := this w fun _ _ => rfl
    exact ⟨b', v', h1, h2, fun x hx => (h3 x hx).symm⟩
  intro v hv
  induction as generalizing s w v b with
  | nil =>
    simp only [aggs, Except.ok.injEq, Prod.mk.injEq] at h
    obtain ⟨rfl, rfl⟩ := h
    exact ⟨b, v, rfl, hb, hv⟩
  | cons a as ih =>
    simp only [aggs] at h ⊢
    cases ha : agg c a s w with
    | error e => simp [ha] at h
    | ok x =>
      obtain ⟨s1, w1, e⟩ := x
      simp only [ha] at h
      obtain ⟨b1, v1, e1, e2, e3, e4⟩ := agg_alone hk ha hl hi hb hv
      rw [e1]
      exact ih h e4 e2 v1 e3

/-! ### Examples -/

-- two keys with final writes, steps of both threads being mixed: pending metadata of both keys are there at the same time
example (w : World Nat (List (List Int)) (Md ExBuf Unit Unit)) (m0 m1 : Md ExBuf Unit Unit)
    (r0 r1 : List (Row (List (List Int)))) :
    runActs [(0, .pend m0), (1, .pend m1), (1, .store exT { orderedOn := some (.col 0) } r1),
      (0, .store exT { orderedOn := some (.col 0) } r0)] (clean w) =
    runActs [(0, .pend m0), (0, .store exT { orderedOn := some (.col 0) } r0), (1, .pend m1),
      (1, .store exT { orderedOn := some (.col 0) } r1)] (clean w) ∨
    (∃ e, Oups.Writer.write exT { orderedOn := some (.col 0) } (w 0).rgs r0 = .error e) ∨
    ∃ e, Oups.Writer.write exT { orderedOn := some (.col 0) } (w 1).rgs r1 = .error e := by
  cases h0 : Oups.Writer.write exT { orderedOn := some (.col 0) } (w 0).rgs r0 with
  | error e => exact Or.inr (Or.inl ⟨e, rfl⟩)
  | ok d0 =>
    cases h1 : Oups.Writer.write exT { orderedOn := some (.col 0) } (w 1).rgs r1 with
    | error e => exact Or.inr (Or.inr ⟨e, rfl⟩)
    | ok d1 =>
      left
      simp only [runActs, Act.run, clean, storeSet, if_true, h0, h1, reduceIte, Nat.one_ne_zero, Nat.zero_ne_one,
        Except.ok.injEq]
      funext k
      by_cases hk : k = 0
      · subst hk; rfl
      · by_cases hk1 : k = 1
        · subst hk1; rfl
        · simp [hk, hk1]

-- two keys of the same filter
example : exStored 1 (aggs (exConf [(0, exKey 0 0), (0, exKey 1 100)])
      [⟨exSeed1, false, false, true⟩, ⟨exSeed2, false, false, true⟩] (exState 2 (Oups.Agg.Buf.init {})) exWorld) =
    exStored 1 (aggs (exConf [(0, exKey 1 100)])
      [⟨exSeed1, false, false, true⟩, ⟨exSeed2, false, false, true⟩] (exState 1 (Oups.Agg.Buf.init {})) exWorld) ∧
    exStored 1 (aggs (exConf [(0, exKey 1 100)])
      [⟨exSeed1, false, false, true⟩, ⟨exSeed2, false, false, true⟩] (exState 1 (Oups.Agg.Buf.init {})) exWorld) =
    some [[(0, some [[1, 1]]), (10, some [[6, 4]]), (20, some [[24, 16]]), (30, some [[96, 64]]), (40, some [[128, 128]])]] :=
  ⟨rfl, rfl⟩

/-- A pair of keys and one of them on its own are different keys of the configuration, and write to the same dataset:
results are mixed. -/
theorem C52_shared_dataset_fails :
    exStored 1 (aggs (exConf [(0, exBoth 100 none)]) [⟨exSeedB, false, false, true⟩]
      (exState 1 (Oups.Agg.Buf.init {})) exWorld) =
      some [[(5, some [[3, 2]]), (10, some [[7, 4]]), (15, some [[24, 16]])]] ∧
    exStored 1 (aggs (exConf [(0, exBoth 100 none), (0, { exBoth 100 none with main := 1, snap := 1, resType := .bins })])
      [⟨exSeedB, false, false, true⟩] (exState 2 (Oups.Agg.Buf.init {})) exWorld) =
      some [[(0, some [[7, 4]]), (5, some [[3, 2]]), (10, some [[24, 16]]), (15, some [[24, 16]])]] := ⟨rfl, rfl⟩

end Oups.AggStream
