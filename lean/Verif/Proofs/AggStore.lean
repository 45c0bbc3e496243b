import Verif.Model.AggStore
import Verif.Spec.AggStore
import Verif.Proofs.AggThreads
import Verif.Proofs.CollectionStore
/-! Steps of an aggregation stream on a `ParquetSet` are those on a map from keys to datasets. -/
set_option linter.unusedSimpArgs false
namespace Oups.AggStream
open Oups.Writer (Table Params RG)
open Oups.Collection (Env PS FS Path Lawful Inv resolve osJoin resolve_dir set_spec set_fail mkdirs_comps isParquetFile)
open Oups.Indexer (Str)

section
variable {K A M : Type} [DecidableEq K] {E : Env K (Files A M) (Put A M)} {comps : K → List Str}

/-- The environment stores aggregation results. -/
structure ForAgg (E : Env K (Files A M) (Put A M)) : Prop where
  names : E.names = filesNames
  empty : E.empty = none
  writer : E.writer = putFiles

theorem filesNames_any (c : Files A M) : (filesNames c).any isParquetFile = c.isSome := by
  cases c with
  | none => rfl
  | some d => simp [filesNames, Collection.datasetFiles, isParquetFile]

theorem storeWorld_lookup (hE : Lawful E comps) {ps : PS K (Files A M)} (hb : Collection.PlainBase ps.basepath) (k : K) :
    storeWorld E ps k = filesData ((ps.fs.lookup (resolve ps.basepath ++ comps k)).getD none) := by
  rw [storeWorld, PS.get, resolve_dir hE hb]

theorem filesData_inStore (c : Files A M) : (filesData c).inStore = c.isSome := by
  cases c <;> rfl

theorem mem_keys (hE : Lawful E comps) (hA : ForAgg E) {ps : PS K (Files A M)} (h : Inv E comps ps) (k : K) :
    k ∈ ps.keys ↔ (storeWorld E ps k).inStore = true := by
  rw [h.mem k, Collection.Stored, storeWorld_lookup hE h.base, filesData_inStore]
  cases ps.fs.lookup (resolve ps.basepath ++ comps k) with
  | none => simp
  | some c => simp [hA.names, filesNames_any]

theorem storeSet_inStore {T : Table (Row A)} {p : Params} {d d' : Dataset (Row A) M} {rows : List (Row A)} {m : Option M}
    (h : storeSet T p d rows m = .ok d') : d' = ⟨d'.rgs, d'.md, true⟩ := by
  simp only [storeSet] at h
  cases hw : Oups.Writer.write T p d.rgs rows with
  | error e => simp [hw] at h
  | ok r => simp only [hw, Except.ok.injEq] at h; rw [← h]

/-- `store[key] = config, data`. -/
theorem put_ok (hE : Lawful E comps) (hA : ForAgg E) {pr : Proc K A M} (h : Inv E comps pr.ps) (k : K) (p : Put A M)
    {d : Dataset (Row A) M} (hd : storeSet p.table p.params (storeWorld E pr.ps k) p.rows p.pending = .ok d) :
    ∃ ps', pr.put E k p = (pr.done ps' k, none) ∧ Inv E comps ps' ∧ ps'.basepath = pr.ps.basepath ∧
      storeWorld E ps' = (storeWorld E pr.ps).set k d := by
  have hw : E.writer p ((pr.ps.fs.lookup (resolve pr.ps.basepath ++ comps k)).getD E.empty) = some (some (d.rgs, d.md)) := by
    rw [hA.writer, hA.empty, putFiles, ← storeWorld_lookup hE h.base, hd]
  have hs := set_spec hE h.base hw
  obtain ⟨hi, hbase⟩ := h.set hE (some k) true p
  rw [hs] at hi hbase
  refine ⟨_, by rw [Proc.put, hs], hi, hbase, ?_⟩
  funext k'
  rw [storeWorld_lookup hE (by rw [hbase]; exact h.base)]
  simp only
  rw [mkdirs_comps hE]
  simp only [World.set]
  by_cases e : k' = k
  · subst e
    simp only [if_true, Option.getD_some, filesData]
    exact (storeSet_inStore hd).symm
  · simp only [e, if_false]
    rw [← storeWorld_lookup hE h.base]

theorem put_error (hE : Lawful E comps) (hA : ForAgg E) {pr : Proc K A M} (h : Inv E comps pr.ps) (k : K) (p : Put A M)
    {e : Err} (hd : storeSet p.table p.params (storeWorld E pr.ps k) p.rows p.pending = .error e) :
    pr.put E k p = (pr, some (.store .writer)) := by
  have hw : E.writer p ((pr.ps.fs.lookup (resolve pr.ps.basepath ++ comps k)).getD E.empty) = none := by
    rw [hA.writer, hA.empty, putFiles, ← storeWorld_lookup hE h.base, hd]
  rw [Proc.put, set_fail hE h.base hw]

theorem mkdirs_exists {C : Type} (empty : C) {fs : FS C} {p : Path} (h : ∀ q, q <+: p → (fs.lookup q).isSome) :
    fs.mkdirs empty p = fs := by
  have : ∀ qs : List Path, (∀ q ∈ qs, (fs.lookup q).isSome) →
      qs.foldl (fun fs q => if (fs.lookup q).isSome then fs else fs.put q empty) fs = fs := by
    intro qs
    induction qs with
    | nil => intro _; rfl
    | cons q qs ih =>
      intro hq
      rw [List.foldl_cons, if_pos (hq q (by simp))]
      exact ih fun q' h' => hq q' (by simp [h'])
  exact this _ fun q hq => h q ((Collection.take_mem_iff p q).1 hq)

/-- Rewriting the metadata of a dataset is a write of the dataset with the same row groups. -/
theorem rewrite_ok (hE : Lawful E comps) (hA : ForAgg E) {ps : PS K (Files A M)} (h : Inv E comps ps) (k : K)
    {c : List (RG (Row A)) × Option M} (hc : ps.fs.lookup (resolve ps.basepath ++ comps k) = some (some c))
    (c' : List (RG (Row A)) × Option M) :
    let ps' := { ps with fs := ps.fs.put (resolve ps.basepath ++ comps k) (some c') }
    Inv E comps ps' ∧ storeWorld E ps' = (storeWorld E ps).set k (filesData (some c')) := by
  -- an environment that differs by the writer
  let E' : Env K (Files A M) (Put A M) := { E with writer := fun _ _ => some (some c') }
  have hE' : Lawful E' comps := ⟨hE.path, hE.length, hE.pos, hE.plain, hE.back, hE.lt_irrefl, hE.lt_trans, hE.lt_total,
    hE.noFile, fun w c c'' hw => by
      simp only [E', Option.some.injEq] at hw
      rw [← hw]
      show (E.names _).any _ = _
      rw [hA.names, filesNames_any]; rfl⟩
  have h' : Inv E' comps ps := ⟨h.base, h.wf, h.canonical, h.noStray, h.sorted, h.mem⟩
  have hk : k ∈ ps.keys := (h.mem k).2 ⟨_, hc, by rw [hA.names, filesNames_any]; rfl⟩
  have hs := set_spec hE' h'.base (k := k) (w := emptyFrame none) (c := some c') rfl
  have hm : ps.fs.mkdirs E'.empty (resolve ps.basepath ++ comps k) = ps.fs :=
    mkdirs_exists _ fun q hq => h.wf.prefix hq (by rw [hc]; rfl)
  rw [hm, if_pos hk] at hs
  obtain ⟨hi, hbase⟩ := h'.set hE' (some k) true (emptyFrame none)
  rw [hs] at hi hbase
  intro ps'
  have hi' : Inv E comps ps' := ⟨hi.base, hi.wf, hi.canonical, hi.noStray, hi.sorted, hi.mem⟩
  refine ⟨hi', ?_⟩
  funext k'
  rw [storeWorld_lookup hE hi'.base, World.set]
  simp only [ps']
  rw [Collection.lookup_put]
  by_cases e : k' = k
  · subst e; simp
  · have : ¬ resolve ps.basepath ++ comps k' = resolve ps.basepath ++ comps k :=
      fun h => e (Collection.comps_inj hE (List.append_cancel_left h))
    simp only [e, this, if_false]
    rw [← storeWorld_lookup hE h.base]

/-- Cells of a process. -/
def procCells (E : Env K (Files A M) (Put A M)) (pr : Proc K A M) : K → Cell A M :=
  fun k => ⟨storeWorld E pr.ps k, pr.pending k⟩

theorem procCells_done (pr : Proc K A M) (ps : PS K (Files A M)) (k : K) (d : Dataset (Row A) M)
    (hw : storeWorld E ps = (storeWorld E pr.ps).set k d) :
    procCells E (pr.done ps k) = fun k' => if k' = k then ⟨d, none⟩ else procCells E pr k' := by
  funext k'
  simp only [procCells, Proc.done, hw, World.set]
  split <;> rfl

/-- A step on the store is a step on the datasets. -/
theorem act_ok (hE : Lawful E comps) (hA : ForAgg E) {pr : Proc K A M} (h : Inv E comps pr.ps) (k : K) (a : Act A M)
    {c : Cell A M} (ha : a.run (procCells E pr k) = .ok c) :
    ∃ pr', pr.act E k a = (pr', none) ∧ Inv E comps pr'.ps ∧ pr'.ps.basepath = pr.ps.basepath ∧
      procCells E pr' = fun k' => if k' = k then c else procCells E pr k' := by
  cases a with
  | pend m =>
    simp only [Act.run, Except.ok.injEq] at ha
    refine ⟨_, rfl, h, rfl, ?_⟩
    funext k'
    rw [← ha]
    simp only [procCells]
    by_cases e : k' = k
    · subst e; simp
    · simp [e]
  | store T p rows =>
    simp only [Act.run, procCells] at ha
    cases hs : storeSet T p (storeWorld E pr.ps k) rows (pr.pending k) with
    | error e => simp [hs] at ha
    | ok d =>
      simp only [hs, Except.ok.injEq] at ha
      obtain ⟨ps', h1, h2, h3, h4⟩ := put_ok hE hA h k ⟨T, p, rows, pr.pending k⟩ hs
      exact ⟨_, h1, h2, h3, by rw [procCells_done _ _ _ _ h4, ha]⟩
  | raise e => simp [Act.run] at ha
  | writeMd =>
    have hget : pr.ps.get E k = pr.ps.fs.lookup (resolve pr.ps.basepath ++ comps k) := by
      rw [PS.get, resolve_dir hE h.base]
    have hsw := storeWorld_lookup hE h.base k
    have hnew : (storeWorld E pr.ps k).inStore = false →
        ∃ pr', pr.put E k (emptyFrame (pr.pending k)) = (pr', none) ∧ Inv E comps pr'.ps ∧
          pr'.ps.basepath = pr.ps.basepath ∧ procCells E pr' = fun k' => if k' = k then c else procCells E pr k' := by
      intro hno
      have hx : storeWorld E pr.ps k = {} := by
        rw [hsw] at hno ⊢
        rw [filesData_inStore] at hno
        cases hl : (pr.ps.fs.lookup (resolve pr.ps.basepath ++ comps k)).getD none with
        | none => rfl
        | some x => rw [hl] at hno; cases hno
      have hs : storeSet (emptyFrame (A := A) (pr.pending k)).table (emptyFrame (A := A) (pr.pending k)).params
          (storeWorld E pr.ps k) (emptyFrame (A := A) (pr.pending k)).rows (pr.pending k) = .ok ⟨[], pr.pending k, true⟩ := by
        rw [hx]; cases pr.pending k <;> rfl
      obtain ⟨ps', h1, h2, h3, h4⟩ := put_ok hE hA h k (emptyFrame (pr.pending k)) hs
      refine ⟨_, h1, h2, h3, ?_⟩
      rw [procCells_done _ _ _ _ h4]
      simp only [Act.run, procCells, hx] at ha
      cases hp : pr.pending k with
      | none => simp only [hp, Bool.false_eq_true, if_false, Except.ok.injEq] at ha; rw [ha]
      | some m => simp only [hp, Bool.false_eq_true, if_false, Except.ok.injEq] at ha; rw [ha]
    simp only [Proc.act]
    rw [hget]
    cases hl : pr.ps.fs.lookup (resolve pr.ps.basepath ++ comps k) with
    | none => exact hnew (by rw [hsw, hl]; rfl)
    | some x =>
      cases x with
      | none => exact hnew (by rw [hsw, hl]; rfl)
      | some x =>
        obtain ⟨rgs, md⟩ := x
        simp only [resolve_dir hE h.base]
        obtain ⟨h1, h2⟩ := rewrite_ok hE hA h k hl (rgs, (pr.pending k).or md)
        refine ⟨_, rfl, h1, rfl, ?_⟩
        rw [procCells_done _ _ _ _ h2]
        have hx : storeWorld E pr.ps k = ⟨rgs, md, true⟩ := by rw [hsw, hl]; rfl
        simp only [Act.run, procCells, hx] at ha
        cases hp : pr.pending k with
        | none => simp only [hp, if_true, Except.ok.injEq] at ha; rw [← ha]; rfl
        | some m => simp only [hp, if_true, Except.ok.injEq] at ha; rw [← ha]; rfl

/-- Steps on the store are steps on the datasets. -/
theorem run_ok (hE : Lawful E comps) (hA : ForAgg E) {l : List (K × Act A M)} {pr : Proc K A M} (h : Inv E comps pr.ps)
    {g : K → Cell A M} (hl : runActs l (procCells E pr) = .ok g) :
    ∃ pr', pr.run E l = (pr', none) ∧ Inv E comps pr'.ps ∧ pr'.ps.basepath = pr.ps.basepath ∧ procCells E pr' = g := by
  induction l generalizing pr with
  | nil =>
    simp only [runActs, Except.ok.injEq] at hl
    exact ⟨pr, rfl, h, rfl, hl⟩
  | cons x l ih =>
    obtain ⟨k, a⟩ := x
    simp only [runActs] at hl
    cases ha : a.run (procCells E pr k) with
    | error e => simp [ha] at hl
    | ok c =>
      simp only [ha] at hl
      obtain ⟨pr1, h1, h2, h3, h4⟩ := act_ok hE hA h k a ha
      rw [← h4] at hl
      obtain ⟨pr', h5, h6, h7, h8⟩ := ih h2 hl
      exact ⟨pr', by rw [Proc.run, h1]; exact h5, h6, h7.trans h3, h8⟩

theorem act_error (hE : Lawful E comps) (hA : ForAgg E) {pr : Proc K A M} (h : Inv E comps pr.ps) (k : K) (a : Act A M)
    {e : Err} (ha : a.run (procCells E pr k) = .error e) : ∃ e', pr.act E k a = (pr, some e') := by
  cases a with
  | pend m => simp [Act.run] at ha
  | store T p rows =>
    simp only [Act.run, procCells] at ha
    cases hs : storeSet T p (storeWorld E pr.ps k) rows (pr.pending k) with
    | error e => exact ⟨_, put_error hE hA h k ⟨T, p, rows, pr.pending k⟩ hs⟩
    | ok d => simp [hs] at ha
  | raise e => exact ⟨_, rfl⟩
  | writeMd =>
    simp only [Act.run] at ha
    cases hp : (procCells E pr k).pending <;> simp [hp] at ha

end

/-! ### Steps of calls -/

section
variable {K R A S P Q F : Type} [DecidableEq K] [DecidableEq F]

theorem roundActs_seq (sel : F → Bool) (truthy : Int → Bool) (op : KOp R P) (keys : List (F × KeyCfg K R A S Q))
    (bs : List (KeyBuf A S Q)) : RoundActs sel truthy op keys bs ((seqSteps sel truthy op 0 keys bs).map Prod.snd) :=
  ⟨_, rfl, fun i => by
    rw [stepsOf_seq, if_pos (Nat.zero_le _), Nat.sub_zero]
    cases keys[i]? <;> cases bs[i]? <;> rfl⟩

theorem roundActs_touch {sel : F → Bool} {truthy : Int → Bool} {op : KOp R P} {keys : List (F × KeyCfg K R A S Q)}
    {bs : List (KeyBuf A S Q)} {acts : List (K × Act A (Md S P Q))} (h : RoundActs sel truthy op keys bs acts) :
    ∀ x ∈ acts, ∃ k ∈ keys, k.2.touches x.1 := by
  obtain ⟨sched, rfl, hs⟩ := h
  intro y hy
  obtain ⟨x, hx, rfl⟩ := List.mem_map.1 hy
  have : x.2 ∈ stepsOf x.1 sched := by
    simp only [stepsOf, List.mem_filterMap]
    exact ⟨x, hx, by simp⟩
  rw [hs] at this
  cases h1 : keys[x.1]? with
  | none => simp [h1] at this
  | some k =>
    cases h2 : bs[x.1]? with
    | none => simp [h1, h2] at this
    | some b =>
      simp only [h1, h2] at this
      split at this
      · exact ⟨k, List.mem_of_getElem? h1, opActs_touch _ _ _ _ _ this⟩
      · simp at this

theorem loopActs_exists {c : Config K R A S P Q F} {ys : List (Yield F R)} {r r' : Option Int} {bs bs' : List (KeyBuf A S Q)}
    {w w' : World K A (Md S P Q)} (h : aggLoop c ys r bs w = .ok (r', bs', w')) : ∃ acts, LoopActs c ys bs w acts := by
  induction ys generalizing r bs w with
  | nil => exact ⟨[], rfl⟩
  | cons y ys ih =>
    simp only [aggLoop] at h
    cases hf : forKeys (fun f => decide (f = y.filt)) (fun cfg => aggIter cfg c.truthy y.rows) c.keys bs w with
    | error e => simp [hf] at h
    | ok x =>
      obtain ⟨bs1, w1⟩ := x
      simp only [hf] at h
      obtain ⟨a2, h2⟩ := ih h
      exact ⟨_, _, a2, bs1, w1, rfl, roundActs_seq _ _ _ _ _, hf, h2⟩

theorem callActs_exists {c : Config K R A S P Q F} {a : Call R} {s s' : State A S P Q} {w w' : World K A (Md S P Q)} {e : Bool}
    (h : agg c a s w = .ok (s', w', e)) : ∃ acts, CallActs c a s w acts := by
  simp only [agg] at h
  cases hit : iterData c.ord s.restart c.pre s.pre c.filters a.trimStart a.discardLast a.seed with
  | mk ys it =>
    obtain ⟨pb, exc⟩ := it
    simp only [hit] at h
    cases hl : aggLoop c ys s.restart s.bufs w with
    | error e => simp [hl] at h
    | ok x =>
      obtain ⟨r, bs, w1⟩ := x
      obtain ⟨a1, h1⟩ := loopActs_exists hl
      cases hf : a.finalWrite with
      | true =>
        refine ⟨_, ys, pb, exc, r, bs, w1, a1, (seqSteps (fun _ => true) c.truthy (.final r pb) 0 c.keys bs).map Prod.snd,
          rfl, hit, h1, hl, ?_⟩
        rw [if_pos hf]
        exact roundActs_seq _ _ _ _ _
      | false =>
        refine ⟨_, ys, pb, exc, r, bs, w1, a1, [], rfl, hit, h1, hl, ?_⟩
        rw [if_neg (by simp [hf])]

theorem callsActs_exists {c : Config K R A S P Q F} {as : List (Call R)} {s s' : State A S P Q} {w w' : World K A (Md S P Q)}
    (h : aggs c as s w = .ok (s', w')) : ∃ acts, CallsActs c as s w acts := by
  induction as generalizing s w with
  | nil => exact ⟨[], rfl⟩
  | cons a as ih =>
    simp only [aggs] at h
    cases ha : agg c a s w with
    | error e => simp [ha] at h
    | ok x =>
      obtain ⟨s1, w1, e⟩ := x
      simp only [ha] at h
      obtain ⟨a1, h1⟩ := callActs_exists ha
      obtain ⟨a2, h2⟩ := ih h
      exact ⟨_, a1, a2, s1, w1, e, rfl, h1, ha, h2⟩

theorem loopActs_touch {c : Config K R A S P Q F} {ys : List (Yield F R)} {bs : List (KeyBuf A S Q)}
    {w : World K A (Md S P Q)} {acts : List (K × Act A (Md S P Q))} (h : LoopActs c ys bs w acts) :
    ∀ x ∈ acts, ∃ k ∈ c.keys, k.2.touches x.1 := by
  induction ys generalizing bs w acts with
  | nil => obtain rfl : acts = [] := h; simp
  | cons y ys ih =>
    obtain ⟨a1, a2, bs', w', rfl, h1, -, h2⟩ := h
    intro x hx
    rcases List.mem_append.1 hx with hx | hx
    · exact roundActs_touch h1 x hx
    · exact ih h2 x hx

theorem callActs_touch {c : Config K R A S P Q F} {a : Call R} {s : State A S P Q} {w : World K A (Md S P Q)}
    {acts : List (K × Act A (Md S P Q))} (h : CallActs c a s w acts) : ∀ x ∈ acts, ∃ k ∈ c.keys, k.2.touches x.1 := by
  obtain ⟨ys, pb, exc, r, bs, w', a1, a2, rfl, -, h1, -, h2⟩ := h
  intro x hx
  rcases List.mem_append.1 hx with hx | hx
  · exact loopActs_touch h1 x hx
  · split at h2
    · exact roundActs_touch h2 x hx
    · subst h2; simp at hx

theorem callsActs_touch {c : Config K R A S P Q F} {as : List (Call R)} {s : State A S P Q} {w : World K A (Md S P Q)}
    {acts : List (K × Act A (Md S P Q))} (h : CallsActs c as s w acts) : ∀ x ∈ acts, ∃ k ∈ c.keys, k.2.touches x.1 := by
  induction as generalizing s w acts with
  | nil => obtain rfl : acts = [] := h; simp
  | cons a as ih =>
    obtain ⟨a1, a2, s', w', e, rfl, h1, -, h2⟩ := h
    intro x hx
    rcases List.mem_append.1 hx with hx | hx
    · exact callActs_touch h1 x hx
    · exact ih h2 x hx

end
end Oups.AggStream
