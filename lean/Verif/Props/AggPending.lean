import Verif.Spec.AggPending
import Verif.Props.AggStore
import Verif.Props.AggWithin
/-! Property C70: a process that goes on after a final write was stopped. -/
set_option linter.unusedSimpArgs false
namespace Oups.AggStream
open Oups.Writer (Table Params RG)

section
variable {K R A S P Q M F : Type} [DecidableEq K] [DecidableEq F]

/-! ### Same rows, other metadata -/

/-- Same rows, same presence in the store. -/
def SameRows (c d : Cell A M) : Prop := c.data.rgs = d.data.rgs ∧ c.data.inStore = d.data.inStore

theorem storeSet_rows {T : Table (Row A)} {p : Params} {d e : Dataset (Row A) M} {rows : List (Row A)} {m m' : Option M}
    (h : d.rgs = e.rgs) {d' : Dataset (Row A) M} (hs : storeSet T p d rows m = .ok d') :
    ∃ e', storeSet T p e rows m' = .ok e' ∧ e'.rgs = d'.rgs ∧ e'.inStore = d'.inStore ∧
      (m' = m → m.isSome → e' = d') := by
  simp only [storeSet, ← h] at hs ⊢
  cases hw : Oups.Writer.write T p d.rgs rows with
  | error x => simp [hw] at hs
  | ok rgs =>
    simp only [hw, Except.ok.injEq] at hs ⊢
    subst hs
    refine ⟨_, rfl, rfl, rfl, ?_⟩
    rintro rfl hm
    cases m' with
    | none => simp at hm
    | some x => rfl

theorem sameRows_step {a : Act A M} {c d c' : Cell A M} (h : SameRows c d) (hc : a.run c = .ok c') :
    ∃ d', a.run d = .ok d' ∧ SameRows c' d' ∧ (c = d → c' = d') ∧
      (c.pending = d.pending → c.pending.isSome → c' = d' ∨ (c'.pending = d'.pending ∧ c'.pending.isSome)) ∧
      ((∃ m, a = .pend m) → c'.pending = d'.pending ∧ c'.pending.isSome) := by
  cases a with
  | pend m =>
    simp only [Act.run, Except.ok.injEq] at hc
    subst hc
    exact ⟨_, rfl, h, fun e => by rw [e], fun _ _ => .inr ⟨rfl, rfl⟩, fun _ => ⟨rfl, rfl⟩⟩
  | store T p rows =>
    simp only [Act.run] at hc
    cases hs : storeSet T p c.data rows c.pending with
    | error e => simp [hs] at hc
    | ok x =>
      simp only [hs, Except.ok.injEq] at hc
      subst hc
      obtain ⟨x', e1, e2, e3, e4⟩ := storeSet_rows (m' := d.pending) h.1 hs
      refine ⟨⟨x', none⟩, by simp [Act.run, e1], ⟨e2.symm, e3.symm⟩, ?_, ?_, ?_⟩
      · rintro rfl
        rw [hs, Except.ok.injEq] at e1
        rw [e1]
      · intro hp hm
        exact .inl (by rw [e4 hp.symm hm])
      · rintro ⟨m, hm⟩; simp at hm
  | writeMd =>
    obtain ⟨⟨rg, md, ins⟩, pc⟩ := c
    obtain ⟨⟨rg', md', ins'⟩, pd⟩ := d
    obtain ⟨h1, h2⟩ := h
    simp only at h1 h2
    subst h1 h2
    cases pc <;> cases pd <;> cases ins <;> simp only [Act.run, Except.ok.injEq] at hc <;> subst hc <;>
      simp [Act.run, SameRows]
    all_goals exact fun h => by rw [h]
  | raise e => simp [Act.run] at hc

/-- Steps from states of the same rows; once an item is registered, what follows is the same. -/
theorem sameRows_run {l : List (Act A M)} {c d c' : Cell A M} (h : SameRows c d) (hc : runCell l c = .ok c')
    (he : c'.pending = none)
    (hp : c = d ∨ (c.pending = d.pending ∧ c.pending.isSome) ∨ ∃ m, Act.pend m ∈ l) : runCell l d = .ok c' := by
  induction l generalizing c d with
  | nil =>
    simp only [runCell, Except.ok.injEq] at hc ⊢
    subst hc
    rcases hp with rfl | ⟨-, hp⟩ | ⟨m, hm⟩
    · rfl
    · simp [he] at hp
    · simp at hm
  | cons a l ih =>
    simp only [runCell] at hc ⊢
    cases ha : a.run c with
    | error e => simp [ha] at hc
    | ok c1 =>
      simp only [ha] at hc
      obtain ⟨d1, e1, e2, e3, e4, e5⟩ := sameRows_step h ha
      simp only [e1]
      refine ih e2 hc ?_
      rcases hp with hp | ⟨hp, hm⟩ | ⟨m, hm⟩
      · exact .inl (e3 hp)
      · exact (e4 hp hm).imp id .inl
      · rcases List.mem_cons.1 hm with rfl | hm
        · exact .inr (.inl (e5 ⟨m, rfl⟩))
        · exact .inr (.inr ⟨m, hm⟩)

theorem runCell_noRaise {l : List (Act A M)} {c c' : Cell A M} (hc : runCell l c = .ok c') (e : Err) : Act.raise e ∉ l := by
  induction l generalizing c with
  | nil => simp
  | cons a l ih =>
    simp only [runCell] at hc
    cases ha : a.run c with
    | error e => simp [ha] at hc
    | ok c1 =>
      simp only [ha] at hc
      simp only [List.mem_cons, not_or]
      refine ⟨?_, ih hc⟩
      rintro rfl
      simp [Act.run] at ha

theorem mem_actsOn {k : K} {a : Act A M} {l : List (K × Act A M)} : a ∈ actsOn k l ↔ (k, a) ∈ l := by
  simp only [actsOn, List.mem_filterMap]
  constructor
  · rintro ⟨⟨j, b⟩, hx, h⟩
    split at h
    · rename_i e
      simp only [Option.some.injEq] at h e
      subst h e
      exact hx
    · simp at h
  · intro h
    exact ⟨(k, a), h, by simp⟩

/-! ### The final write registers an item for each key -/

theorem final_pends {sel : F → Bool} (hsel : ∀ f, sel f = true) {truthy : Int → Bool} {i : Int} (hi : truthy i = true) {pb : P}
    {keys : List (F × KeyCfg K R A S Q)} {bs : List (KeyBuf A S Q)} (hl : bs.length = keys.length)
    {acts : List (K × Act A (Md S P Q))} (ha : RoundActs (R := R) sel truthy (.final (some i) pb) keys bs acts)
    {g g' : K → Cell A (Md S P Q)} (hr : runActs acts g = .ok g') {k : F × KeyCfg K R A S Q} (hk : k ∈ keys) :
    ∃ m, (k.2.main, Act.pend m) ∈ acts := by
  obtain ⟨sched, rfl, hs⟩ := ha
  obtain ⟨j, hj, rfl⟩ := List.mem_iff_getElem.1 hk
  have hb : j < bs.length := by omega
  have := hs j
  simp only [List.getElem?_eq_getElem hj, List.getElem?_eq_getElem hb, hsel, if_true, opActs, Option.map_some] at this
  have hmem : ∀ x ∈ postActs keys[j].2 truthy true (some (i, pb)) bs[j], x ∈ sched.map Prod.snd := by
    intro x hx
    rw [← this] at hx
    simp only [stepsOf, List.mem_filterMap] at hx
    obtain ⟨y, hy, h⟩ := hx
    split at h
    · simp only [Option.some.injEq] at h
      exact List.mem_map.2 ⟨y, hy, h⟩
    · simp at h
  cases hres : results keys[j].2 true bs[j] with
  | error e =>
    have := hmem (keys[j].2.main, .raise e) (by simp [postActs, hres])
    exact absurd (mem_actsOn.2 this) (runCell_noRaise (runActs_ok hr _) e)
  | ok x =>
    obtain ⟨q, main, snap⟩ := x
    exact ⟨_, hmem (keys[j].2.main, .pend ⟨i, pb, bs[j].seg, q⟩) (by
      simp only [postActs, hres, pendingMd, hi, if_true, writeActs, pendActs, List.cons_append, List.mem_cons, true_or])⟩

theorem callActs_pends {c : Config K R A S P Q F} (hk : Apart c.keys) {a : Call R} (hf : a.finalWrite = true)
    {s s' : State A S P Q} (hl : s.bufs.length = c.keys.length) {w w' : World K A (Md S P Q)} {e : Bool}
    {acts : List (K × Act A (Md S P Q))} (h : agg c a s w = .ok (s', w', e)) (ha : CallActs c a s w acts)
    {i : Int} (hi : s'.restart = some i) (ht : c.truthy i = true) {k : F × KeyCfg K R A S Q} (hkm : k ∈ c.keys) :
    ∃ m, (k.2.main, Act.pend m) ∈ acts := by
  have hrun := callActs_run hk h ha
  obtain ⟨ys, pb, exc, r, bs, w1, a1, a2, rfl, hit, h1, hloop, h2⟩ := ha
  simp only [hf, if_true] at h2
  have hr : r = some i := by
    simp only [agg, hit, hloop, hf, if_true] at h
    split at h
    · cases hfw : finalWrite c ⟨r, pb, bs⟩ w1 with
      | error e => simp [hfw] at h
      | ok z =>
        obtain ⟨s2, w2⟩ := z
        simp only [hfw, Except.ok.injEq, Prod.mk.injEq] at h
        obtain ⟨rfl, -⟩ := h
        simp only [finalWrite] at hfw
        split at hfw
        · cases hfw
        · simp only [Except.ok.injEq, Prod.mk.injEq] at hfw
          rw [← hfw.1] at hi
          exact hi
    · cases h
  subst hr
  rw [runActs_append (loopActs_run hk hloop h1)] at hrun
  obtain ⟨m, hm⟩ := final_pends (fun _ => rfl) ht ((aggLoop_idx hloop hl).2.2) h2 hrun hkm
  exact ⟨m, List.mem_append_right _ hm⟩

theorem callsActs_pends {c : Config K R A S P Q F} (hk : Apart c.keys) {as : List (Call R)} {a : Call R}
    (hf : a.finalWrite = true) {s s' : State A S P Q} (hl : s.bufs.length = c.keys.length) {w w' : World K A (Md S P Q)}
    {acts : List (K × Act A (Md S P Q))} (h : aggs c (as ++ [a]) s w = .ok (s', w')) (ha : CallsActs c (as ++ [a]) s w acts)
    {i : Int} (hi : s'.restart = some i) (ht : c.truthy i = true) {k : F × KeyCfg K R A S Q} (hkm : k ∈ c.keys) :
    ∃ m, (k.2.main, Act.pend m) ∈ acts := by
  induction as generalizing s w acts with
  | nil =>
    obtain ⟨a1, a2, s1, w1, e, rfl, h1, h2, h3⟩ := ha
    obtain rfl : a2 = [] := h3
    simp only [List.nil_append, aggs, h2, Except.ok.injEq, Prod.mk.injEq] at h
    obtain ⟨rfl, rfl⟩ := h
    rw [List.append_nil]
    exact callActs_pends hk hf hl h2 h1 hi ht hkm
  | cons b as ih =>
    obtain ⟨a1, a2, s1, w1, e, rfl, h1, h2, h3⟩ := ha
    simp only [List.cons_append, aggs, h2] at h
    obtain ⟨m, hm⟩ := ih (agg_idx h2 hl).2.1 h h3
    exact ⟨m, List.mem_append_right _ hm⟩

/-- Steps of calls that end with a final write, from any items in `OUPS_METADATA` for the keys of the stream. -/
theorem pended_run {c : Config K R A S P Q F} (hk : Apart c.keys) {as : List (Call R)} {a : Call R}
    (hf : a.finalWrite = true) {s s' : State A S P Q} (hl : s.bufs.length = c.keys.length) {w w' : World K A (Md S P Q)}
    {acts : List (K × Act A (Md S P Q))} (h : aggs c (as ++ [a]) s w = .ok (s', w')) (ha : CallsActs c (as ++ [a]) s w acts)
    {i : Int} (hi : s'.restart = some i) (ht : c.truthy i = true) {pend : K → Option (Md S P Q)}
    (hp : ∀ x, pend x ≠ none → ∃ k ∈ c.keys, x = k.2.main) : runActs acts (pended w pend) = .ok (clean w') := by
  have hrun := callsActs_run hk h ha
  apply runActs_of_cells
  intro x
  refine sameRows_run (c := clean w x) ⟨rfl, rfl⟩ (runActs_ok hrun x) rfl ?_
  cases hx : pend x with
  | none => exact .inl (by simp [clean, pended, hx])
  | some m =>
    obtain ⟨k, hkm, rfl⟩ := hp x (by simp [hx])
    obtain ⟨m', hm⟩ := callsActs_pends hk hf hl h ha hi ht hkm
    exact .inr (.inr ⟨m', mem_actsOn.2 hm⟩)

/-! ### A write that is not the final one -/

theorem iterActs_noPend (cfg : KeyCfg K R A S Q) (truthy : Int → Bool) (st : KeyBuf A S Q) (x : K) (m : Md S P Q) :
    (x, Act.pend m) ∉ iterActs cfg truthy st := by
  simp only [iterActs]
  cases st.bin with
  | none => simp
  | some b =>
    simp only
    split
    · simp
    · split
      · simp only [postActs]
        split
        · simp
        · simp only [pendingMd, writeActs, pendActs, List.nil_append]
          split
          · split
            · split <;> simp
            · simp
          · simp
      · simp

theorem runCell_append {l1 l2 : List (Act A M)} {c c' : Cell A M} (h : runCell (l1 ++ l2) c = .ok c') :
    ∃ c1, runCell l1 c = .ok c1 ∧ runCell l2 c1 = .ok c' := by
  induction l1 generalizing c with
  | nil => exact ⟨c, rfl, h⟩
  | cons a l ih =>
    simp only [List.cons_append, runCell] at h ⊢
    cases ha : a.run c with
    | error e => simp [ha] at h
    | ok c1 => simp only [ha] at h ⊢; exact ih h

/-- Without a write, and without an item registered, nothing changes but by `write_metadata`. -/
theorem runCell_pending {l : List (Act A M)} {c c' : Cell A M} (hc : runCell l c = .ok c')
    (hp : ∀ m, Act.pend m ∉ l) (hs : ∀ T p rows, Act.store T p rows ∉ l) (hw : Act.writeMd ∉ l) : c' = c := by
  cases l with
  | nil => exact (Except.ok.inj hc).symm
  | cons a l =>
    exfalso
    cases a with
    | pend m => exact hp m (by simp)
    | store T p rows => exact hs T p rows (by simp)
    | writeMd => exact hw (by simp)
    | raise e => simp [runCell, Act.run] at hc

theorem iterActs_noMd (cfg : KeyCfg K R A S Q) (truthy : Int → Bool) (st : KeyBuf A S Q) (x : K) :
    (x, (Act.writeMd : Act A (Md S P Q))) ∉ iterActs cfg truthy st := by
  simp only [iterActs]
  cases st.bin with
  | none => simp
  | some b =>
    simp only
    split
    · simp
    · split
      · simp only [postActs]
        split
        · simp
        · simp only [pendingMd, writeActs, pendActs, List.nil_append]
          split
          · split
            · split <;> simp
            · simp
          · simp
      · simp

/-- A kind of steps that no iteration has is not in the loop. -/
theorem loopActs_none {c : Config K R A S P Q F} {ys : List (Yield F R)} {bs : List (KeyBuf A S Q)}
    {w : World K A (Md S P Q)} {acts : List (K × Act A (Md S P Q))} (ha : LoopActs c ys bs w acts) (x : K)
    {a : Act A (Md S P Q)} (hn : ∀ (cfg : KeyCfg K R A S Q) b, (x, a) ∉ iterActs cfg c.truthy b) : (x, a) ∉ acts := by
  induction ys generalizing bs w acts with
  | nil => obtain rfl : acts = [] := ha; simp
  | cons y ys ih =>
    obtain ⟨a1, a2, bs1, w1, rfl, ⟨sched, rfl, hs⟩, -, h2⟩ := ha
    simp only [List.mem_append, not_or]
    refine ⟨fun hm => ?_, ih h2⟩
    obtain ⟨⟨j, z⟩, hz, e⟩ := List.mem_map.1 hm
    simp only at e
    subst e
    have : (x, a) ∈ stepsOf j sched := by
      simp only [stepsOf, List.mem_filterMap]
      exact ⟨_, hz, by simp⟩
    rw [hs] at this
    cases h1 : c.keys[j]? with
    | none => simp [h1] at this
    | some k =>
      cases h3 : bs[j]? with
      | none => simp [h1, h3] at this
      | some b =>
        simp only [h1, h3] at this
        split at this
        · exact hn _ _ this
        · simp at this

/-- **C70** A process has an item `m` left for a key by a final write that was stopped. In the loop of a call made after that, the
first write of rows to the dataset of this key, although not a final one, records `m`: its restart index is that of
the final write that was stopped, whatever the rows aggregated so far. -/
theorem C70_recorded {c : Config K R A S P Q F} {a : Call R} {s : State A S P Q} {w : World K A (Md S P Q)}
    {pend : K → Option (Md S P Q)} {k : K} {m : Md S P Q} (hm : pend k = some m)
    {done rest : List (K × Act A (Md S P Q))} {x : K × Act A (Md S P Q)}
    (ha : CallActs c { a with finalWrite := false } s w (done ++ x :: rest)) (hx : WritesTo k x)
    (hfirst : ∀ y ∈ done, ¬ WritesTo k y) {g : K → Cell A (Md S P Q)} (hg : runActs (done ++ [x]) (pended w pend) = .ok g) :
    (g k).data.md = some m := by
  obtain ⟨ys, pb, exc, r, bs, w1, a1, a2, he, hit, h1, hagg, h2⟩ := ha
  simp only [Bool.false_eq_true, if_false] at h2
  subst h2
  rw [List.append_nil] at he
  subst he
  obtain ⟨T, p, rows, rfl⟩ := hx
  have hc := runActs_ok hg k
  have hsplit : actsOn k (done ++ [(k, Act.store T p rows)]) = actsOn k done ++ [.store T p rows] := by
    simp [actsOn]
  rw [hsplit] at hc
  obtain ⟨c1, hc1, hc2⟩ := runCell_append hc
  have hsub : ∀ y, (k, y) ∈ done → (k, y) ∈ done ++ (k, Act.store T p rows) :: rest := fun y h => List.mem_append_left _ h
  have hc1' := runCell_pending hc1
    (fun m' h => loopActs_none h1 k (fun _ _ => iterActs_noPend _ _ _ _ _) (hsub _ (mem_actsOn.1 h)))
    (fun T' p' rows' h => hfirst _ (mem_actsOn.1 h) ⟨T', p', rows', rfl⟩)
    (fun h => loopActs_none h1 k (fun _ _ => iterActs_noMd _ _ _ _) (hsub _ (mem_actsOn.1 h)))
  subst hc1'
  simp only [runCell, Act.run, pended, hm, storeSet] at hc2
  cases hw : Oups.Writer.write T p (w k).rgs rows with
  | error e => simp [hw] at hc2
  | ok rgs =>
    simp only [hw, Except.ok.injEq] at hc2
    rw [← hc2]

end

/-! ### On a `ParquetSet` -/

section
open Oups.Collection (PS FS OupsTree Key PlainBase resolve)
open Oups.Indexer (Str Schema)
variable {R A S P Q F : Type} [DecidableEq F] {sep : Char} {sch : Schema}

/-- **C70** In a process with items left in `OUPS_METADATA` for keys of the stream by final writes that were stopped, calls that
end with a final write leave the directories as they would in a new process: same datasets, same metadata, and no item
left. -/
theorem C70_completed (hsep : sep ≠ '/') (hw : sch.WF) {base : Str} (hb : PlainBase base) {fs : FS (Files A (Md S P Q))}
    (hfs : OupsTree sep sch (resolve base) fs) {c : Config (Key sep sch) R A S P Q F} (hk : Apart c.keys)
    {as : List (Call R)} {a : Call R} (hf : a.finalWrite = true) {s s' : State A S P Q} (hl : s.bufs.length = c.keys.length)
    {w' : World (Key sep sch) A (Md S P Q)}
    (h : aggs c (as ++ [a]) s (storeWorld (aggEnv A _ sep sch) (PS.openAt (aggEnv A _ sep sch) base fs)) = .ok (s', w'))
    {i : Int} (hi : s'.restart = some i) (ht : c.truthy i = true) {pend : Key sep sch → Option (Md S P Q)}
    (hp : ∀ x, pend x ≠ none → ∃ k ∈ c.keys, x = k.2.main) {acts : List (Key sep sch × Act A (Md S P Q))}
    (ha : CallsActs c (as ++ [a]) s (storeWorld (aggEnv A _ sep sch) (PS.openAt (aggEnv A _ sep sch) base fs)) acts) :
    ∃ fs', Proc.run (aggEnv A _ sep sch) acts ⟨PS.openAt (aggEnv A _ sep sch) base fs, pend⟩ =
        (⟨PS.openAt (aggEnv A _ sep sch) base fs', fun _ => none⟩, none) ∧
      storeWorld (aggEnv A _ sep sch) (PS.openAt (aggEnv A _ sep sch) base fs') = w' := by
  have hE := agg_lawful (A := A) (M := Md S P Q) hsep hw
  obtain ⟨⟨ps', p'⟩, h1, h2, h3, h4⟩ := run_ok hE agg_for (pr := ⟨PS.openAt (aggEnv A _ sep sch) base fs, pend⟩)
    (agg_inv hsep hw hb hfs) (pended_run hk hf hl h ha hi ht hp)
  have hpn : p' = fun _ => none := by funext k; exact congrArg Cell.pending (congrFun h4 k)
  subst hpn
  have h3 : ps'.basepath = base := h3
  have ho := opened hsep hw h2 h3
  exact ⟨ps'.fs, by rw [← ho]; exact h1, by rw [← ho]; funext k; exact congrArg Cell.data (congrFun h4 k)⟩

end
/-! ### Examples -/

/-- Rows of the final write of a call on `exSeed3`. -/
def exThird : List (Row (List (List Int))) := [(60, some [[512, 512]]), (70, some [[1, 1]])]

/-- Datasets of cells. -/
def exData {M : Type} (g : Nat → Cell (List (List Int)) M) : World Nat (List (List Int)) M := fun k => (g k).data

/-- Steps of a call of a stream with one key, with and without its final write. -/
def exCall (cfg : KeyCfg Nat (Int × Int) (List (List Int)) ExBuf Unit) (seed : List (List (Int × Int))) (final : Bool)
    (s : State (List (List Int)) ExBuf Unit Unit) (w : ExWorld ExBuf) : Option (List ExAct) :=
  let c := exConf [(0, cfg)]
  let ys := (iterData c.ord s.restart c.pre s.pre c.filters false false seed).1
  match s.bufs with
  | [b] =>
    match aggLoop c ys s.restart [b] w with
    | .ok (r, [b'], _) =>
      some (exLoop cfg c.truthy ys b w ++ if final then postActs cfg c.truthy true (r.map fun i => (i, ())) b' else [])
    | _ => none
  | _ => none

theorem exCall_acts {cfg : KeyCfg Nat (Int × Int) (List (List Int)) ExBuf Unit} {seed : List (List (Int × Int))} {final : Bool}
    {s : State (List (List Int)) ExBuf Unit Unit} {w : ExWorld ExBuf} {acts : List ExAct}
    (hy : ∀ y ∈ (iterData Prod.fst s.restart (exConf [(0, cfg)]).pre () [(0, none)] false false seed).1, y.filt = 0)
    (h : exCall cfg seed final s w = some acts) :
    CallActs (exConf [(0, cfg)]) ⟨seed, false, false, final⟩ s w acts := by
  simp only [exCall] at h
  split at h
  · rename_i b hb
    split at h
    · rename_i r b' w' hl
      simp only [Option.some.injEq] at h
      subst h
      refine ⟨_, _, _, r, [b'], w', _, _, rfl, rfl, ?_, by rw [hb]; exact hl, ?_⟩
      · rw [hb]; exact exLoop_acts cfg hy hl
      · cases final with
        | false => rfl
        | true =>
          simp only [if_true]
          refine ⟨(postActs cfg (exConf [(0, cfg)]).truthy true (r.map fun i => (i, ())) b').map fun x => (0, x), by simp, fun i => ?_⟩
          rw [stepsOf_tag]
          cases i with
          | zero => simp [exConf, opActs]
          | succ n => simp [exConf]
    · cases h
  · cases h

/-- A final write on `exSeed1`; then a call on `exSeed3` stopped in its final write, before rows are written; the same call
made again in the same process, by a stream created from the store, and stopped after its first write; a call on later
rows in a new process. The index recorded by the write that is not a final one is that of the end of `exSeed3`: the bin
of 60, which was only in memory, is never written. -/
theorem C70_lost_fails : ∃ s1 w1 m g2 s3 more g3 s4,
    aggs (exConf [(0, exKey 0 0)]) [⟨exSeed1, false, false, true⟩] (exState 1 ex0) exWorld = .ok (s1, w1) ∧
    CallActs (exConf [(0, exKey 0 0)]) ⟨exSeed3, false, false, true⟩ s1 w1
      ([(0, .store exT exParams exFirst), (0, .store exT exParams exSecond), (0, .pend m)] ++
        [(0, .store exT exParams exThird)]) ∧ m.restart = 74 ∧
    runActs [(0, .store exT exParams exFirst), (0, .store exT exParams exSecond), (0, .pend m)] (clean w1) = .ok g2 ∧
    initBuffers ex0 () () (exConf [(0, exKey 0 0)]) (exData g2) = .ok s3 ∧ s3.restart = some 25 ∧
    CallActs (exConf [(0, exKey 0 0)]) ⟨exSeed3, false, false, false⟩ s3 (exData g2)
      ((0, .store exT exParams exFirst) :: more) ∧
    runActs [(0, .store exT exParams exFirst)] g2 = .ok g3 ∧
    initBuffers ex0 () () (exConf [(0, exKey 0 0)]) (exData g3) = .ok s4 ∧ s4.restart = some 74 ∧
    (exStored 0 (aggs (exConf [(0, exKey 0 0)]) [⟨[[(75, 2)]], false, false, true⟩] s4 (exData g3))).map List.flatten =
      some [(0, some [[1, 1]]), (10, some [[6, 4]]), (20, some [[24, 16]]), (30, some [[96, 64]]), (40, none),
        (50, some [[256, 256]]), (70, some [[3, 2]])] ∧
    (exStored 0 (aggs (exConf [(0, exKey 0 0)]) [⟨exSeed1, false, false, true⟩, ⟨exSeed3, false, false, true⟩,
        ⟨[[(75, 2)]], false, false, true⟩] (exState 1 ex0) exWorld)).map List.flatten =
      some [(0, some [[1, 1]]), (10, some [[6, 4]]), (20, some [[24, 16]]), (30, some [[96, 64]]), (40, none),
        (50, some [[256, 256]]), (60, some [[512, 512]]), (70, some [[3, 2]])] := by
  refine ⟨_, _, _, _, _, _, _, _, rfl, exCall_acts ?_ (rfl : exCall (exKey 0 0) exSeed3 true _ _ = some _), rfl, rfl, rfl, rfl,
    exCall_acts ?_ (rfl : exCall (exKey 0 0) exSeed3 false _ _ = some _), rfl, rfl, rfl, rfl, rfl⟩ <;> decide

-- C70_recorded: the first write of the call made again, in the same process
example : ∃ s1 w1 m g2 s3 more g3,
    aggs (exConf [(0, exKey 0 0)]) [⟨exSeed1, false, false, true⟩] (exState 1 ex0) exWorld = .ok (s1, w1) ∧
    runActs [(0, .store exT exParams exFirst), (0, .store exT exParams exSecond), (0, .pend m)] (clean w1) = .ok g2 ∧
    m.restart = 74 ∧ initBuffers ex0 () () (exConf [(0, exKey 0 0)]) (exData g2) = .ok s3 ∧
    CallActs (exConf [(0, exKey 0 0)]) ⟨exSeed3, false, false, false⟩ s3 (exData g2)
      ([] ++ (0, .store exT exParams exFirst) :: more) ∧
    runActs ([] ++ [(0, .store exT exParams exFirst)]) (pended (exData g2) fun k => (g2 k).pending) = .ok g3 ∧
    (g3 0).data.md = some m := by
  obtain ⟨s1, w1, m, g2, s3, more, g3, s4, h1, h2, hr, h3, h4, -, h5, h6, h7, h8, -⟩ := C70_lost_fails
  have hp : (g2 0).pending = some m := by
    have := runActs_ok h3 0
    obtain ⟨c1, -, hc⟩ := runCell_append (l1 := [.store exT exParams exFirst, .store exT exParams exSecond]) (l2 := [.pend m]) this
    simp only [runCell, Act.run, Except.ok.injEq] at hc
    rw [← hc]
  have hm := C70_recorded (pend := fun k => (g2 k).pending) (k := 0) (a := ⟨exSeed3, false, false, true⟩) hp (done := []) h5
    ⟨_, _, _, rfl⟩ (by simp) h6
  refine ⟨s1, w1, m, g2, s3, more, g3, h1, h3, hr, h4, h5, h6, hm⟩

-- C70_completed: an item of another origin is left for the key
example (m : Md ExBuf Unit Unit) (acts) : let E := aggEnv (List (List Int)) (Md ExBuf Unit Unit) '_' Indexer.sch2
    let w := storeWorld E (Collection.PS.openAt E ['d'] [])
    CallsActs exClassConf [⟨exSeed1, false, false, true⟩] (exState 1 ex0) w acts →
    ∃ s' w' fs', aggs exClassConf [⟨exSeed1, false, false, true⟩] (exState 1 ex0) w = .ok (s', w') ∧
      Proc.run E acts ⟨Collection.PS.openAt E ['d'] [], fun k => if k = exClassKey.main then some m else none⟩ =
        (⟨Collection.PS.openAt E ['d'] fs', fun _ => none⟩, none) ∧
      storeWorld E (Collection.PS.openAt E ['d'] fs') = w' ∧
      (w' exClassKey.main).rgs.map RG.rows = [[(0, some [[1, 1]]), (10, some [[6, 4]]), (20, some [[8, 8]])]] ∧
      (w' exClassKey.main).md.map Md.restart = some 25 := by
  intro E w ha
  have hev : (aggs exClassConf [⟨exSeed1, false, false, true⟩] (exState 1 ex0) w).toOption.map
      (fun x => (x.1.restart, (x.2 exClassKey.main).rgs.map RG.rows, (x.2 exClassKey.main).md.map Md.restart)) =
      some (some 25, [[(0, some [[1, 1]]), (10, some [[6, 4]]), (20, some [[8, 8]])]], some 25) := rfl
  cases hr : aggs exClassConf [⟨exSeed1, false, false, true⟩] (exState 1 ex0) w with
  | error e => rw [hr] at hev; cases hev
  | ok x =>
    obtain ⟨s', w'⟩ := x
    rw [hr] at hev
    simp only [Except.toOption, Option.map_some, Option.some.injEq, Prod.mk.injEq] at hev
    obtain ⟨h1, h2, h3⟩ := hev
    obtain ⟨fs', e1, e2⟩ := C70_completed (sep := '_') (by decide) Indexer.key2_wf (base := ['d'])
      (by simp [Collection.PlainBase]) (fs := []) ⟨⟨by simp, by simp [Collection.FS.lookup]⟩, by simp [Collection.FS.lookup]⟩
      (c := exClassConf) (List.pairwise_singleton _ _) (as := []) (a := ⟨exSeed1, false, false, true⟩) rfl rfl hr h1 rfl
      (pend := fun k => if k = exClassKey.main then some m else none)
      (fun x hx => ⟨_, List.mem_singleton_self _, by
        by_contra hne
        exact hx (if_neg hne)⟩) ha
    exact ⟨s', w', fs', rfl, e1, e2, h2, h3⟩

end Oups.AggStream
