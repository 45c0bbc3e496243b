import Verif.Proofs.AggStore
import Verif.Props.AggParallel
import Verif.Props.AggRestart
import Verif.Props.Collection
/-! Property C60: an aggregation stream on a `ParquetSet`. -/
set_option linter.unusedSimpArgs false
namespace Oups.AggStream
open Oups.Writer (Table Params RG readRows)
open Oups.Collection (Env PS FS Path Lawful Inv resolve PlainBase Canonical NoStray OupsTree Key isParquetFile)
open Oups.Indexer (Str Schema)

section
variable {K R A S P Q F : Type} [DecidableEq K] [DecidableEq F]

theorem loopActs_run {c : Config K R A S P Q F} (hk : Apart c.keys) {ys : List (Yield F R)} {r r' : Option Int}
    {bs bs' : List (KeyBuf A S Q)} {w w' : World K A (Md S P Q)} {acts : List (K × Act A (Md S P Q))}
    (h : aggLoop c ys r bs w = .ok (r', bs', w')) (ha : LoopActs c ys bs w acts) :
    runActs acts (clean w) = .ok (clean w') := by
  induction ys generalizing r bs w acts with
  | nil =>
    obtain rfl : acts = [] := ha
    simp only [aggLoop, Except.ok.injEq, Prod.mk.injEq] at h
    rw [runActs, h.2.2]
  | cons y ys ih =>
    obtain ⟨a1, a2, bs1, w1, rfl, ⟨sched, rfl, hs⟩, hf, h2⟩ := ha
    simp only [aggLoop, hf] at h
    rw [runActs_append (C52_threads hk (op := .chunk y.rows) hf sched hs)]
    exact ih h h2

theorem callActs_run {c : Config K R A S P Q F} (hk : Apart c.keys) {a : Call R} {s s' : State A S P Q}
    {w w' : World K A (Md S P Q)} {e : Bool} {acts : List (K × Act A (Md S P Q))} (h : agg c a s w = .ok (s', w', e))
    (ha : CallActs c a s w acts) : runActs acts (clean w) = .ok (clean w') := by
  obtain ⟨ys, pb, exc, r, bs, w1, a1, a2, rfl, hit, h1, hl, h2⟩ := ha
  simp only [agg, hit, hl] at h
  rw [runActs_append (loopActs_run hk hl h1)]
  split at h
  · cases hf : a.finalWrite with
    | false =>
      simp only [hf, Bool.false_eq_true, if_false, Except.ok.injEq, Prod.mk.injEq] at h h2
      subst h2
      rw [runActs, h.2.1]
    | true =>
      simp only [hf, if_true] at h h2
      obtain ⟨sched, rfl, hs⟩ := h2
      simp only [finalWrite] at h
      cases hx : forKeys (fun _ => true) (fun cfg => postNWrite cfg c.truthy true (r.map fun i => (i, pb))) c.keys bs w1 with
      | error e => simp [hx] at h
      | ok x =>
        obtain ⟨bs2, w2⟩ := x
        simp only [hx, Except.ok.injEq, Prod.mk.injEq] at h
        rw [C52_threads hk (op := .final r pb) hx sched hs, h.2.1]
  · cases h

theorem callsActs_run {c : Config K R A S P Q F} (hk : Apart c.keys) {as : List (Call R)} {s s' : State A S P Q}
    {w w' : World K A (Md S P Q)} {acts : List (K × Act A (Md S P Q))} (h : aggs c as s w = .ok (s', w'))
    (ha : CallsActs c as s w acts) : runActs acts (clean w) = .ok (clean w') := by
  induction as generalizing s w acts with
  | nil =>
    obtain rfl : acts = [] := ha
    simp only [aggs, Except.ok.injEq, Prod.mk.injEq] at h
    rw [runActs, h.2]
  | cons a as ih =>
    obtain ⟨a1, a2, s1, w1, e, rfl, h1, hagg, h2⟩ := ha
    simp only [aggs, hagg] at h
    rw [runActs_append (callActs_run hk hagg h1)]
    exact ih h h2

/-! ### Stops between two steps -/

theorem KeyCrash.prepend {cfg : KeyCfg K R A S Q} {truthy : Int → Bool} {pre ops : List (KOp R P)} {b b' : KeyBuf A S Q}
    {w w1 w1' wc : World K A (Md S P Q)} (hp : keyRun cfg truthy pre b w = .ok (b', w1')) (hw : Agree cfg w1' w1)
    (h : KeyCrash cfg truthy ops b' w1 wc) : KeyCrash cfg truthy (pre ++ ops) b w wc := by
  obtain ⟨done, rest, st, wd, rfl, hr, hc⟩ := h
  have hloc := keyRun_local cfg truthy done b' hw
  rw [hr] at hloc
  cases hr' : keyRun cfg truthy done b' w1' with
  | error e => rw [hr'] at hloc; exact hloc.elim
  | ok x =>
    obtain ⟨st', wd'⟩ := x
    rw [hr'] at hloc
    obtain ⟨rfl, ha, -, -⟩ := hloc
    refine ⟨pre ++ done, rest, st', wd', (List.append_assoc _ _ _).symm, by rw [keyRun_append_ok hp, hr'], ?_⟩
    rcases hc with hc | ⟨op, rest', st2, w2, rfl, hs, hm, ho⟩
    · exact Or.inl fun k hk => (hc k hk).trans (ha k hk).symm
    · have hsl := keyStep_local cfg truthy op st' ha
      rw [hs] at hsl
      cases hs' : keyStep cfg truthy op st' wd' with
      | error e => rw [hs'] at hsl; exact hsl.elim
      | ok x =>
        obtain ⟨st3, w3⟩ := x
        rw [hs'] at hsl
        obtain ⟨rfl, ha2, -, -⟩ := hsl
        exact Or.inr ⟨op, rest', st3, w3, rfl, hs', hm.trans (ha2 _ (touches_main cfg)).symm,
          fun k hk hne => (ho k hk hne).trans (ha k hk).symm⟩

/-- Some of the steps of an operation in the loop: none, all of them, or the first write of two. -/
theorem iterActs_prefix (cfg : KeyCfg K R A S Q) (truthy : Int → Bool) (st : KeyBuf A S Q) {p : List (K × Act A (Md S P Q))}
    (h : p <+: iterActs cfg truthy st) : p = [] ∨ p = iterActs cfg truthy st ∨
      ∃ a a', iterActs cfg truthy st = [(cfg.main, a), (cfg.snap, a')] ∧ p = [(cfg.main, a)] ∧ cfg.resType = .both := by
  have two : ∀ {x : K × Act A (Md S P Q)} {p}, p <+: [x] → p = [] ∨ p = [x] := by
    intro x p hp
    rcases p with _ | ⟨y, p⟩
    · exact Or.inl rfl
    · right
      obtain ⟨rfl, hp'⟩ := List.cons_prefix_cons.1 hp
      rw [List.prefix_nil.1 hp']
  simp only [iterActs] at h ⊢
  cases hb : st.bin with
  | none => simp only [hb] at h; exact Or.inl (List.prefix_nil.1 h)
  | some b =>
    simp only [hb] at h ⊢
    split at h
    · exact Or.inl (List.prefix_nil.1 h)
    · rename_i h1
      rw [if_neg h1]
      split at h
      · rename_i h2
        rw [if_pos h2]
        simp only [postActs] at h ⊢
        cases hr : results cfg false (pushPrev cfg st b) with
        | error e =>
          simp only [hr] at h ⊢
          exact (two h).imp_right Or.inl
        | ok x =>
          obtain ⟨q, main, snap⟩ := x
          simp only [hr, writeActs, pendingMd, pendActs, List.nil_append] at h ⊢
          cases main with
          | none => simp only at h; exact Or.inl (List.prefix_nil.1 h)
          | some rows =>
            simp only at h ⊢
            rcases p with _ | ⟨y, p⟩
            · exact Or.inl rfl
            · obtain ⟨rfl, hp⟩ := List.cons_prefix_cons.1 h
              right
              by_cases hbo : cfg.resType = .both
              · rw [if_pos hbo] at hp ⊢
                cases snap with
                | none =>
                  rcases two hp with rfl | rfl
                  · exact Or.inr ⟨_, _, rfl, rfl, hbo⟩
                  · exact Or.inl rfl
                | some srows =>
                  rcases two hp with rfl | rfl
                  · exact Or.inr ⟨_, _, rfl, rfl, hbo⟩
                  · exact Or.inl rfl
              · rw [if_neg hbo] at hp ⊢
                rw [List.prefix_nil.1 hp]
                exact Or.inl rfl
      · exact Or.inl (List.prefix_nil.1 h)

theorem stepsOf_prefix {i : Nat} {l1 l2 : List (Nat × K × Act A (Md S P Q))} (h : l1 <+: l2) : stepsOf i l1 <+: stepsOf i l2 := by
  obtain ⟨t, rfl⟩ := h
  rw [stepsOf_append]
  exact List.prefix_append _ _

/-- Stop while a chunk is processed. -/
theorem round_stopped {c : Config K R A S P Q F} (hk : Apart c.keys)
    (hd : ∀ k ∈ c.keys, k.2.resType = .both → k.2.main ≠ k.2.snap) {sel : F → Bool} {rows : List R}
    {bs bs1 : List (KeyBuf A S Q)} {w w1 : World K A (Md S P Q)} (hl : bs.length = c.keys.length)
    {acts : List (K × Act A (Md S P Q))} (ha : RoundActs sel c.truthy (.chunk rows) c.keys bs acts)
    (hf : forKeys sel (fun cfg => aggIter cfg c.truthy rows) c.keys bs w = .ok (bs1, w1))
    {done : List (K × Act A (Md S P Q))} (hp : done <+: acts) {g : K → Cell A (Md S P Q)}
    (hg : runActs done (clean w) = .ok g) {i : Nat} {k : F × KeyCfg K R A S Q} {b : KeyBuf A S Q}
    (hi : c.keys[i]? = some k) (hb : bs[i]? = some b) (rest : List (KOp R P)) :
    KeyCrash k.2 c.truthy ((if sel k.1 then [.chunk rows] else []) ++ rest) b w (fun x => (g x).data) := by
  obtain ⟨sched, rfl, hs⟩ := ha
  obtain ⟨sched', hpre, rfl⟩ : ∃ sched', sched' <+: sched ∧ done = sched'.map Prod.snd := by
    obtain ⟨t, ht⟩ := hp
    refine ⟨sched.take done.length, List.take_prefix _ _, ?_⟩
    rw [List.map_take, ← ht, List.take_left']
    rfl
  have hmem : ∀ x ∈ sched', ∃ c', c.keys[x.1]? = some c' ∧ c'.2.touches x.2.1 := by
    intro x hx
    have hx' : x.2 ∈ stepsOf x.1 sched := by
      simp only [stepsOf, List.mem_filterMap]
      exact ⟨x, hpre.subset hx, by simp⟩
    rw [hs] at hx'
    cases h1 : c.keys[x.1]? with
    | none => simp [h1] at hx'
    | some k =>
      cases h2 : bs[x.1]? with
      | none => simp [h1, h2] at hx'
      | some b =>
        simp only [h1, h2] at hx'
        split at hx'
        · exact ⟨k, rfl, opActs_touch _ _ _ _ _ hx'⟩
        · simp at hx'
  -- steps on the datasets of the key are those of its thread
  have hcell : ∀ x, k.2.touches x → runCell (actsOn x (stepsOf i sched')) (clean w x) = .ok (g x) := by
    intro x hx
    have h1 := runActs_ok hg x
    rwa [actsOn_steps (i := i)] at h1
    intro y hy hyk
    obtain ⟨c', h2, h3⟩ := hmem y hy
    by_contra hne
    exact hk.get hne h2 hi x (hyk ▸ h3) hx
  have hst : stepsOf i sched' <+: if sel k.1 then opActs k.2 c.truthy (.chunk rows) b else [] := by
    have := hs i
    simp only [hi, hb] at this
    rw [← this]
    exact stepsOf_prefix hpre
  have hstay : stepsOf i sched' = [] → ∀ x, k.2.touches x → (g x).data = w x := by
    intro he x hx
    have h1 := hcell x hx
    rw [he] at h1
    simp only [actsOn, List.filterMap_nil, runCell, Except.ok.injEq] at h1
    rw [← h1]; rfl
  cases hsel : sel k.1 with
  | false =>
    rw [hsel] at hst
    exact ⟨[], rest, b, w, rfl, rfl, Or.inl (hstay (List.prefix_nil.1 hst))⟩
  | true =>
    rw [hsel, if_pos rfl] at hst
    rw [if_pos rfl]
    have h1 := forKeys_idx (op := .chunk rows) (truthy := c.truthy) hf hl [] [] rfl
    simp only [List.nil_append, List.length_nil] at h1
    obtain ⟨b', w', e1, -, -⟩ := (idxRun_proj hk h1).2.2.2 i k b hi hb
    rw [opsOf_selOps_key hi, hsel, if_pos rfl] at e1
    simp only [keyRun] at e1
    cases hstep : keyStep k.2 c.truthy (.chunk rows : KOp R P) b w with
    | error e => simp [hstep] at e1
    | ok y =>
      obtain ⟨b2, w2⟩ := y
      have hrun := opActs_run k.2 c.truthy (.chunk rows : KOp R P) hstep
      rcases iterActs_prefix k.2 c.truthy b hst with he | he | ⟨a, a', he, hpa, hbo⟩
      · exact ⟨[], _, b, w, rfl, rfl, Or.inl (hstay he)⟩
      · refine ⟨[.chunk rows], rest, b2, w2, rfl, by simp [keyRun, hstep], Or.inl fun x hx => ?_⟩
        have h2 := hcell x hx
        rw [he] at h2
        have h3 := runActs_ok hrun x
        rw [opActs] at h3
        rw [h3] at h2
        exact congrArg Cell.data (Except.ok.inj h2).symm
      · have hne := hd k (List.mem_of_getElem? hi) hbo
        refine ⟨[], _, b, w, rfl, rfl, Or.inr ⟨.chunk rows, rest, b2, w2, rfl, hstep, ?_, fun x hx hxm => ?_⟩⟩
        · have h2 := hcell _ (touches_main k.2)
          have h3 := runActs_ok hrun k.2.main
          rw [opActs, he] at h3
          rw [hpa] at h2
          simp only [actsOn, List.filterMap_cons, List.filterMap_nil, if_true, Ne.symm hne, if_false] at h2 h3
          rw [h3] at h2
          exact congrArg Cell.data (Except.ok.inj h2).symm
        · have h2 := hcell x hx
          rw [hpa] at h2
          simp only [actsOn, List.filterMap_cons, List.filterMap_nil, Ne.symm hxm, if_false, runCell, Except.ok.injEq] at h2
          exact congrArg Cell.data h2.symm

theorem loop_stopped {c : Config K R A S P Q F} (hk : Apart c.keys)
    (hd : ∀ k ∈ c.keys, k.2.resType = .both → k.2.main ≠ k.2.snap) {ys : List (Yield F R)}
    {bs : List (KeyBuf A S Q)} {w : World K A (Md S P Q)} (hl : bs.length = c.keys.length)
    {acts done : List (K × Act A (Md S P Q))} (ha : LoopActs c ys bs w acts) (hp : done <+: acts)
    {g : K → Cell A (Md S P Q)} (hg : runActs done (clean w) = .ok g) {i : Nat} {k : F × KeyCfg K R A S Q} {b : KeyBuf A S Q}
    (hi : c.keys[i]? = some k) (hb : bs[i]? = some b) :
    KeyCrash k.2 c.truthy ((ys.filter fun y => decide (y.filt = k.1)).map fun y => (KOp.chunk y.rows : KOp R P)) b w
      (fun x => (g x).data) := by
  induction ys generalizing bs w acts done b with
  | nil =>
    obtain rfl : acts = [] := ha
    obtain rfl := List.prefix_nil.1 hp
    simp only [runActs, Except.ok.injEq] at hg
    subst hg
    exact ⟨[], [], b, w, rfl, rfl, Or.inl fun _ _ => rfl⟩
  | cons y ys ih =>
    obtain ⟨a1, a2, bs1, w1, rfl, h1, hf, h2⟩ := ha
    have hops : ((y :: ys).filter fun y => decide (y.filt = k.1)).map (fun y => (KOp.chunk y.rows : KOp R P)) =
        (if decide (k.1 = y.filt) then [.chunk y.rows] else []) ++
          ((ys.filter fun y => decide (y.filt = k.1)).map fun y => (KOp.chunk y.rows : KOp R P)) := by
      by_cases e : y.filt = k.1
      · simp [e]
      · simp [e, Ne.symm e]
    rw [hops]
    obtain ⟨t, ht⟩ := hp
    rcases List.append_eq_append_iff.1 ht with ⟨a', rfl, -⟩ | ⟨c', rfl, hc'⟩
    · exact round_stopped hk hd hl h1 hf (List.prefix_append _ _) hg hi hb _
    · obtain ⟨sched, rfl, hs⟩ := h1
      rw [runActs_append (C52_threads hk (op := .chunk y.rows) hf sched hs)] at hg
      have hidx := forKeys_idx (op := .chunk y.rows) (truthy := c.truthy) hf hl [] [] rfl
      simp only [List.nil_append, List.length_nil] at hidx
      obtain ⟨hlen, -, -, hkey⟩ := idxRun_proj hk hidx
      obtain ⟨b', w', e1, e2, e3⟩ := hkey i k b hi hb
      rw [opsOf_selOps_key hi] at e1
      exact KeyCrash.prepend e1 e3 (ih (hlen.trans hl) h2 ⟨t, hc'.symm⟩ hg e2)

/-! ### On any lawful class -/

variable {E : Env K (Files A (Md S P Q)) (Put A (Md S P Q))} {comps : K → List Str}

theorem reopened {K C W : Type} [DecidableEq K] {E : Env K C W} {comps : K → List Str} (hE : Lawful E comps) {ps : PS K C}
    (h : Inv E comps ps) : PS.openAt E ps.basepath ps.fs = ps := by
  have hk : (PS.openAt E ps.basepath ps.fs).keys = ps.keys :=
    Collection.sorted_ext hE (Collection.getKeys_sorted hE _ _) h.sorted fun k => by
      rw [h.mem k]
      exact Collection.mem_getKeys hE h.wf h.canonical k
  cases ps
  simp only [PS.openAt] at hk ⊢
  rw [hk]

theorem procCells_start (ps : PS K (Files A (Md S P Q))) : procCells E ⟨ps, fun _ => none⟩ = clean (storeWorld E ps) := rfl

theorem store_run (hE : Lawful E comps) (hA : ForAgg E) {ps : PS K (Files A (Md S P Q))} (h : Inv E comps ps)
    {c : Config K R A S P Q F} (hk : Apart c.keys) {as : List (Call R)} {s s' : State A S P Q}
    {w' : World K A (Md S P Q)} (hagg : aggs c as s (storeWorld E ps) = .ok (s', w'))
    {acts : List (K × Act A (Md S P Q))} (ha : CallsActs c as s (storeWorld E ps) acts) :
    ∃ ps', Proc.run E acts ⟨ps, fun _ => none⟩ = (⟨ps', fun _ => none⟩, none) ∧ Inv E comps ps' ∧
      ps'.basepath = ps.basepath ∧ storeWorld E ps' = w' := by
  obtain ⟨pr, h1, h2, h3, h4⟩ := run_ok hE hA (pr := ⟨ps, fun _ => none⟩) h (callsActs_run hk hagg ha)
  obtain ⟨ps', pend⟩ := pr
  have hp : pend = fun _ => none := by
    funext k; exact congrArg Cell.pending (congrFun h4 k)
  subst hp
  exact ⟨ps', h1, h2, h3, by funext k; exact congrArg Cell.data (congrFun h4 k)⟩

theorem runActs_prefix {l1 l2 : List (K × Act A (Md S P Q))} {g g' : K → Cell A (Md S P Q)}
    (h : runActs (l1 ++ l2) g = .ok g') : ∃ g1, runActs l1 g = .ok g1 := by
  induction l1 generalizing g with
  | nil => exact ⟨g, rfl⟩
  | cons x l1 ih =>
    obtain ⟨k, a⟩ := x
    simp only [List.cons_append, runActs] at h ⊢
    cases ha : a.run (g k) with
    | error e => simp [ha] at h
    | ok c => simp only [ha] at h; exact ih h

theorem store_stopped (hE : Lawful E comps) (hA : ForAgg E) {ps : PS K (Files A (Md S P Q))} (h : Inv E comps ps)
    {c : Config K R A S P Q F} (hk : Apart c.keys) (hd : ∀ k ∈ c.keys, k.2.resType = .both → k.2.main ≠ k.2.snap)
    {a : Call R} {s : State A S P Q} (hl : s.bufs.length = c.keys.length) {acts done : List (K × Act A (Md S P Q))}
    (ha : CallActs c { a with finalWrite := false } s (storeWorld E ps) acts) (hp : done <+: acts) :
    ∃ ps' pending, Proc.run E done ⟨ps, fun _ => none⟩ = (⟨ps', pending⟩, none) ∧ Inv E comps ps' ∧
      ps'.basepath = ps.basepath ∧ Crash c a s (storeWorld E ps) (storeWorld E ps') := by
  obtain ⟨ys, pb, exc, r, bs, w1, a1, a2, rfl, hit, h1, hagg, h2⟩ := ha
  simp only [Bool.false_eq_true, if_false] at h2
  subst h2
  rw [List.append_nil] at hp
  obtain ⟨g, hg⟩ : ∃ g, runActs done (clean (storeWorld E ps)) = .ok g := by
    have := loopActs_run hk hagg h1
    obtain ⟨t, rfl⟩ := hp
    exact runActs_prefix this
  obtain ⟨pr, e1, e2, e3, e4⟩ := run_ok hE hA (pr := ⟨ps, fun _ => none⟩) h hg
  obtain ⟨ps', pend⟩ := pr
  refine ⟨ps', pend, e1, e2, e3, fun i k b hi hb => ?_⟩
  have := loop_stopped hk hd hl h1 hp hg hi hb
  simp only at hit
  rw [hit]
  have hw : storeWorld E ps' = fun x => (g x).data := by
    funext x; rw [← e4]; rfl
  rw [hw]
  exact this

end

/-! ### On a `ParquetSet` -/

section
variable {R A S P Q F M : Type} [DecidableEq F] {sep : Char} {sch : Schema}

theorem agg_lawful (hsep : sep ≠ '/') (hw : sch.WF) :
    Lawful (aggEnv A M sep sch) (fun k => Oups.Indexer.levelStrs sep k.1) :=
  Collection.class_lawful hsep hw rfl fun p c c' h => by
    simp only [putFiles] at h
    split at h
    · cases h
    · cases h; rw [filesNames_any]; rfl

theorem agg_for : ForAgg (aggEnv A M sep sch) := ⟨rfl, rfl, rfl⟩

theorem agg_noStray {base : Path} {fs : FS (Files A M)} :
    NoStray (aggEnv A M sep sch) (fun k => Oups.Indexer.levelStrs sep k.1) base fs := by
  intro k c _
  cases c with
  | none => exact Or.inr rfl
  | some d => exact Or.inl (filesNames_any (some d))

theorem agg_inv (hsep : sep ≠ '/') (hw : sch.WF) {base : Str} (hb : PlainBase base) {fs : FS (Files A M)}
    (hfs : OupsTree sep sch (resolve base) fs) :
    Collection.Inv (aggEnv A M sep sch) (fun k => Oups.Indexer.levelStrs sep k.1) (PS.openAt (aggEnv A M sep sch) base fs) :=
  Collection.Inv.openAt (agg_lawful hsep hw) hb hfs.1 (hfs.canonical_class hsep hw rfl) agg_noStray

theorem oupsTree_of_inv (hsep : sep ≠ '/') (hw : sch.WF) {ps : PS (Key sep sch) (Files A M)}
    (h : Collection.Inv (aggEnv A M sep sch) (fun k => Oups.Indexer.levelStrs sep k.1) ps) :
    OupsTree sep sch (resolve ps.basepath) ps.fs := by
  refine ⟨h.wf, fun rel c hl hr => ?_⟩
  have hE := agg_lawful (A := A) (M := M) hsep hw
  cases hk : (aggEnv A M sep sch).fromPath (Indexer.join '/' rel) with
  | none =>
    refine Or.inr fun k hf => ?_
    rw [aggEnv, Collection.classEnv] at hk
    simp only [hf] at hk
    rw [dif_pos k.2] at hk
    cases hk
  | some k =>
    have := h.canonical rel _ k hl hr (filesNames_any (some c)) hk
    refine Or.inl ⟨k, ?_, fun s hs => (hE.plain k s (this ▸ hs)).2⟩
    rw [Collection.key_path hw k, ← this]

theorem opened (hsep : sep ≠ '/') (hw : sch.WF) {base : Str} {ps : PS (Key sep sch) (Files A M)}
    (h : Collection.Inv (aggEnv A M sep sch) (fun k => Oups.Indexer.levelStrs sep k.1) ps) (hb : ps.basepath = base) :
    ps = PS.openAt (aggEnv A M sep sch) base ps.fs := by
  rw [← hb]
  exact (reopened (agg_lawful hsep hw) h).symm

/-- **C60** Calls on a `ParquetSet`, threads being interleaved in any way: if the calls end on datasets `w'`, then directories are such
that a `ParquetSet` opened on them is the one of the process, with datasets `w'`; its keys are those of the datasets. No
metadata is left pending. -/
theorem C60_store (hsep : sep ≠ '/') (hw : sch.WF) {base : Str} (hb : PlainBase base) {fs : FS (Files A (Md S P Q))}
    (hfs : OupsTree sep sch (resolve base) fs) {c : Config (Key sep sch) R A S P Q F} (hk : Apart c.keys)
    {as : List (Call R)} {s s' : State A S P Q} {w' : World (Key sep sch) A (Md S P Q)}
    (h : aggs c as s (storeWorld (aggEnv A _ sep sch) (PS.openAt (aggEnv A _ sep sch) base fs)) = .ok (s', w'))
    {acts : List (Key sep sch × Act A (Md S P Q))}
    (ha : CallsActs c as s (storeWorld (aggEnv A _ sep sch) (PS.openAt (aggEnv A _ sep sch) base fs)) acts) :
    ∃ fs', Proc.run (aggEnv A _ sep sch) acts ⟨PS.openAt (aggEnv A _ sep sch) base fs, fun _ => none⟩ =
        (⟨PS.openAt (aggEnv A _ sep sch) base fs', fun _ => none⟩, none) ∧
      OupsTree sep sch (resolve base) fs' ∧
      storeWorld (aggEnv A _ sep sch) (PS.openAt (aggEnv A _ sep sch) base fs') = w' ∧
      ∀ k, k ∈ (PS.openAt (aggEnv A _ sep sch) base fs').keys ↔ (w' k).inStore = true := by
  have hE := agg_lawful (A := A) (M := Md S P Q) hsep hw
  obtain ⟨ps', h1, h2, h3, h4⟩ := store_run hE agg_for (agg_inv hsep hw hb hfs) hk h ha
  have h3 : ps'.basepath = base := h3
  have ho := opened hsep hw h2 h3
  refine ⟨ps'.fs, by rw [← ho]; exact h1, by rw [← h3]; exact oupsTree_of_inv hsep hw h2, by rw [← ho]; exact h4, fun k => ?_⟩
  rw [← ho, mem_keys hE agg_for h2, h4]

/-- **C60** Datasets of keys that are not in the configuration are left. -/
theorem C60_other_keys {K : Type} [DecidableEq K] {c : Config K R A S P Q F} (hk : Apart c.keys) {as : List (Call R)}
    {s s' : State A S P Q} {w w' : World K A (Md S P Q)} (h : aggs c as s w = .ok (s', w')) {x : K}
    (hx : ∀ k ∈ c.keys, ¬ k.2.touches x) : w' x = w x := by
  obtain ⟨acts, ha⟩ := callsActs_exists h
  have := runActs_ok (callsActs_run hk h ha) x
  rw [actsOn_other] at this
  · exact congrArg Cell.data (Except.ok.inj this).symm
  · intro y hy e
    obtain ⟨k, h1, h2⟩ := callsActs_touch ha y hy
    exact hx k h1 (e ▸ h2)

/-- **C60** The process is stopped between any two steps of a call, before its final write: what a `ParquetSet` opened on the
directories has is what the crash theorems of C50 are about. -/
theorem C60_stopped (hsep : sep ≠ '/') (hw : sch.WF) {base : Str} (hb : PlainBase base) {fs : FS (Files A (Md S P Q))}
    (hfs : OupsTree sep sch (resolve base) fs) {c : Config (Key sep sch) R A S P Q F} (hk : Apart c.keys)
    (hd : ∀ k ∈ c.keys, k.2.resType = .both → k.2.main ≠ k.2.snap) {a : Call R} {s : State A S P Q}
    (hl : s.bufs.length = c.keys.length) {done rest : List (Key sep sch × Act A (Md S P Q))}
    (ha : CallActs c { a with finalWrite := false } s
      (storeWorld (aggEnv A _ sep sch) (PS.openAt (aggEnv A _ sep sch) base fs)) (done ++ rest)) :
    ∃ fs' pending, Proc.run (aggEnv A _ sep sch) done ⟨PS.openAt (aggEnv A _ sep sch) base fs, fun _ => none⟩ =
        (⟨PS.openAt (aggEnv A _ sep sch) base fs', pending⟩, none) ∧
      OupsTree sep sch (resolve base) fs' ∧
      Crash c a s (storeWorld (aggEnv A _ sep sch) (PS.openAt (aggEnv A _ sep sch) base fs))
        (storeWorld (aggEnv A _ sep sch) (PS.openAt (aggEnv A _ sep sch) base fs')) := by
  have hE := agg_lawful (A := A) (M := Md S P Q) hsep hw
  obtain ⟨ps', pend, h1, h2, h3, h4⟩ := store_stopped hE agg_for (agg_inv hsep hw hb hfs) hk hd hl ha (List.prefix_append _ _)
  have h3 : ps'.basepath = base := h3
  have ho := opened hsep hw h2 h3
  exact ⟨ps'.fs, pend, by rw [← ho]; exact h1, by rw [← h3]; exact oupsTree_of_inv hsep hw h2, by rw [← ho]; exact h4⟩

/-- **C60** Steps of calls that end can always be ordered: the sequential order is one of them. -/
theorem C60_steps {K : Type} [DecidableEq K] {c : Config K R A S P Q F} {as : List (Call R)}
    {s s' : State A S P Q} {w w' : World K A (Md S P Q)} (h : aggs c as s w = .ok (s', w')) :
    ∃ acts, CallsActs c as s w acts := callsActs_exists h

/-- **C60** An exception raised by a step leaves directories, keys and pending metadata as they were. -/
theorem C60_exception (hsep : sep ≠ '/') (hw : sch.WF) {base : Str} (hb : PlainBase base) {fs : FS (Files A M)}
    (hfs : OupsTree sep sch (resolve base) fs) (pending : Key sep sch → Option M) (k : Key sep sch) (a : Act A M) {pr : Proc (Key sep sch) A M} {e : StoreErr}
    (h : Proc.act (aggEnv A M sep sch) ⟨PS.openAt (aggEnv A M sep sch) base fs, pending⟩ k a = (pr, some e)) :
    pr = ⟨PS.openAt (aggEnv A M sep sch) base fs, pending⟩ := by
  have hE := agg_lawful (A := A) (M := M) hsep hw
  have hi := agg_inv (A := A) (M := M) hsep hw hb hfs
  cases ha : a.run (procCells (aggEnv A M sep sch) ⟨PS.openAt (aggEnv A M sep sch) base fs, pending⟩ k) with
  | ok c =>
    obtain ⟨pr', h1, -⟩ := act_ok hE agg_for (pr := ⟨PS.openAt (aggEnv A M sep sch) base fs, pending⟩) hi k a ha
    rw [h] at h1
    cases h1
  | error e' =>
    obtain ⟨e2, h1⟩ := act_error hE agg_for (pr := ⟨PS.openAt (aggEnv A M sep sch) base fs, pending⟩) hi k a ha
    rw [h] at h1
    cases h1; rfl

/-- **C60** From a first session to the recovery in another process. Calls with a final write end; in a later call, the process
is stopped between any two steps before the final write. If each key has rows, a stream created in another process on
these directories is in the state of the last final write, and the same call made again, if it ends, leaves at each key the results
on all rows, those of the calls then those of the call made again, as if there had been no stop. -/
theorem C60_recovered (hsep : sep ≠ '/') (hw : sch.WF) {base : Str} (hb : PlainBase base) {fs : FS (Files A (Md S P Q))}
    (hfs : OupsTree sep sch (resolve base) fs) {c : Config (Key sep sch) R A S P Q F} (hk : Apart c.keys) (hne : c.keys ≠ [])
    (hc : ∀ k ∈ c.keys, Answers k.2.call) {s s' : State A S P Q} {w' : World (Key sep sch) A (Md S P Q)} {s0 : S} {q0 : Q}
    (hbufs : s.bufs = List.replicate c.keys.length { seg := s0, post := q0 })
    (hnew : ∀ k ∈ c.keys, ∀ x, k.2.touches x →
      (storeWorld (aggEnv A _ sep sch) (PS.openAt (aggEnv A _ sep sch) base fs) x).rgs = [])
    {as : List (Call R)} {a : Call R} (ha : a.finalWrite = true)
    (h : aggs c (as ++ [a]) s (storeWorld (aggEnv A _ sep sch) (PS.openAt (aggEnv A _ sep sch) base fs)) = .ok (s', w'))
    {acts : List (Key sep sch × Act A (Md S P Q))}
    (hacts : CallsActs c (as ++ [a]) s (storeWorld (aggEnv A _ sep sch) (PS.openAt (aggEnv A _ sep sch) base fs)) acts)
    {t : Int} (hi : s'.restart = some t) (ht : c.truthy t = true) (hrows : ∀ k ∈ c.keys, (w' k.2.main).rgs ≠ [])
    {a2 : Call R} {done rest : List (Key sep sch × Act A (Md S P Q))}
    (ha2 : CallActs c { a2 with finalWrite := false } s' w' (done ++ rest))
    (hlaw : ∀ k ∈ c.keys, Streamed k.2 s0 (received c k.1 (as ++ [a]) s.restart s.pre ++
      received c k.1 [{ a2 with finalWrite := true }] s'.restart s'.pre)) (p0 : P) :
    ∃ fs1 fs2 pending,
      Proc.run (aggEnv A _ sep sch) acts ⟨PS.openAt (aggEnv A _ sep sch) base fs, fun _ => none⟩ =
        (⟨PS.openAt (aggEnv A _ sep sch) base fs1, fun _ => none⟩, none) ∧
      Proc.run (aggEnv A _ sep sch) done ⟨PS.openAt (aggEnv A _ sep sch) base fs1, fun _ => none⟩ =
        (⟨PS.openAt (aggEnv A _ sep sch) base fs2, pending⟩, none) ∧
      initBuffers s0 p0 q0 c (storeWorld (aggEnv A _ sep sch) (PS.openAt (aggEnv A _ sep sch) base fs2)) = .ok s' ∧
      ∀ s'' w'' acts2, aggs c [{ a2 with finalWrite := true }] s'
          (storeWorld (aggEnv A _ sep sch) (PS.openAt (aggEnv A _ sep sch) base fs2)) = .ok (s'', w'') →
        CallsActs c [{ a2 with finalWrite := true }] s'
          (storeWorld (aggEnv A _ sep sch) (PS.openAt (aggEnv A _ sep sch) base fs2)) acts2 →
        ∃ fs3, Proc.run (aggEnv A _ sep sch) acts2 ⟨PS.openAt (aggEnv A _ sep sch) base fs2, fun _ => none⟩ =
            (⟨PS.openAt (aggEnv A _ sep sch) base fs3, fun _ => none⟩, none) ∧
          storeWorld (aggEnv A _ sep sch) (PS.openAt (aggEnv A _ sep sch) base fs3) = w'' ∧
          ∀ (i : Nat) f cfg, c.keys[i]? = some (f, cfg) → ∀ rows, rows = received c f (as ++ [a]) s.restart s.pre ++
              received c f [{ a2 with finalWrite := true }] s'.restart s'.pre →
            ∀ V FB FS ok gB gS on d, KeyLaws cfg V FB FS ok gB gS on d → ok [] s0 → V rows → KeySafe cfg w' →
              (cfg.resType ≠ .snaps → readRows (w'' cfg.main).rgs = (FB rows).map gB) ∧
              (cfg.resType ≠ .bins → ∀ fS, FS = some fS → readRows (w'' cfg.snapKey).rgs = (fS rows).map gS) := by
  have hd : ∀ k ∈ c.keys, k.2.resType = .both → k.2.main ≠ k.2.snap := by
    intro k hkm
    obtain ⟨V, FB, FS, ok, gB, gS, on, d, L, -, -⟩ := hlaw k hkm
    exact L.distinct
  have hl : s.bufs.length = c.keys.length := by rw [hbufs, List.length_replicate]
  obtain ⟨fs1, e1, t1, e2, -⟩ := C60_store hsep hw hb hfs hk h hacts
  rw [← e2] at ha2
  obtain ⟨fs2, pend, e3, t2, e4⟩ := C60_stopped hsep hw hb t1 hk hd (aggs_length h hl) ha2
  rw [e2] at e4
  have hini := C50_restart hk hne hc hbufs hnew ha h hi ht hrows e4 (fun k hkm => by
    have := hlaw k hkm
    rwa [C50_again] at this) p0
  refine ⟨fs1, fs2, pend, e1, e3, hini, fun s'' w'' acts2 h3 hacts2 => ?_⟩
  obtain ⟨fs3, e5, -, e6, -⟩ := C60_store hsep hw hb t2 hk h3 hacts2
  refine ⟨fs3, e5, e6, fun i f cfg hi rows hr V FB FS ok gB gS on d L hok hV hsafe => ?_⟩
  subst hr
  have hkm : (f, cfg) ∈ c.keys := List.mem_of_getElem? hi
  have hbi : s.bufs[i]? = some { seg := s0, post := q0 } := by
    rw [hbufs, List.getElem?_replicate, if_pos (List.getElem?_eq_some_iff.1 hi).1]
  exact C50_replayed hk hi L hl hbi hok (hnew _ hkm _ (touches_main cfg)) (hnew _ hkm _ (touches_snapKey cfg)) ha h e4 hsafe
    (as3 := []) (a3 := { a2 with finalWrite := true }) rfl hV
    (by rw [List.nil_append, C50_again]; exact List.prefix_refl _) h3

end

/-! ### From a chunked seed to the rows read in a new process -/

section
open Oups.Agg Oups.Agg.Spec Oups.Segment Oups.Segment.Spec
open Oups.Writer (Col DupOn dupCols)
variable {R D V S P Q F : Type} [DecidableEq F] [DecidableEq D] {sep : Char} {sch : Schema}
variable (O : D → Ops V) (get : R → Nat → V) {dtype : Nat → Option D} {agg : List (Nat × Nat × Option Fn)}
  {gc : List (D × Group)} (z : List (List V) → Bool)
variable {c : Config (Key sep sch) R (List (List V)) S P Q F} {i : Nat} {f : F} {cfg : KeyCfg (Key sep sch) R (List (List V)) S Q}
  {gB gS : Row (List (List V)) → Row (List (List V))} {on : Col} {d : DupOn}

/-- **C60** Key with a `TimeGrouper` for `bin_by`, on a `ParquetSet` that does not have the key yet: after calls of which the
last one does the final write, threads being interleaved in any way, a `ParquetSet` opened in another process has at this key
what `cumsegagg` returns on all rows at once, transformed by `post` if there is one. -/
theorem C60_time_bins (hsep : sep ≠ '/') (hws : sch.WF) {base : Str} (hbase : PlainBase base)
    {fs : FS (Files (List (List V)) (Md S P Q))} (hfs : OupsTree sep sch (resolve base) fs)
    (hk : Apart c.keys) (hi : c.keys[i]? = some (f, cfg))
    (hagg : setupCumsegagg agg dtype = .ok gc) (g : Grouper) (hg : Fixed g) (pos : R → Int) (ordered : Option (R → Int))
    {emb : Buf ScaleBuf (List (List V)) → S}
    {e0 : Bool} (hcall : Embeds emb (inPlace (frameCall O get gc z (grouperFn g pos) ordered none e0)) cfg.call)
    (hres : cfg.resType = .bins) (hpost : PostRow cfg gB gS) (hw : WriteOk cfg.table cfg.params on d)
    (hT : ByLabel cfg.table on d gB) {s s' : State (List (List V)) S P Q} {w' : World (Key sep sch) (List (List V)) (Md S P Q)}
    {q0 : Q} (hl : s.bufs.length = c.keys.length) (hb : s.bufs[i]? = some { seg := emb (Buf.init {}), post := q0 })
    (hm : cfg.main ∉ (PS.openAt (aggEnv _ (Md S P Q) sep sch) base fs).keys) {as : List (Call R)} {a : Call R}
    (ha : a.finalWrite = true) {rows : List R} (hrows : rows = received c f (as ++ [a]) s.restart s.pre) (hne : rows ≠ [])
    (hasc : AscOn pos rows) (ho : ∀ o, ordered = some o → AscOn o rows)
    (h : aggs c (as ++ [a]) s (storeWorld (aggEnv _ _ sep sch) (PS.openAt (aggEnv _ _ sep sch) base fs)) = .ok (s', w'))
    {acts : List (Key sep sch × Act (List (List V)) (Md S P Q))}
    (hacts : CallsActs c (as ++ [a]) s (storeWorld (aggEnv _ _ sep sch) (PS.openAt (aggEnv _ _ sep sch) base fs)) acts) :
    ∃ fs' one, Proc.run (aggEnv _ _ sep sch) acts ⟨PS.openAt (aggEnv _ _ sep sch) base fs, fun _ => none⟩ =
        (⟨PS.openAt (aggEnv _ _ sep sch) base fs', fun _ => none⟩, none) ∧
      frameCall O get gc z (grouperFn g pos) ordered none false rows none = .ok (some one, none) ∧
      readRows (storeWorld (aggEnv _ _ sep sch) (PS.openAt (aggEnv _ _ sep sch) base fs') cfg.main).rgs = one.bins.map gB ∧
      (one.bins ≠ [] → cfg.main ∈ (PS.openAt (aggEnv _ (Md S P Q) sep sch) base fs').keys) := by
  subst hrows
  have hE := agg_lawful (A := List (List V)) (M := Md S P Q) hsep hws
  have hm' : (storeWorld (aggEnv _ _ sep sch) (PS.openAt (aggEnv _ (Md S P Q) sep sch) base fs) cfg.main).rgs = [] := by
    rw [mem_keys hE agg_for (agg_inv hsep hws hbase hfs), storeWorld, filesData_inStore] at hm
    rw [storeWorld]
    cases hx : ((PS.openAt (aggEnv (List (List V)) (Md S P Q) sep sch) base fs).get (aggEnv _ _ sep sch) cfg.main).getD none with
    | none => rfl
    | some x => rw [hx] at hm; exact absurd rfl hm
  obtain ⟨one, h1, h2⟩ := C48_time_bins O get z hk hi hagg g hg pos ordered hcall hres hpost hw hT hl hb hm' ha hne hasc ho h
  obtain ⟨fs', e1, e2, e3, e4⟩ := C60_store hsep hws hbase hfs hk h hacts
  refine ⟨fs', one, e1, h1, by rw [e3]; exact h2, fun hb1 => ?_⟩
  rw [mem_keys hE agg_for (agg_inv hsep hws hbase e2), storeWorld, filesData_inStore]
  rw [← e3, storeWorld] at h2
  cases hx : ((PS.openAt (aggEnv (List (List V)) (Md S P Q) sep sch) base fs').get (aggEnv _ _ sep sch) cfg.main).getD none with
  | some x => rfl
  | none =>
    rw [hx] at h2
    exact absurd (List.map_eq_nil_iff.1 (h2.symm.trans rfl)) hb1

end

/-! ### Examples -/

/-- Keys are numbers, `n` being in directory `x…x`, `n + 1` times. -/
def natEnv (A M : Type) : Env Nat (Files A M) (Put A M) where
  toPath n := List.replicate (n + 1) 'x'
  fromPath s := if s.all (· == 'x') && !s.isEmpty then some (s.length - 1) else none
  depth := 1
  lt a b := decide (a < b)
  names := filesNames
  empty := none
  writer := putFiles

def natComps (n : Nat) : List Str := [List.replicate (n + 1) 'x']

theorem nat_lawful (A M : Type) : Lawful (natEnv A M) natComps where
  path k := rfl
  length k := rfl
  pos := Nat.one_pos
  plain k s hs := by
    simp only [natComps, List.mem_singleton] at hs
    subst hs
    refine ⟨by simp, fun h => ?_⟩
    have := List.eq_of_mem_replicate h
    revert this; decide
  back k := by
    simp only [natEnv, natComps, Indexer.join]
    rw [if_pos]
    · simp
    · simp [List.replicate_succ]
  lt_irrefl a := by simp [natEnv]
  lt_trans a b c := by simp only [natEnv, decide_eq_true_eq]; omega
  lt_total a b := by simp only [natEnv, decide_eq_true_eq]; omega
  noFile := rfl
  writes p c c' h := by
    simp only [natEnv, putFiles] at h ⊢
    split at h
    · cases h
    · cases h; exact filesNames_any _

/-- An empty store at "/d". -/
def natFs (A M : Type) : FS (Files A M) := [([], none), ([['d']], none)]

def natStart (A M : Type) : Proc Nat A M := ⟨PS.openAt (natEnv A M) ['/', 'd'] (natFs A M), fun _ => none⟩

theorem nat_inv (A M : Type) : Inv (natEnv A M) natComps (natStart A M).ps := by
  have hl : ∀ (p : Path) (c : Files A M), (natFs A M).lookup p = some c → p = [] ∨ p = [['d']] := by
    intro p c h
    by_cases h1 : p = []
    · exact Or.inl h1
    · by_cases h2 : p = [['d']]
      · exact Or.inr h2
      · simp [natFs, FS.lookup, Ne.symm h1, Ne.symm h2] at h
  have hn : ∀ (p : Path) (c : Files A M), (natFs A M).lookup p = some c → c = none := by
    intro p c h
    rcases hl p c h with rfl | rfl <;> (cases h; rfl)
  refine Inv.openAt (nat_lawful A M) (by simp [PlainBase]) ⟨by simp [natFs], fun p x h => ?_⟩ ?_ ?_
  · obtain ⟨c, hc⟩ := Option.isSome_iff_exists.1 h
    rcases hl _ c hc with h1 | h1
    · simp at h1
    · obtain rfl : p = [] := by
        have := congrArg List.length h1
        exact List.length_eq_zero_iff.1 (by simpa using this)
      rfl
  · intro rel c k h hr hp
    rw [hn _ c h] at hp
    cases hp
  · intro k c h
    rw [hn _ c h]
    exact Or.inr rfl

def exParams : Params := { orderedOn := some (.col 0), dupOn := some (.one 0) }

-- threads of keys 0 and 1 interleaved, and a final write of key 2 without result: keys, also in a new process, and datasets
example :
    let pr := (Proc.run (natEnv (List (List Int)) Nat) [(0, .pend 7), (1, .pend 8),
      (1, .store exT exParams [(0, some [[1, 1]])]), (0, .store exT exParams [(10, some [[2, 2]])]), (2, .pend 9), (2, .writeMd)]
      (natStart _ _)).1
    pr.ps.keys = [0, 1, 2] ∧ (PS.openAt (natEnv _ _) ['/', 'd'] pr.ps.fs).keys = [0, 1, 2] ∧
      (List.range 4).map (fun k => (readRows (storeWorld (natEnv _ _) pr.ps k).rgs, (storeWorld (natEnv _ _) pr.ps k).md,
        (storeWorld (natEnv _ _) pr.ps k).inStore)) =
      [([(10, some [[2, 2]])], some 7, true), ([(0, some [[1, 1]])], some 8, true), ([], some 9, true), ([], none, false)] := by
  refine ⟨rfl, rfl, rfl⟩

-- two calls on the empty store, in any order of threads: what a new `ParquetSet` has
example (acts) (ha : CallsActs (exConf2 1) [⟨exSeed1, false, false, true⟩, ⟨exSeed2, false, false, true⟩] (exState 2 ex0)
      (storeWorld (natEnv _ _) (natStart _ _).ps) acts) :
    ∃ ps', Proc.run (natEnv _ _) acts (natStart _ _) = (⟨ps', fun _ => none⟩, none) ∧
      PS.openAt (natEnv _ _) ['/', 'd'] ps'.fs = ps' ∧ (∀ k, k ∈ ps'.keys ↔ k = 0 ∨ k = 1) ∧
      readRows (storeWorld (natEnv _ _) ps' 1).rgs = [(20, some [[16, 16]]), (30, some [[96, 64]]), (40, some [[128, 128]])] := by
  have hE := nat_lawful (List (List Int)) (Md ExBuf Unit Unit)
  have hA : ForAgg (natEnv (List (List Int)) (Md ExBuf Unit Unit)) := ⟨rfl, rfl, rfl⟩
  have h0 : storeWorld (natEnv (List (List Int)) (Md ExBuf Unit Unit)) (natStart _ _).ps = exWorld := by
    funext k
    rw [storeWorld_lookup hE (nat_inv _ _).base]
    have : (natStart (List (List Int)) (Md ExBuf Unit Unit)).ps.fs.lookup
        (resolve (natStart (List (List Int)) (Md ExBuf Unit Unit)).ps.basepath ++ natComps k) = none := rfl
    rw [this]; rfl
  cases hr : aggs (exConf2 1) [⟨exSeed1, false, false, true⟩, ⟨exSeed2, false, false, true⟩] (exState 2 ex0) exWorld with
  | error e => exact absurd (congrArg Except.toOption hr) (by intro h; cases h)
  | ok x =>
    obtain ⟨s', w'⟩ := x
    have hr' := hr
    rw [← h0] at hr'
    obtain ⟨ps', h1, h2, h3, h4⟩ := store_run hE hA (nat_inv _ _) (exConf_apart 1) hr' ha
    have hw : ∀ k, (some (w' k) : Option (Dataset _ _)) = (aggs (exConf2 1)
        [⟨exSeed1, false, false, true⟩, ⟨exSeed2, false, false, true⟩] (exState 2 ex0) exWorld).toOption.map fun x => x.2 k := by
      intro k; rw [hr]; rfl
    refine ⟨ps', h1, ?_, fun k => ?_, ?_⟩
    · have h3 : ps'.basepath = ['/', 'd'] := h3
      rw [← h3]; exact reopened hE h2
    · rw [mem_keys hE hA h2, h4]
      by_cases k0 : k = 0
      · subst k0; exact ⟨fun _ => Or.inl rfl, fun _ => Option.some.inj (congrArg (Option.map Dataset.inStore) (hw 0))⟩
      · by_cases k1 : k = 1
        · subst k1; exact ⟨fun _ => Or.inr rfl, fun _ => Option.some.inj (congrArg (Option.map Dataset.inStore) (hw 1))⟩
        · rw [C60_other_keys (exConf_apart 1) hr (x := k)]
          · simp [exWorld, k0, k1]
          · intro c hc
            simp only [exConf2, List.mem_cons, List.not_mem_nil, or_false] at hc
            rcases hc with rfl | rfl <;> simp [KeyCfg.touches, exKey, k0, k1]
    · rw [h4]
      exact Option.some.inj (congrArg (Option.map fun d : Dataset (Row (List (List Int))) (Md ExBuf Unit Unit) => readRows d.rgs) (hw 1))

section
open Oups.Agg Oups.Agg.Spec Oups.Segment Oups.Segment.Spec

/-- `exKey`, with results at a key of the class `sch2`. -/
def exClassKey : KeyCfg (Key '_' Indexer.sch2) (Int × Int) (List (List Int)) ExBuf Unit where
  main := ⟨_, Collection.key2_isKey⟩
  snap := ⟨_, Collection.key2_isKey⟩
  call := inPlace (frameCall (fun _ => intOps) ex_get ex_cfg exZ (grouperFn { freq := 10 } Prod.fst) none none true)
  mem := List.length
  maxSize := 0
  table := exT
  params := exParams

def exClassConf : Config (Key '_' Indexer.sch2) (Int × Int) (List (List Int)) ExBuf Unit Unit Nat where
  ord := Prod.fst
  filters := [(0, none)]
  keys := [(0, exClassKey)]
  truthy := fun i => decide (i ≠ 0)

-- C60_recovered: for an empty directory, a call on `exSeed1`, then a call on `exSeed2` stopped anywhere
example : let E := aggEnv (List (List Int)) (Md ExBuf Unit Unit) '_' Indexer.sch2
    let w := storeWorld E (PS.openAt E ['d'] [])
    ∃ s' w', aggs exClassConf [⟨exSeed1, false, false, true⟩] (exState 1 ex0) w = .ok (s', w') ∧
      ∀ acts done rest, CallsActs exClassConf [⟨exSeed1, false, false, true⟩] (exState 1 ex0) w acts →
        CallActs exClassConf ⟨exSeed2, false, false, false⟩ s' w' (done ++ rest) →
        ∃ fs1 fs2 pending, Proc.run E acts ⟨PS.openAt E ['d'] [], fun _ => none⟩ = (⟨PS.openAt E ['d'] fs1, fun _ => none⟩, none) ∧
          Proc.run E done ⟨PS.openAt E ['d'] fs1, fun _ => none⟩ = (⟨PS.openAt E ['d'] fs2, pending⟩, none) ∧
          initBuffers ex0 () () exClassConf (storeWorld E (PS.openAt E ['d'] fs2)) = .ok s' := by
  intro E w
  have hev : (aggs exClassConf [⟨exSeed1, false, false, true⟩] (exState 1 ex0) w).toOption.map
      (fun x => (x.1.restart, x.1.pre, (x.2 ⟨_, Collection.key2_isKey⟩).rgs.map RG.rows)) =
      some (some 25, (), [[(0, some [[1, 1]]), (10, some [[6, 4]]), (20, some [[8, 8]])]]) := rfl
  cases hr : aggs exClassConf [⟨exSeed1, false, false, true⟩] (exState 1 ex0) w with
  | error e => rw [hr] at hev; cases hev
  | ok x =>
    obtain ⟨s', w'⟩ := x
    rw [hr] at hev
    simp only [Except.toOption, Option.map_some, Option.some.injEq, Prod.mk.injEq] at hev
    obtain ⟨h1, -, h3⟩ := hev
    refine ⟨s', w', rfl, fun acts done rest hacts hc => ?_⟩
    have hkeys : ∀ k ∈ exClassConf.keys, k = (0, exClassKey) := by
      intro k hk
      simpa [exClassConf] using hk
    obtain ⟨fs1, fs2, pend, e1, e2, e3, -⟩ := C60_recovered (sep := '_') (by decide) Indexer.key2_wf (base := ['d'])
      (by simp [PlainBase]) (fs := []) ⟨⟨by simp, by simp [Collection.FS.lookup]⟩, by simp [Collection.FS.lookup]⟩
      (c := exClassConf) (List.pairwise_singleton _ _) (by simp [exClassConf])
      (fun k hk => by rw [hkeys k hk]; exact answers_frame _ _ _ _ _ _ _ _) (s0 := ex0) (q0 := ()) rfl
      (fun k hk x hx => by
        rw [hkeys k hk] at hx
        rcases hx with rfl | ⟨h, -⟩
        · rfl
        · cases h)
      (as := []) (a := ⟨exSeed1, false, false, true⟩) rfl hr hacts h1 rfl
      (fun k hk => by
        rw [hkeys k hk]
        intro he
        have he : (w' ⟨_, Collection.key2_isKey⟩).rgs = [] := he
        rw [he] at h3
        cases h3)
      (a2 := ⟨exSeed2, false, false, false⟩) hc
      (fun k hk => by
        rw [hkeys k hk]
        refine streamed_time_bins (emb := id) (fun _ => intOps) ex_get (dtype := fun _ => some ())
          (agg := [(0, 0, some .sum), (1, 0, some .last)]) (gc := ex_cfg) exZ rfl { freq := 10 } ⟨by decide, .inr (.inr ⟨rfl, by decide⟩)⟩ Prod.fst none
          (e0 := true) ?_ rfl (gB := id) (gS := id) ?_ (on := 0) (d := .one 0) ?_ exKey_byLabel ?_ (by simp)
        · intro p b
          simp only [exClassKey, id]
          cases inPlace (frameCall (fun _ => intOps) ex_get ex_cfg exZ (grouperFn { freq := 10 } Prod.fst) none none
            true) p b <;> rfl
        · exact ⟨rfl, rfl⟩
        · exact ⟨rfl, rfl, by decide, by decide⟩
        · rw [h1]
          exact (by decide : AscOn Prod.fst (exSeed1 ++ exSeed2).flatten)) ()
    exact ⟨fs1, fs2, pend, e1, e2, e3⟩

end

/-- The final write of a stream fails after the metadata were set in `OUPS_METADATA`: they stay there, and the next write at
this key by the same process, whatever it is, records them. A new stream then takes the dataset for the results up to the
index of the metadata. Here the configuration has a column that the results do not have; then the dataset of another origin. -/
theorem C60_stale_fails :
    let E := natEnv (List (List Int)) Nat
    let failed := Proc.run E [(0, .pend 7), (0, .store exT { orderedOn := some (.col 9) } [(10, some [[2, 2]])])] (natStart _ _)
    failed.2.isSome ∧ failed.1.ps.keys = [] ∧
      let next := Proc.run E [(0, .store exT exParams [(99, some [[3, 3]])])] failed.1
      next.2.isNone ∧ (storeWorld E next.1.ps 0).md = some 7 ∧
        readRows (storeWorld E next.1.ps 0).rgs = [(99, some [[3, 3]])] := by
  refine ⟨rfl, rfl, rfl, rfl, rfl⟩

end Oups.AggStream
