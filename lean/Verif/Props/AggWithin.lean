import Verif.Props.AggStore
import Verif.Proofs.AggAppend
import Verif.Proofs.WriterSafe
/-! A process that stops in the middle of a write of a stream. -/
set_option linter.unusedSimpArgs false
namespace Oups.AggStream
open Oups.Writer (Table Params RG Col DupOn readRows Disk Step exec writeTrace Holds IdsInc NotCoalesced)
open Oups.Agg (Res AggErr)

section
variable {K R A S P Q F : Type} [DecidableEq K] [DecidableEq F]

/-- A frame gives one step at most for each dataset. -/
theorem iterActs_once (cfg : KeyCfg K R A S Q) (hd : cfg.resType = .both → cfg.main ≠ cfg.snap) (truthy : Int → Bool)
    (st : KeyBuf A S Q) {p : List (K × Act A (Md S P Q))} {x : K} {a : Act A (Md S P Q)}
    (h : p ++ [(x, a)] <+: iterActs cfg truthy st) : actsOn x p = [] := by
  have hp : p <+: iterActs cfg truthy st := (List.prefix_append _ _).trans h
  rcases iterActs_prefix cfg truthy st hp with rfl | he | ⟨a1, a2, he, rfl, hb⟩
  · rfl
  · exfalso
    rw [← he] at h
    have := h.length_le
    simp at this
  · rw [he] at h
    simp only [List.cons_append, List.nil_append, List.cons_prefix_cons, Prod.mk.injEq] at h
    rw [h.2.1.1]
    simp [actsOn, hd hb]

/-- A step on a dataset, in the loop over frames: buffers of its key are those after some frames, and the dataset as they left
it. -/
theorem round_act {c : Config K R A S P Q F} (hk : Apart c.keys)
    (hd : ∀ k ∈ c.keys, k.2.resType = .both → k.2.main ≠ k.2.snap) {sel : F → Bool} {rows : List R}
    {bs : List (KeyBuf A S Q)} {w : World K A (Md S P Q)}
    {acts : List (K × Act A (Md S P Q))} (ha : RoundActs sel c.truthy (.chunk rows) c.keys bs acts)
    {done : List (K × Act A (Md S P Q))} {x : K} {a : Act A (Md S P Q)} (hp : done ++ [(x, a)] <+: acts) {g : K → Cell A (Md S P Q)}
    (hg : runActs done (clean w) = .ok g) :
    ∃ (i : Nat) (k : F × KeyCfg K R A S Q) (b : KeyBuf A S Q), c.keys[i]? = some k ∧ bs[i]? = some b ∧ sel k.1 = true ∧
      (x, a) ∈ iterActs k.2 c.truthy b ∧ (g x).data = w x := by
  obtain ⟨sched, rfl, hs⟩ := ha
  obtain ⟨sched', j, hpre, rfl⟩ : ∃ sched' j, sched' ++ [(j, x, a)] <+: sched ∧ done = sched'.map Prod.snd := by
    obtain ⟨t, ht⟩ := hp
    have hlt : done.length < sched.length := by
      have := congrArg List.length ht
      simp at this; omega
    have hx : (sched[done.length]).2 = (x, a) := by
      have := congrArg (fun l => l[done.length]?) ht
      simpa [List.getElem?_append_right, hlt] using this.symm
    refine ⟨sched.take done.length, (sched[done.length]).1, ?_, ?_⟩
    · rw [← hx]
      have : sched.take done.length ++ [sched[done.length]] = sched.take (done.length + 1) := (List.take_succ_eq_append_getElem hlt).symm
      rw [show ((sched[done.length]).1, (sched[done.length]).2) = sched[done.length] from rfl, this]
      exact List.take_prefix _ _
    · rw [List.map_take, ← ht, List.append_assoc, List.take_left']
      rfl
  have hj := hs j
  have hst : stepsOf j sched' ++ [(x, a)] <+: stepsOf j sched := by
    have := stepsOf_prefix (i := j) hpre
    rwa [stepsOf_append, show stepsOf j [(j, x, a)] = [(x, a)] by simp [stepsOf]] at this
  have hmem : (x, a) ∈ stepsOf j sched := hst.subset (by simp)
  rw [hj] at hst hmem
  cases h1 : c.keys[j]? with
  | none => simp [h1] at hmem
  | some k =>
    cases h2 : bs[j]? with
    | none => simp [h1, h2] at hmem
    | some b =>
      simp only [h1, h2] at hmem hst
      split at hmem
      · rename_i hsel
        rw [if_pos hsel] at hst
        refine ⟨j, k, b, h1, h2, hsel, hmem, ?_⟩
        have hx : k.2.touches x := opActs_touch k.2 c.truthy (.chunk rows : KOp R P) b _ hmem
        have hcell := runActs_ok hg x
        rw [actsOn_steps (i := j), iterActs_once k.2 (hd k (List.mem_of_getElem? h1)) c.truthy b hst] at hcell
        · simp only [runCell, Except.ok.injEq] at hcell
          rw [← hcell]; rfl
        · intro y hy hyk
          have hy' : y.2 ∈ stepsOf y.1 sched := by
            simp only [stepsOf, List.mem_filterMap]
            exact ⟨y, hpre.subset (List.mem_append_left _ hy), by simp⟩
          rw [hs] at hy'
          cases g1 : c.keys[y.1]? with
          | none => simp [g1] at hy'
          | some k' =>
            cases g2 : bs[y.1]? with
            | none => simp [g1, g2] at hy'
            | some b' =>
              simp only [g1, g2] at hy'
              split at hy'
              · by_contra hne
                exact hk.get hne g1 h1 x (hyk ▸ opActs_touch _ _ _ _ _ hy') hx
              · simp at hy'
      · simp at hmem

theorem loop_act {c : Config K R A S P Q F} (hk : Apart c.keys)
    (hd : ∀ k ∈ c.keys, k.2.resType = .both → k.2.main ≠ k.2.snap) {ys : List (Yield F R)}
    {bs : List (KeyBuf A S Q)} {w : World K A (Md S P Q)} (hl : bs.length = c.keys.length)
    {acts done : List (K × Act A (Md S P Q))} (ha : LoopActs c ys bs w acts) {x : K} {a : Act A (Md S P Q)}
    (hp : done ++ [(x, a)] <+: acts) {g : K → Cell A (Md S P Q)} (hg : runActs done (clean w) = .ok g) :
    ∃ (i : Nat) (k : F × KeyCfg K R A S Q) (b : KeyBuf A S Q) (ops rest : List (KOp R P)) (b1 : KeyBuf A S Q) (w1 : World K A (Md S P Q)),
      c.keys[i]? = some k ∧ bs[i]? = some b ∧
      ops ++ rest = (ys.filter fun y => decide (y.filt = k.1)).map (fun y => (KOp.chunk y.rows : KOp R P)) ∧
      keyRun k.2 c.truthy ops b w = .ok (b1, w1) ∧ (x, a) ∈ iterActs k.2 c.truthy b1 ∧ (g x).data = w1 x := by
  induction ys generalizing bs w acts done with
  | nil =>
    obtain rfl : acts = [] := ha
    have := List.prefix_nil.1 hp
    simp at this
  | cons y ys ih =>
    obtain ⟨a1, a2, bs1, w1, rfl, h1, hf, h2⟩ := ha
    have hcase : done ++ [(x, a)] <+: a1 ∨ ∃ c', done = a1 ++ c' ∧ c' ++ [(x, a)] <+: a2 := by
      rcases Writer.prefix_append_cases hp with h | ⟨t, hta, ht⟩
      · exact Or.inl h
      · rcases List.eq_nil_or_concat t with rfl | ⟨t', z, rfl⟩
        · left
          rw [List.append_nil] at ht
          rw [ht]; exact List.prefix_refl _
        · right
          rw [List.concat_eq_append, ← List.append_assoc] at ht
          obtain ⟨e1, e2⟩ := List.append_inj' ht rfl
          refine ⟨t', e1, ?_⟩
          rw [List.concat_eq_append] at hta
          rw [e2]; exact hta
    rcases hcase with hp | ⟨c', rfl, hc'⟩
    · obtain ⟨i, k, b, g1, g2, g3, g4, g5⟩ := round_act hk hd h1 hp hg
      exact ⟨i, k, b, [], _, b, w, g1, g2, rfl, rfl, g4, g5⟩
    · obtain ⟨sched, rfl, hs⟩ := h1
      rw [runActs_append (C52_threads hk (op := .chunk y.rows) hf sched hs)] at hg
      have hidx := forKeys_idx (op := .chunk y.rows) (truthy := c.truthy) hf hl [] [] rfl
      simp only [List.nil_append, List.length_nil] at hidx
      obtain ⟨hlen, -, -, hkey⟩ := idxRun_proj hk hidx
      obtain ⟨i, k, b1, ops, rest, b2, w2, g1, g2, g3, g4, g5, g6⟩ := ih (hlen.trans hl) h2 hc' hg
      obtain ⟨b, hb⟩ : ∃ b, bs[i]? = some b := by
        have : i < bs.length := by
          rw [hl]; exact (List.getElem?_eq_some_iff.1 g1).1
        exact ⟨_, List.getElem?_eq_getElem this⟩
      obtain ⟨b', w', e1, e2, e3⟩ := hkey i k b g1 hb
      rw [g2, Option.some.injEq] at e2
      subst e2
      rw [opsOf_selOps_key g1] at e1
      have hloc := keyRun_local k.2 c.truthy ops b1 e3
      rw [g4] at hloc
      cases hr' : keyRun k.2 c.truthy ops b1 w' with
      | error e => rw [hr'] at hloc; exact hloc.elim
      | ok z =>
        obtain ⟨st', wd'⟩ := z
        rw [hr'] at hloc
        obtain ⟨rfl, ha', -, -⟩ := hloc
        refine ⟨i, k, b, _, rest, st', wd', g1, hb, ?_, by rw [keyRun_append_ok e1, hr'], g5, ?_⟩
        · rw [List.append_assoc, g3]
          by_cases e : y.filt = k.1
          · simp [e]
          · simp [e, Ne.symm e]
        · rw [g6]
          have hx : k.2.touches x := opActs_touch k.2 c.truthy (.chunk [] : KOp R P) st' _ g5
          exact (ha' x hx).symm

/-- Start of the invariant: after a final write, stored rows are the results. -/
theorem KLen.start {cfg : KeyCfg K R A S Q} {FB : List R → List (Row A)} {FS : Option (List R → List (Row A))}
    {ok : List R → S → Prop} {gB gS : Row A → Row A} {on : Col} {d : DupOn} {h0 h : List R} {b : KeyBuf A S Q}
    {w : World K A (Md S P Q)} (hi : KInv cfg FB FS ok gB gS on d h h0 h b w) (hb : b.Rest) : KLen cfg FB FS w h b w := by
  have h1 : b.bin = none := by rw [hb]
  have h2 : b.snap = none := by rw [hb]
  refine ⟨fun hr => ?_, fun hr f hf => ?_⟩
  · have := hi.bins hr
    rw [h1] at this ⊢
    exact ⟨rfl, by rw [this.exact_none, List.length_map]⟩
  · have := hi.snaps hr f hf
    rw [h2] at this ⊢
    exact ⟨rfl, by rw [this.exact_none, List.length_map]⟩

/-- **C69** After calls of which the last one does the final write, a call goes on, threads being interleaved in any way. Each of its
writes before the final one goes to a dataset that is still as the final write left it, or appends rows that all come after those
of the dataset. -/
theorem C69_appends {c : Config K R A S P Q F} (hk : Apart c.keys) {s s' : State A S P Q} {w w' : World K A (Md S P Q)} {s0 : S}
    {q0 : Q} (hb : s.bufs = List.replicate c.keys.length { seg := s0, post := q0 })
    (hw : ∀ k ∈ c.keys, ∀ x, k.2.touches x → (w x).rgs = []) {as : List (Call R)} {a : Call R} (ha : a.finalWrite = true)
    (h : aggs c (as ++ [a]) s w = .ok (s', w')) {a2 : Call R}
    (hlaw : ∀ k ∈ c.keys, ∃ V FB FS ok gB gS on d, KeyLaws k.2 V FB FS ok gB gS on d ∧ ok [] s0 ∧
      V (received c k.1 (as ++ [a]) s.restart s.pre ++ received c k.1 [a2] s'.restart s'.pre))
    {done rest : List (K × Act A (Md S P Q))} {x : K} {T : Table (Row A)} {p : Params} {rows : List (Row A)}
    (ha2 : CallActs c { a2 with finalWrite := false } s' w' (done ++ (x, .store T p rows) :: rest))
    {g : K → Cell A (Md S P Q)} (hg : runActs done (clean w') = .ok g) (hx : (g x).data.rgs ≠ (w' x).rgs) :
    ∃ on, p.orderedOn = some (.col on) ∧ ∀ r ∈ readRows (g x).data.rgs, ∀ y ∈ rows, T.get on r < T.get on y := by
  have hl : s.bufs.length = c.keys.length := by rw [hb, List.length_replicate]
  have hd : ∀ k ∈ c.keys, k.2.resType = .both → k.2.main ≠ k.2.snap := by
    intro k hkm
    obtain ⟨V, FB, FS, ok, gB, gS, on, d, L, -, -⟩ := hlaw k hkm
    exact L.distinct
  obtain ⟨ys, pb, exc, r, bs, w1, a1, b2, hacts, hit, h1, -, h2⟩ := ha2
  simp only [Bool.false_eq_true, if_false] at h2 hit
  subst h2
  rw [List.append_nil] at hacts
  subst hacts
  obtain ⟨i, k, b, ops, rest', b1, w2, g1, g2, g3, g4, g5, g6⟩ := loop_act hk hd (aggs_length h hl) h1
    (done := done) (x := x) (a := .store T p rows) ⟨rest, by simp⟩ hg
  have hkm := List.mem_of_getElem? g1
  obtain ⟨V, FB, FS, ok, gB, gS, on, d, L, h0, hV⟩ := hlaw k hkm
  have hbi : s.bufs[i]? = some { seg := s0, post := q0 } := by
    rw [hb, List.getElem?_replicate, if_pos (List.getElem?_eq_some_iff.1 g1).1]
  obtain ⟨b', hb', hrest, hinv⟩ := key_after hk (f := k.1) (cfg := k.2) g1 L hl hbi h0 (hw k hkm _ (touches_main k.2))
    (hw k hkm _ (touches_snapKey k.2)) ha (L.valid _ _ hV) h
  rw [g2, Option.some.injEq] at hb'
  subst hb'
  have hlen := KLen.start hinv hrest
  have hrows : received c k.1 [a2] s'.restart s'.pre = delivered k.1 ys := by
    simp only [received, hit, List.append_nil]
  rw [hrows] at hV
  have hopr : opRows ops ++ opRows rest' = delivered k.1 ys := by
    rw [← opRows_append, g3]; exact opRows_chunks _
  have hcase : ∀ op ∈ ops, ∃ y ∈ ys, op = .chunk y.rows := by
    intro op hop
    have : op ∈ ops ++ rest' := List.mem_append_left _ hop
    rw [g3] at this
    obtain ⟨y, hy, rfl⟩ := List.mem_map.1 this
    exact ⟨y, (List.mem_filter.1 hy).1, rfl⟩
  have hit' := hit
  obtain ⟨i1, i2⟩ := keyRun_len L hV (ops := ops) (fun ch hch => by
      obtain ⟨y, hy, he⟩ := hcase _ hch
      simp only [KOp.chunk.injEq] at he
      rw [he]
      exact iterLoop_ne_nil hit y hy)
    (fun op hop => by
      obtain ⟨y, -, he⟩ := hcase _ hop
      exact ⟨_, he⟩)
    (hinv.advance L hV ⟨_, rfl⟩ hrest) hlen
    ((List.prefix_append_right_inj _).2 (hopr ▸ List.prefix_append _ _)) g4
  rw [g6] at hx ⊢
  obtain ⟨-, e2, e3⟩ := iterActs_after L hV i1 i2 g5 hx
  exact ⟨on, e2.ordered, e3⟩

/-- **C69** The process stops in the middle of such a write, that is not the first one of its dataset since the final write: files of the
dataset are those of before or of after the write, possibly with others that are not listed. Hence the stop is as one between two
writes. -/
theorem C69_within {c : Config K R A S P Q F} (hk : Apart c.keys) {s s' : State A S P Q} {w w' : World K A (Md S P Q)} {s0 : S}
    {q0 : Q} (hb : s.bufs = List.replicate c.keys.length { seg := s0, post := q0 })
    (hw : ∀ k ∈ c.keys, ∀ x, k.2.touches x → (w x).rgs = []) {as : List (Call R)} {a : Call R} (ha : a.finalWrite = true)
    (h : aggs c (as ++ [a]) s w = .ok (s', w')) {a2 : Call R}
    (hlaw : ∀ k ∈ c.keys, ∃ V FB FS ok gB gS on d, KeyLaws k.2 V FB FS ok gB gS on d ∧ ok [] s0 ∧
      V (received c k.1 (as ++ [a]) s.restart s.pre ++ received c k.1 [a2] s'.restart s'.pre))
    {done rest : List (K × Act A (Md S P Q))} {x : K} {T : Table (Row A)} {p : Params} {rows : List (Row A)}
    (ha2 : CallActs c { a2 with finalWrite := false } s' w' (done ++ (x, .store T p rows) :: rest))
    {g g' : K → Cell A (Md S P Q)} (hg : runActs done (clean w') = .ok g) (hg' : runActs (done ++ [(x, .store T p rows)]) (clean w') = .ok g')
    (hx : (g x).data.rgs ≠ (w' x).rgs) (hne : (g x).data.rgs ≠ [])
    (hn : NotCoalesced p.maxRg p.maxNirgs ((g x).data.rgs.map RG.rows) rows)
    {disk : Disk (Row A)} (hdisk : Holds disk (g x).data.rgs) (hids : IdsInc (g x).data.rgs)
    {pre : List (Step (Row A))} (hpre : pre <+: (writeTrace T p (g x).data.rgs rows).1) :
    Holds (exec disk pre) (g x).data.rgs ∨ Holds (exec disk pre) (g' x).data.rgs := by
  have hov := C69_appends hk hb hw ha h hlaw ha2 hg hx
  rw [runActs_append hg] at hg'
  simp only [runActs] at hg'
  cases hr : (Act.store T p rows).run (g x) with
  | error e => simp [hr] at hg'
  | ok cell =>
    simp only [hr, Except.ok.injEq] at hg'
    have hwr : Writer.write T p (g x).data.rgs rows = .ok (g' x).data.rgs := by
      rw [← hg']
      simp only [if_true]
      simp only [Act.run] at hr
      cases hs : storeSet T p (g x).data rows (g x).pending with
      | error e => simp [hs] at hr
      | ok d =>
        simp only [hs, Except.ok.injEq] at hr
        rw [← hr]
        exact (storeSet_ok hs).1
    obtain ⟨new, e1, -, hf, htr⟩ := Writer.append_trace hne hn (Or.inr hov) hwr
    by_cases he : pre = (writeTrace T p (g x).data.rgs rows).1
    · right
      rw [he]
      exact Writer.write_holds (fun _ => hdisk) hids hwr
    · left
      rw [htr] at hpre he
      exact Writer.append_prefix hdisk hf hpre he

end

/-! ### Examples -/

section
open Oups.Agg Oups.Agg.Spec Oups.Segment Oups.Segment.Spec

abbrev ExAct := Nat × Act (List (List Int)) (Md ExBuf Unit Unit)

/-- Steps of the loop, for one key. -/
def exLoop (cfg : KeyCfg Nat (Int × Int) (List (List Int)) ExBuf Unit) (truthy : Int → Bool) :
    List (Yield Nat (Int × Int)) → KeyBuf (List (List Int)) ExBuf Unit → ExWorld ExBuf → List ExAct
  | [], _, _ => []
  | y :: ys, b, w =>
    iterActs cfg truthy b ++
      match aggIter cfg truthy y.rows b w with
      | .ok (b', w') => exLoop cfg truthy ys b' w'
      | .error _ => []

theorem exLoop_acts (cfg : KeyCfg Nat (Int × Int) (List (List Int)) ExBuf Unit) {ys : List (Yield Nat (Int × Int))}
    (hy : ∀ y ∈ ys, y.filt = 0) {r r' : Option Int} {b : KeyBuf (List (List Int)) ExBuf Unit} {bs'} {w w' : ExWorld ExBuf}
    (h : aggLoop (exConf [(0, cfg)]) ys r [b] w = .ok (r', bs', w')) :
    LoopActs (exConf [(0, cfg)]) ys [b] w (exLoop cfg (exConf [(0, cfg)]).truthy ys b w) := by
  induction ys generalizing r b w with
  | nil => rfl
  | cons y ys ih =>
    have hf := hy y (by simp)
    have hk : (exConf [(0, cfg)]).keys = [(0, cfg)] := rfl
    simp only [aggLoop, hk, forKeys, hf, decide_true, if_true] at h
    cases ha : aggIter cfg (exConf [(0, cfg)]).truthy y.rows b w with
    | error e => simp [ha] at h
    | ok z =>
      obtain ⟨b', w1⟩ := z
      simp only [ha] at h
      simp only [exLoop, ha]
      refine ⟨_, _, [b'], w1, rfl, ⟨(iterActs cfg (exConf [(0, cfg)]).truthy b).map fun x => (0, x), by simp, fun i => ?_⟩, ?_,
        ih (fun y hm => hy y (by simp [hm])) h⟩
      · rw [stepsOf_tag]
        cases i with
        | zero => simp [hk, hf, opActs]
        | succ n => simp [hk]
      · simp [hk, forKeys, hf, ha]

def exSeed3 : List (List (Int × Int)) := [[(26, 16), (38, 32)], [(39, 64)], [(52, 256)], [(63, 512)], [(74, 1)]]

/-- Rows of the two writes. -/
def exFirst : List (Row (List (List Int))) := [(20, some [[24, 16]])]
def exSecond : List (Row (List (List Int))) := [(30, some [[96, 64]]), (40, none), (50, some [[256, 256]])]

/-- Steps of a call on `exSeed3` after a final write on `exSeed1`: a write that replaces the last row stored, then one that
appends. -/
theorem exSteps : ∃ s' w' g g', aggs (exConf [(0, exKey 0 0)]) [⟨exSeed1, false, false, true⟩] (exState 1 ex0) exWorld = .ok (s', w') ∧
    s'.restart = some 25 ∧ (w' 0).rgs = [⟨0, [(0, some [[1, 1]]), (10, some [[6, 4]]), (20, some [[8, 8]])]⟩] ∧
    CallActs (exConf [(0, exKey 0 0)]) ⟨exSeed3, false, false, false⟩ s' w'
      [(0, .store exT exParams exFirst), (0, .store exT exParams exSecond)] ∧
    runActs [(0, .store exT exParams exFirst)] (clean w') = .ok g ∧
    (g 0).data.rgs = [⟨0, [(0, some [[1, 1]]), (10, some [[6, 4]]), (20, some [[24, 16]])]⟩] ∧
    runActs [(0, .store exT exParams exFirst), (0, .store exT exParams exSecond)] (clean w') = .ok g' ∧
    (g' 0).data.rgs = [⟨0, [(0, some [[1, 1]]), (10, some [[6, 4]]), (20, some [[24, 16]])]⟩, ⟨1, exSecond⟩] := by
  refine ⟨_, _, _, _, rfl, rfl, rfl, ?_, rfl, rfl, rfl, rfl⟩
  exact ⟨_, _, _, _, _, _, _, [], (List.append_nil _).symm, rfl, exLoop_acts (exKey 0 0) (r := none) (by decide) rfl, rfl, rfl⟩

theorem exKey_streamed {rows : List (Int × Int)} (h : AscOn Prod.fst rows) : Streamed (exKey 0 0) ex0 rows :=
  streamed_time_bins (cfg := exKey 0 0) (emb := id) (fun _ => intOps) ex_get (dtype := fun _ => some ())
    (agg := [(0, 0, some .sum), (1, 0, some .last)]) (gc := ex_cfg) exZ rfl { freq := 10 } ⟨by decide, .inr (.inr ⟨rfl, by decide⟩)⟩
    Prod.fst none (e0 := true) (fun p b => by
      simp only [exKey, id]
      cases inPlace (frameCall (fun _ => intOps) ex_get ex_cfg exZ (grouperFn { freq := 10 } Prod.fst) none none
        true) p b <;> rfl) rfl (gB := id) (gS := id) ⟨rfl, rfl⟩ (on := 0) (d := .one 0) ⟨rfl, rfl, by decide, by decide⟩
    exKey_byLabel h (by simp)

-- C69_within: the second write stopped anywhere
example : ∃ w' : ExWorld ExBuf, ∃ g g', runActs [(0, .store exT exParams exFirst)] (clean w') = .ok g ∧
    runActs [(0, .store exT exParams exFirst), (0, .store exT exParams exSecond)] (clean w') = .ok g' ∧
    (readRows (g 0).data.rgs).length = 3 ∧ (readRows (g' 0).data.rgs).length = 6 ∧
    ∀ pre, pre <+: (writeTrace exT exParams (g 0).data.rgs exSecond).1 →
      (exec (Writer.exDisk (g 0).data.rgs) pre).view = some (g 0).data.rgs ∨
      (exec (Writer.exDisk (g 0).data.rgs) pre).view = some (g' 0).data.rgs := by
  obtain ⟨s', w', g, g', h1, hr, h2, h3, g1, g2, g3, g4⟩ := exSteps
  refine ⟨w', g, g', g1, g3, by rw [g2]; rfl, by rw [g4]; rfl, fun pre hpre => ?_⟩
  refine (C69_within (c := exConf [(0, exKey 0 0)]) (List.pairwise_singleton _ _) (s := exState 1 ex0) (w := exWorld) (s0 := ex0)
    (q0 := ()) rfl (fun _ _ _ _ => rfl) (as := []) (a := ⟨exSeed1, false, false, true⟩) rfl h1
    (a2 := ⟨exSeed3, false, false, true⟩) ?_ (done := [(0, .store exT exParams exFirst)]) h3 g1 g3 ?_ ?_ (fun _ _ h => (nomatch h)) ?_ ?_ hpre).imp
    Holds.view Holds.view
  · intro k hk
    obtain rfl : k = (0, exKey 0 0) := by simpa [exConf] using hk
    obtain ⟨V, FB, FS, ok, gB, gS, on, d, h1, h2, h3⟩ := exKey_streamed
      (rows := received (exConf [(0, exKey 0 0)]) 0 ([] ++ [⟨exSeed1, false, false, true⟩]) (exState 1 ex0).restart (exState 1 ex0).pre ++
        received (exConf [(0, exKey 0 0)]) 0 [⟨exSeed3, false, false, true⟩] s'.restart s'.pre) (by
        rw [hr]
        exact (by decide : AscOn Prod.fst (exSeed1 ++ exSeed3).flatten))
    exact ⟨V, FB, FS, ok, gB, gS, on, d, h1, h3, h2⟩
  · rw [g2, h2]; decide
  · rw [g2]; decide
  · rw [g2]
    refine ⟨rfl, fun x hx => ?_⟩
    simp only [List.mem_singleton] at hx
    subst hx; rfl
  · rw [g2]; simp [IdsInc]

/-- The process stops in the middle of the first write of a dataset since the final write, that replaces the last row stored: the
dataset cannot be opened, hence the stream cannot go on from the store. -/
theorem C69_first_fails : ∃ s' w' rest pre,
    aggs (exConf [(0, exKey 0 0)]) [⟨exSeed1, false, false, true⟩] (exState 1 ex0) exWorld = .ok (s', w') ∧
    CallActs (exConf [(0, exKey 0 0)]) ⟨exSeed3, false, false, false⟩ s' w' ((0, .store exT exParams exFirst) :: rest) ∧
    pre <+: (writeTrace exT exParams (w' 0).rgs exFirst).1 ∧
    (exec (Writer.exDisk (w' 0).rgs) pre).view = none := by
  obtain ⟨s', w', -, -, h1, -, h2, h3, -⟩ := exSteps
  refine ⟨s', w', _, [.putPart 1 [(0, some [[1, 1]]), (10, some [[6, 4]]), (20, some [[24, 16]])], .delPart 0], h1, h3, ?_, ?_⟩
  · rw [h2]; exact ⟨[.toTmp 1 0, .fromTmp 0, .putMeta [0]], rfl⟩
  · rw [h2]; rfl

end
end Oups.AggStream
