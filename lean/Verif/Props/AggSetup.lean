import Verif.Model.AggSetup
import Verif.Proofs.AggRun
import Verif.Props.Aggregate
import Verif.Props.AggStream
/-
Set-up of the aggregations of a stream, from the first frame (C63).
-/
set_option linter.unusedSimpArgs false
set_option linter.unusedSectionVars false
namespace Oups.AggStream
open Oups.Agg (Res AggErr Fn Group SetupErr setupCumsegagg)

section
variable {K R A S P Q F D : Type} [DecidableEq K] [DecidableEq F] [DecidableEq D]

/-! ### Specification -/

/-- The call, as a list of frames of rows. -/
def SeedCall.plain (a : SeedCall R D) : Call R :=
  ⟨a.seed.frames.map SeedFrame.rows, a.trimStart, a.discardLast, a.finalWrite⟩

/-- Each aggregation of each key is known, for frames with these columns. -/
def Known (keys : List (F × KeySetup K R A S Q D)) (dtype : Nat → Option D) : Prop :=
  ∀ k ∈ keys, ∀ e ∈ k.2.aggPd, dtype e.2.1 ≠ none ∧ e.2.2 ≠ none

/-- `gs` are the configurations of the keys. -/
def Configured (keys : List (F × KeySetup K R A S Q D)) (dtype : Nat → Option D) (gs : List (List (D × Group))) : Prop :=
  List.Forall₂ (fun k g => setupCumsegagg k.2.aggPd dtype = .ok g) keys gs

/-! ### Lemmas -/

theorem initCsLoop_ok {dtype : Nat → Option D} {keys : List (F × KeySetup K R A S Q D)} {gs}
    (h : Configured keys dtype gs) : initCsLoop dtype keys = (gs, none) := by
  induction h with
  | nil => rfl
  | cons h _ ih => simp only [initCsLoop, h, ih]

theorem initCsLoop_spec (dtype : Nat → Option D) (keys : List (F × KeySetup K R A S Q D)) :
    (∃ gs, Configured keys dtype gs) ∨
    ∃ l k ks gs e, keys = l ++ k :: ks ∧ Configured l dtype gs ∧ setupCumsegagg k.2.aggPd dtype = .error e ∧
      initCsLoop dtype keys = (gs, some e) := by
  induction keys with
  | nil => exact .inl ⟨[], .nil⟩
  | cons k ks ih =>
    cases h : setupCumsegagg k.2.aggPd dtype with
    | error e => exact .inr ⟨[], k, ks, [], e, rfl, .nil, h, by simp only [initCsLoop, h]⟩
    | ok g =>
      rcases ih with ⟨gs, hg⟩ | ⟨l, k', ks', gs, e, h1, h2, h3, h4⟩
      · exact .inl ⟨g :: gs, .cons h hg⟩
      · exact .inr ⟨k :: l, k', ks', g :: gs, e, by rw [h1]; rfl, .cons h h2, h3, by simp only [initCsLoop, h, h4]⟩

theorem configured_iff (dtype : Nat → Option D) (keys : List (F × KeySetup K R A S Q D)) :
    (∃ gs, Configured keys dtype gs) ↔ Known keys dtype := by
  constructor
  · rintro ⟨gs, h⟩
    induction h with
    | nil => intro k hk; cases hk
    | cons h _ ih =>
      intro k hk
      rcases List.mem_cons.1 hk with rfl | hk
      · exact (Oups.Agg.C41_accepts_iff dtype _).1 ⟨_, h⟩
      · exact ih k hk
  · intro h
    induction keys with
    | nil => exact ⟨[], .nil⟩
    | cons k ks ih =>
      obtain ⟨gs, hg⟩ := ih fun x hx => h x (List.mem_cons_of_mem _ hx)
      obtain ⟨g, hg1⟩ := (Oups.Agg.C41_accepts_iff dtype k.2.aggPd).2 (h k List.mem_cons_self)
      exact ⟨g :: gs, .cons hg1 hg⟩

theorem frames_of_falsy {s : Seed R D} (h : s.truthy = false) : s.frames = [] := by
  cases s with
  | none => rfl
  | frame f => cases h
  | list l => cases l with
    | nil => rfl
    | cons f l => cases h
  | generator l => cases h

theorem truthy_of_frames {s : Seed R D} {f rest} (h : s.frames = f :: rest) : s.truthy = true := by
  cases hs : s.truthy with
  | true => rfl
  | false => rw [frames_of_falsy hs] at h; cases h

theorem setUp_done (keys : List (F × KeySetup K R A S Q D)) (seed : Seed R D) {cs : List (List (D × Group))}
    (h : cs ≠ []) : setUp keys seed cs = (cs, .ok seed.frames) := by
  cases hs : seed.truthy with
  | true => simp [setUp, hs, h]
  | false => simp [setUp, hs, frames_of_falsy hs]

theorem forKeys_withCs (keys : List (F × KeySetup K R A S Q D)) (cs cs' : List (List (D × Group))) (truthy : Int → Bool)
    (final : Option (Int × P)) (bs : List (KeyBuf A S Q)) (w : World K A (Md S P Q)) :
    forKeys (fun _ => true) (fun cfg => postNWrite cfg truthy true final) (withCs keys cs) bs w =
    forKeys (fun _ => true) (fun cfg => postNWrite cfg truthy true final) (withCs keys cs') bs w := by
  induction keys generalizing cs cs' bs w with
  | nil => rfl
  | cons k ks ih =>
    cases bs with
    | nil => cases cs <;> cases cs' <;> rfl
    | cons b bs =>
      have e : ∀ c1 c2, (fun bs w => forKeys (fun _ => true) (fun cfg => postNWrite cfg truthy true final)
          (withCs ks c1) bs w) = (fun bs w => forKeys (fun _ => true)
          (fun cfg => postNWrite cfg truthy true final) (withCs ks c2) bs w) :=
        fun c1 c2 => funext fun bs => funext fun w => ih c1 c2 bs w
      have key : ∀ (call1 call2 : List R → S → Except AggErr (Option (Res A) × S)) c1 c2,
          forKeys (fun _ => true) (fun cfg => postNWrite cfg truthy true final)
            ((k.1, { k.2.key with call := call1 }) :: withCs ks c1) (b :: bs) w =
          forKeys (fun _ => true) (fun cfg => postNWrite cfg truthy true final)
            ((k.1, { k.2.key with call := call2 }) :: withCs ks c2) (b :: bs) w := by
        intro call1 call2 c1 c2
        have hp : postNWrite { k.2.key with call := call1 } truthy true final b w =
            postNWrite { k.2.key with call := call2 } truthy true final b w := rfl
        simp only [forKeys, hp]
        cases postNWrite { k.2.key with call := call2 } truthy true final b w with
        | error _ => rfl
        | ok r => simp only [ih c1 c2]
      cases cs <;> cases cs' <;> exact key _ _ _ _

theorem agg_nil (c : Setup K R A S P Q F D) (cs cs' : List (List (D × Group))) (t d fw : Bool) (s : State A S P Q)
    (w : World K A (Md S P Q)) : agg (c.config cs) ⟨[], t, d, fw⟩ s w = agg (c.config cs') ⟨[], t, d, fw⟩ s w := by
  have hi : ∃ exc, iterData c.ord s.restart c.pre s.pre c.filters t d [] = ([], s.pre, exc) := by
    exact ⟨_, rfl⟩
  obtain ⟨exc, hi⟩ := hi
  simp only [agg, Setup.config, hi, aggLoop, finalWrite, forKeys_withCs c.keys cs cs']

/-- Once the set-up is made, calls are those of the configured stream. -/
theorem aggsWith_done (c : Setup K R A S P Q F D) (as : List (SeedCall R D)) {cs : List (List (D × Group))} (h : cs ≠ [])
    (s : State A S P Q) (w : World K A (Md S P Q)) :
    aggsWith c as cs s w = (aggs (c.config cs) (as.map SeedCall.plain) s w).map fun r => (cs, r) := by
  induction as generalizing s w with
  | nil => rfl
  | cons a as ih =>
    simp only [aggsWith, aggWith, setUp_done _ _ h, List.map_cons, aggs, SeedCall.plain]
    cases agg (c.config cs) ⟨a.seed.frames.map SeedFrame.rows, a.trimStart, a.discardLast, a.finalWrite⟩ s w with
    | error e => rfl
    | ok r => exact ih _ _

theorem withCs_get {keys : List (F × KeySetup K R A S Q D)} {cs : List (List (D × Group))} {i : Nat}
    {k : F × KeySetup K R A S Q D} (hi : keys[i]? = some k) (h : cs.length ≤ i) :
    (withCs keys cs)[i]? = some (k.1, { k.2.key with call := fun _ _ => .error .noConfig }) := by
  induction keys generalizing cs i with
  | nil => cases hi
  | cons k' ks ih =>
    cases i with
    | zero =>
      cases cs with
      | nil => cases hi; rfl
      | cons _ _ => simp at h
    | succ i =>
      cases cs with
      | nil => exact ih hi (Nat.zero_le _)
      | cons g cs => exact ih hi (by simpa using h)

theorem keyRun_noCall {cfg : KeyCfg K R A S Q} {e : AggErr} (hc : cfg.call = fun _ _ => .error e) {truthy : Int → Bool}
    {ops : List (KOp R P)} {b b' : KeyBuf A S Q} {w w' : World K A (Md S P Q)}
    (h : keyRun cfg truthy ops b w = .ok (b', w')) : opRows ops = [] := by
  induction ops generalizing b w with
  | nil => rfl
  | cons op ops ih =>
    cases op with
    | final r pb =>
      simp only [keyRun] at h
      split at h
      · cases h
      · exact ih h
    | chunk rows =>
      simp only [keyRun, keyStep, aggIter, hc] at h
      split at h
      · cases h
      · rename_i h1
        split at h1 <;> cases h1

theorem withCs_apart {keys : List (F × KeySetup K R A S Q D)} (cs : List (List (D × Group)))
    (h : Apart (keys.map fun k => (k.1, k.2.key))) : Apart (withCs keys cs) := by
  induction keys generalizing cs with
  | nil => exact .nil
  | cons k ks ih =>
    obtain ⟨h1, h2⟩ := List.pairwise_cons.1 h
    have hm : ∀ cs, ∀ x ∈ withCs ks cs, ∃ y ∈ ks, ∀ j, x.2.touches j → y.2.key.touches j := by
      clear ih h1 h2 h
      induction ks with
      | nil => intro cs x hx; cases cs <;> cases hx
      | cons y ys ih =>
        intro cs x hx
        cases cs with
        | nil =>
          rcases List.mem_cons.1 hx with rfl | hx
          · exact ⟨y, List.mem_cons_self, fun _ h => h⟩
          · obtain ⟨z, hz, h⟩ := ih [] x hx
            exact ⟨z, List.mem_cons_of_mem _ hz, h⟩
        | cons g cs =>
          rcases List.mem_cons.1 hx with rfl | hx
          · exact ⟨y, List.mem_cons_self, fun _ h => h⟩
          · obtain ⟨z, hz, h⟩ := ih cs x hx
            exact ⟨z, List.mem_cons_of_mem _ hz, h⟩
    cases cs with
    | nil =>
      refine List.pairwise_cons.2 ⟨fun x hx j hj ht => ?_, ih [] h2⟩
      obtain ⟨y, hy, h⟩ := hm [] x hx
      exact h1 _ (List.mem_map_of_mem hy) j hj (h j ht)
    | cons g cs =>
      refine List.pairwise_cons.2 ⟨fun x hx j hj ht => ?_, ih cs h2⟩
      obtain ⟨y, hy, h⟩ := hm cs x hx
      exact h1 _ (List.mem_map_of_mem hy) j hj (h j ht)

/-! ### Theorems -/

/-- **C63** The first call with frames is accepted iff the columns and functions of all aggregations are known in the
first frame; all frames are then iterated over. -/
theorem C63_accepts (keys : List (F × KeySetup K R A S Q D)) {seed : Seed R D} {f : SeedFrame R D} {rest}
    (hf : seed.frames = f :: rest) :
    (Known keys f.dtype ↔ ∃ cs, setUp keys seed [] = (cs, .ok (f :: rest))) ∧
    (¬ Known keys f.dtype ↔ ∃ cs e, setUp keys seed [] = (cs, .error (.value e))) := by
  simp only [setUp, truthy_of_frames hf, hf, List.isEmpty_nil, if_true, initAggCs]
  rcases initCsLoop_spec f.dtype keys with ⟨gs, h⟩ | ⟨l, k, ks, gs, e, h1, h2, h3, h4⟩
  · have hK := (configured_iff f.dtype keys).1 ⟨gs, h⟩
    rw [initCsLoop_ok h]
    exact ⟨⟨fun _ => ⟨gs, rfl⟩, fun _ => hK⟩, ⟨fun h => absurd hK h, by rintro ⟨cs, e, h⟩; cases h⟩⟩
  · have hK : ¬ Known keys f.dtype := by
      intro hK
      obtain ⟨g, hg⟩ := (Oups.Agg.C41_accepts_iff f.dtype k.2.aggPd).2 (hK k (by rw [h1]; simp))
      rw [hg] at h3; cases h3
    rw [h4]
    exact ⟨⟨fun h => absurd h hK, by rintro ⟨cs, h⟩; cases h⟩, ⟨fun _ => ⟨gs, e, rfl⟩, fun _ => hK⟩⟩

/-- **C63** Calls without data, then calls starting with a frame in which all aggregations are known: the stream is the
one of the configurations obtained with this frame, whatever the frames that follow. -/
theorem C63_stream (c : Setup K R A S P Q F D) (hk : c.keys ≠ []) {as1 as2 : List (SeedCall R D)} {a : SeedCall R D}
    (h1 : ∀ x ∈ as1, x.seed = .none ∨ x.seed = .list []) {f : SeedFrame R D} {rest} (hf : a.seed.frames = f :: rest)
    {gs : List (List (D × Group))} (hg : Configured c.keys f.dtype gs) (s : State A S P Q) (w : World K A (Md S P Q)) :
    aggsWith c (as1 ++ a :: as2) [] s w =
      (aggs (c.config gs) ((as1 ++ a :: as2).map SeedCall.plain) s w).map fun r => (gs, r) := by
  have hne : gs ≠ [] := by
    rintro rfl
    exact hk (List.forall₂_nil_right_iff.1 hg)
  induction as1 generalizing s w with
  | nil =>
    rw [← aggsWith_done c _ hne]
    simp only [List.nil_append, aggsWith, aggWith, setUp_done _ _ hne]
    simp only [setUp, truthy_of_frames hf, hf, List.isEmpty_nil, if_true, initAggCs, initCsLoop_ok hg]
  | cons x xs ih =>
    have hx : x.seed.truthy = false := by
      rcases h1 x List.mem_cons_self with h | h <;> rw [h] <;> rfl
    simp only [List.cons_append, aggsWith, aggWith, setUp, hx, List.map_cons, aggs, SeedCall.plain,
      frames_of_falsy hx, List.map_nil, Bool.false_eq_true, if_false, agg_nil c [] gs]
    cases agg (c.config gs) ⟨[], x.trimStart, x.discardLast, x.finalWrite⟩ s w with
    | error e => rfl
    | ok r => exact ih (fun y hy => h1 y (List.mem_cons_of_mem _ hy)) _ _

/-- **C63** When the first key is refused, nothing is changed: the call may be made again with other frames. -/
theorem C63_retry (c : Setup K R A S P Q F D) {k : F × KeySetup K R A S Q D} {ks} (hk : c.keys = k :: ks)
    {a : SeedCall R D} {f : SeedFrame R D} {rest} (hf : a.seed.frames = f :: rest) {e : SetupErr}
    (he : setupCumsegagg k.2.aggPd f.dtype = .error e) (as : List (SeedCall R D)) (s : State A S P Q)
    (w : World K A (Md S P Q)) :
    aggWith c a [] s w = ([], .error (.setup (.value e))) ∧ aggsWith c (a :: as) [] s w = aggsWith c as [] s w := by
  have h : aggWith c a [] s w = ([], .error (.setup (.value e))) := by
    simp only [aggWith, setUp, truthy_of_frames hf, hf, List.isEmpty_nil, if_true, initAggCs, hk, initCsLoop, he]
  exact ⟨h, by simp only [aggsWith, h]⟩

/-- **C63** When another key is refused, the stream is unusable for this key and the following ones: whatever the calls
made afterwards, either one of them raises, or these keys are given no data. -/
theorem C63_poisoned_fails (c : Setup K R A S P Q F D) (hd : Apart (c.keys.map fun k => (k.1, k.2.key)))
    {l : List (F × KeySetup K R A S Q D)} {k : F × KeySetup K R A S Q D} {ks} (hl : l ≠ []) (hk : c.keys = l ++ k :: ks)
    {a : SeedCall R D} {f : SeedFrame R D} {rest} (hf : a.seed.frames = f :: rest) {gs : List (List (D × Group))}
    (hg : Configured l f.dtype gs) {e : SetupErr} (he : setupCumsegagg k.2.aggPd f.dtype = .error e)
    {as : List (SeedCall R D)} {s : State A S P Q} (hb : s.bufs.length = c.keys.length) {w : World K A (Md S P Q)} :
    aggWith c a [] s w = (gs, .error (.setup (.value e))) ∧
    ∀ {cs s' w'}, aggsWith c (a :: as) [] s w = .ok (cs, s', w') → cs = gs ∧
      ∀ x ∈ k :: ks, received (c.config gs) x.1 (as.map SeedCall.plain) s.restart s.pre = [] := by
  have hloop : initCsLoop f.dtype (l ++ k :: ks) = (gs, some e) := by
    clear hl hk
    induction hg with
    | nil => simp only [List.nil_append, initCsLoop, he]
    | cons h _ ih => simp only [List.cons_append, initCsLoop, h, ih]
  have h : aggWith c a [] s w = (gs, .error (.setup (.value e))) := by
    simp only [aggWith, setUp, truthy_of_frames hf, hf, List.isEmpty_nil, if_true, initAggCs, hk, hloop]
  refine ⟨h, fun {cs s' w'} hr => ?_⟩
  have hne : gs ≠ [] := by
    rintro rfl
    exact hl (List.forall₂_nil_right_iff.1 hg)
  simp only [aggsWith, h, aggsWith_done c as hne] at hr
  cases ha : aggs (c.config gs) (as.map SeedCall.plain) s w with
  | error _ => rw [ha] at hr; cases hr
  | ok r =>
    rw [ha] at hr
    simp only [Except.map, Except.ok.injEq, Prod.mk.injEq] at hr
    refine ⟨hr.1.symm, fun x hx => ?_⟩
    obtain ⟨j, hj⟩ := List.mem_iff_getElem?.1 hx
    have hi : c.keys[l.length + j]? = some x := by
      rw [hk, List.getElem?_append_right (by omega)]
      simpa using hj
    have hlen := hg.length_eq
    have hi' := withCs_get (cs := gs) hi (by omega)
    have hlen' : (withCs c.keys gs).length = c.keys.length := by
      clear * -
      generalize c.keys = ks
      induction ks generalizing gs with
      | nil => rfl
      | cons _ _ ih => cases gs <;> simp [withCs, ih]
    have hlt : l.length + j < s.bufs.length := by rw [hb]; exact (List.getElem?_eq_some_iff.1 hi).1
    obtain ⟨b', w1, h1, -, -⟩ := aggs_key (c := c.config gs) (withCs_apart gs hd) ha (hb.trans hlen'.symm) hi'
      (List.getElem?_eq_getElem hlt)
    rw [← opRows_keyOpsAll]
    exact keyRun_noCall rfl h1

/-- **C63** Columns made by `pre` are not seen: an aggregation on a column that the first frame lacks is refused,
whatever `pre`. -/
theorem C63_pre_columns_fails (c : Setup K R A S P Q F D) {a : SeedCall R D} {f : SeedFrame R D} {rest}
    (hf : a.seed.frames = f :: rest) {k : F × KeySetup K R A S Q D} (hk : k ∈ c.keys) {x : Nat × Nat × Option Fn}
    (hx : x ∈ k.2.aggPd) (hn : f.dtype x.2.1 = none) (pre : Option (Pre R P)) (s : State A S P Q)
    (w : World K A (Md S P Q)) :
    ∃ cs e, aggWith { c with pre := pre } a [] s w = (cs, .error (.setup (.value e))) := by
  obtain ⟨cs, e, h⟩ := (C63_accepts c.keys hf).2.1 fun h => (h k hk x hx).1 hn
  exact ⟨cs, e, by simp only [aggWith, h]⟩

/-- **C63** A generator without frames raises if it is the first seed; results are then not written. -/
theorem C63_empty_generator_fails (c : Setup K R A S P Q F D) (t d fw : Bool) (s : State A S P Q)
    (w : World K A (Md S P Q)) :
    aggWith c ⟨.generator [], t, d, fw⟩ [] s w = ([], .error (.setup .stopIteration)) := rfl

end

/-! ### Examples -/

section
open Oups.Agg Oups.Agg.Spec Oups.Segment Oups.Segment.Spec
open Oups.Writer (RG)

/-- Sum of column `col` for bins of length 10. -/
def exSetKey (main col : Nat) : KeySetup Nat (Int × Int) (List (List Int)) ExBuf Unit Unit where
  key := exKey main 0
  aggPd := [(0, col, some .sum)]
  callOf := fun g => inPlace (frameCall (fun _ => intOps) ex_get g (rowZero (fun _ v => decide (v = 0)) g)
    (grouperFn { freq := 10 } Prod.fst) none none true)

def exSetup (keys : List (Nat × KeySetup Nat (Int × Int) (List (List Int)) ExBuf Unit Unit)) :
    Setup Nat (Int × Int) (List (List Int)) ExBuf Unit Unit Nat Unit where
  ord := Prod.fst
  filters := [(0, none)]
  keys := keys
  truthy := fun i => decide (i ≠ 0)

/-- SeedFrame with columns 0 to `n - 1`. -/
def exFrame (n : Nat) (rows : List (Int × Int)) : SeedFrame (Int × Int) Unit := ⟨rows, fun i => if i < n then some () else none⟩

def exAfter : List Nat → Except Err (List (List (Unit × Group)) × State (List (List Int)) ExBuf Unit Unit × ExWorld ExBuf) →
    Except Err (List (List (List (Row (List (List Int)))))) :=
  fun ks r => r.map fun x => ks.map fun k => ((x.2.2 k).rgs.map RG.rows)

-- C63_accepts
example : Known [(0, exSetKey 0 0), (0, exSetKey 1 1)] (exFrame 2 []).dtype ∧
    ¬ Known [(0, exSetKey 0 0), (0, exSetKey 1 1)] (exFrame 1 []).dtype := by
  constructor
  · intro k hk e he
    simp only [List.mem_cons, List.not_mem_nil, or_false] at hk
    rcases hk with rfl | rfl <;>
    · simp only [exSetKey, List.mem_cons, List.not_mem_nil, or_false] at he
      subst he
      exact ⟨by decide, by decide⟩
  · intro h
    exact (h _ (List.mem_cons_of_mem _ List.mem_cons_self) _ List.mem_cons_self).1 rfl

-- C63_stream: no seed, an empty list, a generator of two frames, a frame
example : exAfter [0] (aggsWith (exSetup [(0, exSetKey 0 0)])
    [⟨.none, false, false, true⟩, ⟨.list [], false, false, true⟩,
      ⟨.generator [exFrame 1 [(5, 1)], exFrame 1 [(12, 2)]], false, false, true⟩,
      ⟨.frame (exFrame 1 [(14, 3), (22, 4)]), false, false, true⟩] [] (exState 1 (Buf.init {})) exWorld) =
    .ok [[[(0, some [[1]]), (10, some [[5]]), (20, some [[4]])]]] := rfl

-- C63_retry, then C63_poisoned_fails: the same frames, the key refused being the first one or not
example :
    exAfter [0, 1] (aggsWith (exSetup [(0, exSetKey 1 1), (0, exSetKey 0 0)])
      [⟨.frame (exFrame 1 [(5, 1)]), false, false, true⟩, ⟨.frame (exFrame 2 [(5, 1)]), false, false, true⟩] []
      (exState 2 (Buf.init {})) exWorld) = .ok [[[(0, some [[1]])]], [[(0, some [[1]])]]] ∧
    exAfter [0, 1] (aggsWith (exSetup [(0, exSetKey 0 0), (0, exSetKey 1 1)])
      [⟨.frame (exFrame 1 [(5, 1)]), false, false, true⟩, ⟨.frame (exFrame 2 [(5, 1)]), false, false, true⟩] []
      (exState 2 (Buf.init {})) exWorld) = .error (.agg .noConfig) := ⟨rfl, rfl⟩

-- C63_empty_generator_fails: not raised by an empty list, nor by a later generator
example :
    (aggWith (exSetup [(0, exSetKey 0 0)]) ⟨.list [], false, false, true⟩ [] (exState 1 (Buf.init {})) exWorld).2.toOption.isSome = true ∧
    (exAfter [0] (aggsWith (exSetup [(0, exSetKey 0 0)])
      [⟨.frame (exFrame 1 [(5, 1)]), false, false, false⟩, ⟨.generator [], false, false, true⟩] []
      (exState 1 (Buf.init {})) exWorld)) = .ok [[[(0, some [[1]])]]] := ⟨rfl, rfl⟩

end
end Oups.AggStream
