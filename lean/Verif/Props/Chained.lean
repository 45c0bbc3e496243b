import Verif.Props.AggRestart
/-! Streams of which the seed is the stored results of another stream: C89. The last row of such a seed is temporary. -/
set_option linter.unusedSimpArgs false
namespace Oups.AggStream
open Oups.Agg Oups.Agg.Spec Oups.Segment Oups.Segment.Spec
open Oups.Writer (Table Params RG Col DupOn dupCols readRows StrictOn)

/-! ### Seeds of which the last row group is temporary -/

section
variable {K R A S P Q F : Type} [DecidableEq K] [DecidableEq F]

/-- `T'` is a later version of `T`: rows before the last value of `T` are the same ones, and `T'` reaches this value. Rows at the
last value may be changed, removed, or more. -/
def GoesOn (ord : R → Int) (T T' : List R) : Prop := ∀ x, T.getLast? = some x →
  T'.filter (fun y => decide (ord y < ord x)) = T.filter (fun y => decide (ord y < ord x)) ∧ ∃ y ∈ T', ord x ≤ ord y

/-- Calls with `trim_start` and `discard_last`, each one over a later version of the seed (possibly without rows that are before
the restart index); the last version is `T`. -/
inductive Revised (c : Config K R A S P Q F) (pb : P) : List (Call R) → List R → Prop
  | nil : Revised c pb [] []
  | call {as : List (Call R)} {a : Call R} {T T' : List R} {d : Nat} {ys : List (Yield F R)} {pb' : P} :
    Revised c pb as T → a.trimStart = true → a.discardLast = true → Ascending c.ord T' → GoesOn c.ord T T' →
    (preprocessed c.pre (iterAfter c as none pb).2 a.seed).flatten = T'.drop d →
    (∀ x ∈ T'.take d, ∃ t, (iterAfter c as none pb).1 = some t ∧ c.ord x < t) →
    iterData c.ord (iterAfter c as none pb).1 c.pre (iterAfter c as none pb).2 c.filters true true a.seed = (ys, pb', none) →
    Revised c pb (as ++ [a]) T'

theorem received_append (c : Config K R A S P Q F) (f : F) (as bs : List (Call R)) (r : Option Int) (pb : P) :
    received c f (as ++ bs) r pb = received c f as r pb ++ received c f bs (iterAfter c as r pb).1 (iterAfter c as r pb).2 := by
  induction as generalizing r pb with
  | nil => rfl
  | cons b as ih =>
    simp only [List.cons_append, received, iterAfter]
    rw [ih, List.append_assoc]

theorem iterAfter_append (c : Config K R A S P Q F) (as bs : List (Call R)) (r : Option Int) (pb : P) :
    iterAfter c (as ++ bs) r pb = iterAfter c bs (iterAfter c as r pb).1 (iterAfter c as r pb).2 := by
  induction as generalizing r pb with
  | nil => rfl
  | cons b as ih =>
    simp only [List.cons_append, iterAfter]
    rw [ih]

theorem GoesOn.below {ord : R → Int} {T T' : List R} (hT : Ascending ord T) (hg : GoesOn ord T T') {r : Option Int}
    (hr : ∀ t, r = some t → ∃ x ∈ T, t ≤ ord x) (q : R → Bool) :
    T.filter (fun x => below ord r x && q x) = T'.filter (fun x => below ord r x && q x) ∧
      ∀ t, r = some t → ∃ x ∈ T', t ≤ ord x := by
  cases r with
  | none => simp [AggStream.below]
  | some t =>
    obtain ⟨x, hx, hxt⟩ := hr t rfl
    obtain ⟨l, hl⟩ : ∃ l, T.getLast? = some l := by
      cases h : T.getLast? with
      | none => rw [List.getLast?_eq_none_iff] at h; subst h; cases hx
      | some l => exact ⟨l, rfl⟩
    have hle := asc_last hT hl x hx
    obtain ⟨h1, y, hy, hyl⟩ := hg l hl
    refine ⟨?_, fun t' ht' => ⟨y, hy, by cases ht'; omega⟩⟩
    have key : ∀ U : List R, U.filter (fun x => AggStream.below ord (some t) x && q x) =
        (U.filter fun y => decide (ord y < ord l)).filter fun x => AggStream.below ord (some t) x && q x := by
      intro U
      rw [List.filter_filter]
      apply List.filter_congr
      intro z _
      simp only [AggStream.below]
      by_cases hz : ord z < t
      · have : ord z < ord l := by omega
        simp [hz, this]
      · simp [hz]
    rw [key T, key T', h1]

theorem revised_inv {c : Config K R A S P Q F} {pb : P} (hn : (c.filters.map Prod.fst).Nodup) (p : F → R → Bool)
    (hf : ∀ f ∈ c.filters, RowFilter f.2 (p f.1)) {as : List (Call R)} {T : List R} (h : Revised c pb as T) :
    Ascending c.ord T ∧ (∀ t, (iterAfter c as none pb).1 = some t → ∃ x ∈ T, t ≤ c.ord x) ∧
    ∃ ys : List (Yield F R), (∀ f, delivered f ys = received c f as none pb) ∧
      (∀ f ∈ c.filters, delivered f.1 ys = T.filter fun x => below c.ord (iterAfter c as none pb).1 x && p f.1 x) ∧
      ∀ f ∈ c.filters, delivered f.1 ys = T.filter fun x => notLast c.ord T x && p f.1 x := by
  induction h with
  | nil => exact ⟨List.Pairwise.nil, by simp [iterAfter], [], by simp [delivered, received]⟩
  | @call as a T T' d new pb' _ h1 h2 h3 h4 h5 h6 h7 ih =>
    obtain ⟨i1, i2, ys, i3, i4, _⟩ := ih
    have ih' : ∀ f ∈ c.filters, delivered f.1 ys =
        T'.filter fun x => below c.ord (iterAfter c as none pb).1 x && p f.1 x := fun f hfm => by
      rw [i4 f hfm, (h4.below i1 i2 _).1]
    have i2' := (h4.below i1 i2 fun _ => true).2
    have hlen : T'.take T'.length = T' := List.take_length
    obtain ⟨s1, s2, s3⟩ := run_step (n := T'.length) hn p hf h3 ih' h7 (by rw [hlen]; exact h5) h6
    rw [hlen] at s2 s3
    have hit : iterAfter c (as ++ [a]) none pb = (restartAfter (iterAfter c as none pb).1 new, pb') := by
      rw [iterAfter_append]
      simp only [iterAfter, h1, h2, h7]
    refine ⟨h3, fun t ht => ?_, ys ++ new, fun f => ?_, ?_, s2 i2'⟩
    · rw [hit] at ht
      rcases s3 t ht with h | ⟨x, hx, h⟩
      · exact i2' t h
      · exact ⟨x, hx, h.ge⟩
    · rw [delivered_append, i3, received_append]
      simp only [received, h1, h2, h7, List.append_nil]
    · rw [hit]; exact s1

/-- **C89** Calls with `trim_start` and `discard_last` over a seed of which the last row group is temporary, and may be different
at the next call: a key has received the rows of the last version of the seed that pass its filter, except the last row group,
once. No temporary row has been received. -/
theorem C89_received {c : Config K R A S P Q F} {pb : P} (hn : (c.filters.map Prod.fst).Nodup) (p : F → R → Bool)
    (hf : ∀ f ∈ c.filters, RowFilter f.2 (p f.1)) {as : List (Call R)} {T : List R} (h : Revised c pb as T)
    {f : F × Filt R} (hfm : f ∈ c.filters) :
    received c f.1 as none pb = T.filter fun x => notLast c.ord T x && p f.1 x := by
  obtain ⟨_, _, ys, h1, _, h2⟩ := revised_inv hn p hf h
  rw [← h1, h2 f hfm]

end

/-! ### The seed is the results of another stream -/

section
variable {K R A S P Q F K2 A2 S2 P2 Q2 F2 : Type} [DecidableEq K] [DecidableEq F] [DecidableEq K2] [DecidableEq F2]

/-- Rounds of two streams. In each round, the first one runs calls, the last with a final write; then the second one runs a
call with `trim_start` and `discard_last`, of which the seed is read from dataset `k` of the first, in chunks of any size, from
the start or without rows that are before the restart index. Calls made, and states reached. -/
inductive Chain (c1 : Config K R A S P Q F) (c2 : Config K2 (Row A) A2 S2 P2 Q2 F2) (k : K) (s1 : State A S P Q)
    (w1 : World K A (Md S P Q)) (s2 : State A2 S2 P2 Q2) (w2 : World K2 A2 (Md S2 P2 Q2)) :
    List (Call R) → List (Call (Row A)) → State A S P Q → World K A (Md S P Q) → State A2 S2 P2 Q2 →
    World K2 A2 (Md S2 P2 Q2) → Prop
  | nil : Chain c1 c2 k s1 w1 s2 w2 [] [] s1 w1 s2 w2
  | round {as bs t1 v1 t2 v2 as' a t1' v1' seed d fw t2' v2'} : Chain c1 c2 k s1 w1 s2 w2 as bs t1 v1 t2 v2 →
    aggs c1 (as' ++ [a]) t1 v1 = .ok (t1', v1') → a.finalWrite = true →
    seed.flatten = (readRows (v1' k).rgs).drop d →
    (∀ x ∈ (readRows (v1' k).rgs).take d, ∃ t, t2.restart = some t ∧ c2.ord x < t) →
    agg c2 ⟨seed, true, true, fw⟩ t2 v2 = .ok (t2', v2', false) →
    Chain c1 c2 k s1 w1 s2 w2 (as ++ (as' ++ [a])) (bs ++ [⟨seed, true, true, fw⟩]) t1' v1' t2' v2'

theorem aggs_append_ok' {c : Config K R A S P Q F} {as bs : List (Call R)} {s s1 : State A S P Q}
    {w w1 : World K A (Md S P Q)} (h : aggs c as s w = .ok (s1, w1)) : aggs c (as ++ bs) s w = aggs c bs s1 w1 := by
  induction as generalizing s w with
  | nil => cases h; rfl
  | cons a as ih =>
    simp only [List.cons_append, aggs] at h ⊢
    cases ha : agg c a s w with
    | error e => simp [ha] at h
    | ok x => simp only [ha] at h ⊢; exact ih h

theorem aggs_iter {c : Config K R A S P Q F} {as : List (Call R)} {s s' : State A S P Q} {w w' : World K A (Md S P Q)}
    (h : aggs c as s w = .ok (s', w')) (hl : s.bufs.length = c.keys.length) :
    (s'.restart, s'.pre) = iterAfter c as s.restart s.pre := by
  induction as generalizing s w with
  | nil => cases h; rfl
  | cons a as ih =>
    simp only [aggs] at h
    cases ha : agg c a s w with
    | error e => simp [ha] at h
    | ok x =>
      obtain ⟨t, v, e⟩ := x
      simp only [ha] at h
      obtain ⟨_, g2, ys, exc, g3, g4, _⟩ := agg_idx ha hl
      rw [ih h g2, g4]
      simp only [iterAfter, g3]

variable {c1 : Config K R A S P Q F} {c2 : Config K2 (Row A) A2 S2 P2 Q2 F2} {k : K} {s1 s1' : State A S P Q}
  {w1 w1' : World K A (Md S P Q)} {s2 s2' : State A2 S2 P2 Q2} {w2 w2' : World K2 A2 (Md S2 P2 Q2)} {as : List (Call R)}
  {bs : List (Call (Row A))}

theorem Chain.first (h : Chain c1 c2 k s1 w1 s2 w2 as bs s1' w1' s2' w2') : aggs c1 as s1 w1 = .ok (s1', w1') := by
  induction h with
  | nil => rfl
  | round _ h1 _ _ _ _ ih => rw [aggs_append_ok' ih, h1]

theorem Chain.second (h : Chain c1 c2 k s1 w1 s2 w2 as bs s1' w1' s2' w2') : aggs c2 bs s2 w2 = .ok (s2', w2') := by
  induction h with
  | nil => rfl
  | round _ _ _ _ _ h1 ih => rw [aggs_append_ok' ih]; simp only [aggs, h1]

theorem strict_notLast {ord : R → Int} {T : List R} (h : (T.map ord).Pairwise (· < ·)) :
    T.filter (fun x => notLast ord T x) = T.dropLast := by
  cases hl : T.getLast? with
  | none => rw [List.getLast?_eq_none_iff] at hl; subst hl; rfl
  | some x =>
    obtain ⟨l, rfl⟩ := List.getLast?_eq_some_iff.1 hl
    rw [List.map_append, List.pairwise_append] at h
    rw [List.dropLast_concat, List.filter_append]
    have h1 : ∀ y ∈ l, ord y < ord x := fun y hy => h.2.2 _ (List.mem_map_of_mem hy) _ (by simp)
    have e1 : l.filter (fun y => notLast ord (l ++ [x]) y) = l := by
      rw [List.filter_eq_self]
      intro y hy
      simp only [notLast, List.any_eq_true, decide_eq_true_eq]
      exact ⟨x, by simp, h1 y hy⟩
    have e2 : [x].filter (fun y => notLast ord (l ++ [x]) y) = [] := by
      rw [List.filter_eq_nil_iff]
      intro y hy
      simp only [List.mem_singleton] at hy
      subst hy
      simp only [notLast, List.any_eq_true, decide_eq_true_eq, not_exists, not_and]
      intro z hz
      rcases List.mem_append.1 hz with hz | hz
      · have := h1 z hz; omega
      · simp only [List.mem_singleton] at hz; subst hz; omega
    rw [e1, e2, List.append_nil]

theorem goesOn_of_prefix {ord : R → Int} {T T' : List R} (h : (T.map ord).Pairwise (· < ·)) (h' : (T'.map ord).Pairwise (· < ·))
    (h1 : T.dropLast <+: T') (h2 : T.map ord <+: T'.map ord) : GoesOn ord T T' := by
  intro x hx
  obtain ⟨l, rfl⟩ := List.getLast?_eq_some_iff.1 hx
  rw [List.dropLast_concat] at h1
  obtain ⟨m, rfl⟩ := h1
  obtain ⟨e, he⟩ := h2
  simp only [List.map_append, List.append_assoc, List.map_cons, List.map_nil] at he
  have he := List.append_cancel_left he
  cases m with
  | nil => simp at he
  | cons y m =>
    simp only [List.map_cons, List.singleton_append, List.cons.injEq] at he
    rw [List.map_append, List.pairwise_append] at h h'
    refine ⟨?_, y, by simp, he.1.le⟩
    rw [List.filter_append, List.filter_append]
    congr 1
    rw [List.filter_eq_nil_iff.2, List.filter_eq_nil_iff.2]
    · simp
    · intro z hz
      simp only [decide_eq_true_eq]
      have hy : ord y = ord x := he.1.symm
      rcases List.mem_cons.1 hz with rfl | hz
      · omega
      · have := (List.pairwise_cons.1 h'.2.1).1 _ (List.mem_map_of_mem hz)
        omega

/-- Rounds of two streams, as in `Chain`, each round being in new processes: both streams are created from what is in their
stores, and end with a final write. After each round, both have a restart index, which is not 0 (C53_zero_fails). `s0`, `p0`,
`q0` are empty buffers of the first stream, `s0'`, `p0'`, `q0'` those of the second one. -/
inductive ChainSessions (s0 : S) (p0 : P) (q0 : Q) (s0' : S2) (p0' : P2) (q0' : Q2) (c1 : Config K R A S P Q F)
    (c2 : Config K2 (Row A) A2 S2 P2 Q2 F2) (k : K) (w1 : World K A (Md S P Q)) (w2 : World K2 A2 (Md S2 P2 Q2)) :
    List (Call R) → List (Call (Row A)) → World K A (Md S P Q) → World K2 A2 (Md S2 P2 Q2) → Prop
  | nil : ChainSessions s0 p0 q0 s0' p0' q0' c1 c2 k w1 w2 [] [] w1 w2
  | round {as bs v1 v2 t1 t2 as' a t1' v1' seed d t2' v2' i j} :
    ChainSessions s0 p0 q0 s0' p0' q0' c1 c2 k w1 w2 as bs v1 v2 →
    initBuffers s0 p0 q0 c1 v1 = .ok t1 → aggs c1 (as' ++ [a]) t1 v1 = .ok (t1', v1') → a.finalWrite = true →
    initBuffers s0' p0' q0' c2 v2 = .ok t2 → seed.flatten = (readRows (v1' k).rgs).drop d →
    (∀ x ∈ (readRows (v1' k).rgs).take d, ∃ t, t2.restart = some t ∧ c2.ord x < t) →
    agg c2 ⟨seed, true, true, true⟩ t2 v2 = .ok (t2', v2', false) →
    t1'.restart = some i → c1.truthy i = true → t2'.restart = some j → c2.truthy j = true →
    ChainSessions s0 p0 q0 s0' p0' q0' c1 c2 k w1 w2 (as ++ (as' ++ [a])) (bs ++ [⟨seed, true, true, true⟩]) v1' v2'

/-- **C89** Rounds in new processes do the same as rounds of two streams that are kept. -/
theorem C89_sessions {s0 : S} {p0 : P} {q0 : Q} {s0' : S2} {p0' : P2} {q0' : Q2} (hk : Apart c1.keys) (hne : c1.keys ≠ [])
    (hd : ∀ k ∈ c1.keys, k.2.resType = .both → k.2.main ≠ k.2.snap) (hc : ∀ k ∈ c1.keys, Answers k.2.call)
    (hk2 : Apart c2.keys) (hne2 : c2.keys ≠ []) (hd2 : ∀ k ∈ c2.keys, k.2.resType = .both → k.2.main ≠ k.2.snap)
    (hc2 : ∀ k ∈ c2.keys, Answers k.2.call) (h1 : initBuffers s0 p0 q0 c1 w1 = .ok s1)
    (h2 : initBuffers s0' p0' q0' c2 w2 = .ok s2) (hl : s1.bufs.length = c1.keys.length) (hl2 : s2.bufs.length = c2.keys.length)
    (hs : ∀ b ∈ s1.bufs, b.Rest) (hs2 : ∀ b ∈ s2.bufs, b.Rest)
    (h : ChainSessions s0 p0 q0 s0' p0' q0' c1 c2 k w1 w2 as bs w1' w2') :
    ∃ s1' s2', Chain c1 c2 k s1 w1 s2 w2 as bs s1' w1' s2' w2' ∧ initBuffers s0 p0 q0 c1 w1' = .ok s1' ∧
      initBuffers s0' p0' q0' c2 w2' = .ok s2' := by
  induction h with
  | nil => exact ⟨s1, s2, .nil, h1, h2⟩
  | @round as bs v1 v2 t1 t2 as' a t1' v1' seed d t2' v2' i j _ g1 g2 g3 g4 g5 g6 g7 g8 g9 g10 g11 ih =>
    obtain ⟨u1, u2, k1, k2, k3⟩ := ih
    rw [g1, Except.ok.injEq] at k2
    rw [g4, Except.ok.injEq] at k3
    subst k2 k3
    have hch := Chain.round k1 g2 g3 g5 g6 g7
    refine ⟨_, _, hch, ?_, ?_⟩
    · have := hch.first
      rw [← List.append_assoc] at this
      exact C49_same_state hk hne hd hc g3 hl hs this g8 g9 s0 p0 q0
    · exact C49_same_state hk2 hne2 hd2 hc2 rfl hl2 hs2 hch.second g10 g11 s0' p0' q0'

/-- Bins but the last do not change as rows are added. -/
theorem _root_.Oups.Segment.Lawful.dropLast_prefix {B : Type} {fn : BinFn R B} {pos : R → Int} {c : Closed} {b0 : B}
    {spec : List R → List (Bin R)} {ok : List R → B → Prop} (L : Lawful fn pos c b0 spec ok) (h p : List R)
    (hs : AscOn pos (h ++ p)) : (spec h).dropLast <+: spec (h ++ p) := by
  by_cases hp : p = []
  · subst hp; rw [List.append_nil]; exact List.dropLast_prefix _
  obtain ⟨b, hb⟩ := L.reach h (hs.sublist (List.sublist_append_left _ _))
  obtain ⟨r, b', h1, h2, h3, h4⟩ := L.step h p b hp hs hb
  obtain ⟨f, tl, hft, hcase⟩ := step_cases L hs h4
  rcases hcase with ⟨rfl, _⟩ | ⟨hne, bs, l, h5, h6, _⟩
  · rw [L.spec_nil]; simp
  · rw [h5, h6, List.dropLast_concat]
    exact List.prefix_append _ _

/-- `G` are the results that the first stream stores in dataset `k`, transformed by `g`: rows received by the second one. -/
theorem chain_core {f : F} {V : List R → Prop} {G : List R → List (Row A)} {g : Row A → Row A} {T : Table (Row A)} {on : Col}
    {d : DupOn} (SL : StreamLaw V G g T on d) (hT : ByLabel T on d g) (hval : ∀ h p, V (h ++ p) → V h)
    (hst : ∀ {as : List (Call R)} {a : Call R} {t v}, a.finalWrite = true → V (received c1 f (as ++ [a]) s1.restart s1.pre) →
      aggs c1 (as ++ [a]) s1 w1 = .ok (t, v) → readRows (v k).rgs = (G (received c1 f (as ++ [a]) s1.restart s1.pre)).map g)
    (hpre : ∀ h p, V (h ++ p) → (G h).dropLast <+: G (h ++ p))
    (hlab : ∀ h p, V (h ++ p) → (G h).map Prod.fst <+: (G (h ++ p)).map Prod.fst)
    (hord : c2.ord = T.get on) (hp2 : c2.pre = none) (hn : (c2.filters.map Prod.fst).Nodup) (p : F2 → Row A → Bool)
    (hf : ∀ e ∈ c2.filters, RowFilter e.2 (p e.1)) {e : F2 × Filt (Row A)} (he : e ∈ c2.filters)
    (hl2 : s2.bufs.length = c2.keys.length) (hr2 : s2.restart = none)
    (hV : V (received c1 f as s1.restart s1.pre)) (h : Chain c1 c2 k s1 w1 s2 w2 as bs s1' w1' s2' w2') :
    received c2 e.1 bs none s2.pre = ((G (received c1 f as s1.restart s1.pre)).dropLast.map g).filter (p e.1) := by
  have main : ∀ {as bs t1 v1 t2 v2}, Chain c1 c2 k s1 w1 s2 w2 as bs t1 v1 t2 v2 →
      V (received c1 f as s1.restart s1.pre) →
      Revised c2 s2.pre bs ((G (received c1 f as s1.restart s1.pre)).map g) := by
    intro as bs t1 v1 t2 v2 h
    induction h with
    | nil =>
      intro _
      simp only [received, SL.nil, List.map_nil]
      exact .nil
    | @round as bs t1 v1 t2 v2 as' a t1' v1' seed d fw t2' v2' h1 h2 h3 h4 h5 h6 ih =>
      intro hV
      have hall := (Chain.round h1 h2 h3 h4 h5 h6).first
      rw [← List.append_assoc] at hall hV
      have e1 := hst h3 hV hall
      rw [List.append_assoc] at e1 hV
      have happ := received_append c1 f as (as' ++ [a]) s1.restart s1.pre
      rw [happ] at hV
      have ih := ih (hval _ _ hV)
      have k1 := hpre _ _ hV
      have k2 := hlab _ _ hV
      have st1 := SL.strict _ (hval _ _ hV)
      have st2 := SL.strict _ hV
      rw [← happ] at k1 k2 st2 hV
      have hlabel : ∀ l : List (Row A), (l.map g).map c2.ord = l.map Prod.fst := by
        intro l
        rw [List.map_map]
        apply List.map_congr_left
        intro r _
        simp only [Function.comp, hord, hT.label]
      have strict : ∀ q : List (Row A), StrictOn (T.get on) (q.map g) → ((q.map g).map c2.ord).Pairwise (· < ·) := by
        intro q hq
        rw [List.pairwise_map, hord]
        exact hq
      have hit := aggs_iter h1.second hl2
      rw [hr2] at hit
      obtain ⟨_, _, ys, exc, g1, g2, _, g3⟩ := agg_idx h6 (by rw [aggs_length h1.second hl2])
      have hexc : exc = none := g3.1 rfl
      subst hexc
      have hi1 : (iterAfter c2 bs none s2.pre).1 = t2.restart := by rw [← hit]
      have hi2 : (iterAfter c2 bs none s2.pre).2 = t2.pre := by rw [← hit]
      have hid : ∀ (pb : P2) (l : List (List (Row A))), preprocessed c2.pre pb l = l := by
        intro pb l
        rw [hp2]
        induction l with
        | nil => rfl
        | cons x l ihl => simp only [preprocessed, ihl]
      refine .call (d := d) (ys := ys) (pb' := t2'.pre) ih rfl rfl ?_ ?_ ?_ ?_ ?_
      · rw [Ascending, ← List.pairwise_map (f := c2.ord) (R := fun a b : Int => a ≤ b)]
        exact (strict _ st2).imp le_of_lt
      · refine goesOn_of_prefix (strict _ st1) (strict _ st2) ?_ ?_
        · rw [← List.map_dropLast]
          exact k1.map g
        · rw [hlabel, hlabel]; exact k2
      · rw [hid, ← e1]; exact h4
      · rw [hi1, ← e1]; exact h5
      · rw [hi1, hi2]; exact g1
  rw [C89_received hn p hf (main h hV) he]
  have st := SL.strict _ hV
  rw [← hord] at st
  rw [List.filter_congr (q := fun x => p e.1 x && notLast c2.ord ((G (received c1 f as s1.restart s1.pre)).map g) x)
    (fun _ _ => Bool.and_comm _ _), ← List.filter_filter, strict_notLast (by rw [List.pairwise_map]; exact st),
    List.map_dropLast]

/-- **C89** The seed of a second stream is read, after each final write of a first one, from the bins that it stores: whatever
the rounds, a key of the second stream has received the results of the first on all of its rows, except the last one, once
and with their final values, those that pass its filter. `V`, `FB`, `gB` as in `C48_stored`. -/
theorem C89_chain (hk : Apart c1.keys) {i : Nat} {f : F} {cfg : KeyCfg K R A S Q} (hi : c1.keys[i]? = some (f, cfg))
    {V : List R → Prop} {FB : List R → List (Row A)} {FS : Option (List R → List (Row A))} {ok : List R → S → Prop}
    {gB gS : Row A → Row A} {on : Col} {d : DupOn} (L : KeyLaws cfg V FB FS ok gB gS on d) (hT : ByLabel cfg.table on d gB)
    (hres : cfg.resType ≠ .snaps) (hpre : ∀ h p, V (h ++ p) → (FB h).dropLast <+: FB (h ++ p))
    (hlab : ∀ h p, V (h ++ p) → (FB h).map Prod.fst <+: (FB (h ++ p)).map Prod.fst)
    (hl : s1.bufs.length = c1.keys.length) {s0 : S} {q0 : Q} (hb : s1.bufs[i]? = some { seg := s0, post := q0 })
    (h0 : ok [] s0) (hm : (w1 cfg.main).rgs = []) (hs : (w1 cfg.snapKey).rgs = [])
    (hord : c2.ord = cfg.table.get on) (hp2 : c2.pre = none) (hn : (c2.filters.map Prod.fst).Nodup) (p : F2 → Row A → Bool)
    (hf : ∀ g ∈ c2.filters, RowFilter g.2 (p g.1)) {g : F2 × Filt (Row A)} (hg : g ∈ c2.filters)
    (hl2 : s2.bufs.length = c2.keys.length) (hr2 : s2.restart = none)
    (hV : V (received c1 f as s1.restart s1.pre)) (h : Chain c1 c2 cfg.main s1 w1 s2 w2 as bs s1' w1' s2' w2') :
    received c2 g.1 bs none s2.pre =
      ((FB (received c1 f as s1.restart s1.pre)).dropLast.map gB).filter (p g.1) :=
  chain_core (L.bins hres) hT L.valid (fun ha hv hr => (C48_stored hk hi L hl hb h0 hm hs ha hv hr).1 hres) hpre hlab hord hp2 hn
    p hf hg hl2 hr2 hV h

/-- **C89** Same, the seed of the second stream being the snapshots that the first one stores. -/
theorem C89_chain_snaps (hk : Apart c1.keys) {i : Nat} {f : F} {cfg : KeyCfg K R A S Q} (hi : c1.keys[i]? = some (f, cfg))
    {V : List R → Prop} {FB fs : List R → List (Row A)} {ok : List R → S → Prop}
    {gB gS : Row A → Row A} {on : Col} {d : DupOn} (L : KeyLaws cfg V FB (some fs) ok gB gS on d)
    (hT : ByLabel cfg.table on d gS)
    (hres : cfg.resType ≠ .bins) (hpre : ∀ h p, V (h ++ p) → (fs h).dropLast <+: fs (h ++ p))
    (hlab : ∀ h p, V (h ++ p) → (fs h).map Prod.fst <+: (fs (h ++ p)).map Prod.fst)
    (hl : s1.bufs.length = c1.keys.length) {s0 : S} {q0 : Q} (hb : s1.bufs[i]? = some { seg := s0, post := q0 })
    (h0 : ok [] s0) (hm : (w1 cfg.main).rgs = []) (hs : (w1 cfg.snapKey).rgs = [])
    (hord : c2.ord = cfg.table.get on) (hp2 : c2.pre = none) (hn : (c2.filters.map Prod.fst).Nodup) (p : F2 → Row A → Bool)
    (hf : ∀ g ∈ c2.filters, RowFilter g.2 (p g.1)) {g : F2 × Filt (Row A)} (hg : g ∈ c2.filters)
    (hl2 : s2.bufs.length = c2.keys.length) (hr2 : s2.restart = none)
    (hV : V (received c1 f as s1.restart s1.pre)) (h : Chain c1 c2 cfg.snapKey s1 w1 s2 w2 as bs s1' w1' s2' w2') :
    received c2 g.1 bs none s2.pre =
      ((fs (received c1 f as s1.restart s1.pre)).dropLast.map gS).filter (p g.1) := by
  obtain ⟨f', e, SL⟩ := L.snaps hres
  cases e
  exact chain_core SL hT L.valid (fun ha hv hr => (C48_stored hk hi L hl hb h0 hm hs ha hv hr).2 hres _ rfl) hpre hlab hord hp2 hn
    p hf hg hl2 hr2 hV h

end

section
variable {K R D V S P Q F K2 D2 V2 S2 P2 Q2 F2 : Type} [DecidableEq K] [DecidableEq F] [DecidableEq K2] [DecidableEq F2]
  [DecidableEq D] [DecidableEq D2]
variable (O : D → Ops V) (get : R → Nat → V) {dtype : Nat → Option D} {agg : List (Nat × Nat × Option Fn)}
  {gc : List (D × Group)} (z : List (List V) → Bool)
variable {c1 : Config K R (List (List V)) S P Q F} {i : Nat} {f : F} {cfg : KeyCfg K R (List (List V)) S Q}
  {gB gS : Row (List (List V)) → Row (List (List V))} {on : Col} {d : DupOn}
  {s1 s1' : State (List (List V)) S P Q} {w1 w1' : World K (List (List V)) (Md S P Q)} {q0 : Q} {as : List (Call R)}

/-- **C89** Same, the first stream being with a `TimeGrouper`: its results are those of `cumsegagg` on all of its rows at
once. -/
theorem C89_time_received {A2 : Type} {c2 : Config K2 (Row (List (List V))) A2 S2 P2 Q2 F2} {s2 s2' : State A2 S2 P2 Q2}
    {w2 w2' : World K2 A2 (Md S2 P2 Q2)} {bs : List (Call (Row (List (List V))))}
    (hk : Apart c1.keys) (hi : c1.keys[i]? = some (f, cfg))
    (hagg : setupCumsegagg agg dtype = .ok gc) (gr : Grouper) (hgr : Fixed gr) (pos : R → Int) (ordered : Option (R → Int))
    {emb : Buf ScaleBuf (List (List V)) → S}
    {e0 : Bool} (hcall : Embeds emb (inPlace (frameCall O get gc z (grouperFn gr pos) ordered none e0)) cfg.call)
    (hres : cfg.resType = .bins) (hpost : PostRow cfg gB gS) (hw : WriteOk cfg.table cfg.params on d)
    (hT : ByLabel cfg.table on d gB) (hl : s1.bufs.length = c1.keys.length)
    (hb : s1.bufs[i]? = some { seg := emb (Buf.init {}), post := q0 }) (hm : (w1 cfg.main).rgs = [])
    (hne : received c1 f as s1.restart s1.pre ≠ []) (hasc : AscOn pos (received c1 f as s1.restart s1.pre))
    (ho : ∀ o, ordered = some o → AscOn o (received c1 f as s1.restart s1.pre))
    (hord : c2.ord = cfg.table.get on) (hp2 : c2.pre = none) (hn : (c2.filters.map Prod.fst).Nodup)
    (p : F2 → Row (List (List V)) → Bool) (hf : ∀ g ∈ c2.filters, RowFilter g.2 (p g.1))
    {g : F2 × Filt (Row (List (List V)))} (hg : g ∈ c2.filters) (hl2 : s2.bufs.length = c2.keys.length)
    (hr2 : s2.restart = none) (h : Chain c1 c2 cfg.main s1 w1 s2 w2 as bs s1' w1' s2' w2') :
    ∃ one, frameCall O get gc z (grouperFn gr pos) ordered none false (received c1 f as s1.restart s1.pre) none =
        .ok (some one, none) ∧
      received c2 g.1 bs none s2.pre = (one.bins.dropLast.map gB).filter (p g.1) := by
  have hc := cfgOk_of hagg
  have hL := grouper_lawful gr gr.origin0 hgr.anchored pos
  have hst := gridSpec_strict (gr.closed == .right) gr.labelRight gr.origin0 gr.freq pos
    (received c1 f as s1.restart s1.pre) hgr.anchored.1
  obtain ⟨one, h1, h2, _⟩ := frame_once_bins O get hc z hL ordered hne hasc ho (strictLabels_ok hst)
  have hKL := keyLaws_bins O get hc z hL (ordered := ordered) hcall hres hpost hw hT
  have hms : (w1 cfg.snapKey).rgs = [] := by simpa [KeyCfg.snapKey, hres] using hm
  refine ⟨one, h1, ?_⟩
  rw [h2]
  refine C89_chain hk hi hKL hT (by simp [hres]) (fun a b hv => ?_) (fun a b hv => ?_) hl hb
    ⟨_, rfl, frameOk_init O get trivial hL⟩ hm hms hord hp2 hn p hf hg hl2 hr2 (binsValid_of hL hasc ho hst) h
  · unfold binRes
    rw [← List.map_dropLast]
    exact (hL.dropLast_prefix a b hv.1).map _
  · rw [binRes_fst, binRes_fst]
    exact hL.labels_prefix a b hv.1

/-- **C89** Same, the first stream being with `by_x_rows`, if the labels of its results on all rows, at once, are in strict
order. -/
theorem C89_rows_received {A2 : Type} {c2 : Config K2 (Row (List (List V))) A2 S2 P2 Q2 F2} {s2 s2' : State A2 S2 P2 Q2}
    {w2 w2' : World K2 A2 (Md S2 P2 Q2)} {bs : List (Call (Row (List (List V))))}
    (hk : Apart c1.keys) (hi : c1.keys[i]? = some (f, cfg))
    (hagg : setupCumsegagg agg dtype = .ok gc) (n : Nat) (hn0 : 0 < n) (cl : Closed) (pos : R → Int)
    (ordered : Option (R → Int)) {emb : Buf (Option RowsBuf) (List (List V)) → S}
    {e0 : Bool} (hcall : Embeds emb (inPlace (frameCall O get gc z (rowsFn n cl pos) ordered none e0)) cfg.call)
    (hres : cfg.resType = .bins) (hpost : PostRow cfg gB gS) (hw : WriteOk cfg.table cfg.params on d)
    (hT : ByLabel cfg.table on d gB) (hl : s1.bufs.length = c1.keys.length)
    (hb : s1.bufs[i]? = some { seg := emb (Buf.init none), post := q0 }) (hm : (w1 cfg.main).rgs = [])
    (hne : received c1 f as s1.restart s1.pre ≠ [])
    (ho : ∀ o, ordered = some o → AscOn o (received c1 f as s1.restart s1.pre))
    (hord : c2.ord = cfg.table.get on) (hp2 : c2.pre = none) (hn : (c2.filters.map Prod.fst).Nodup)
    (p : F2 → Row (List (List V)) → Bool) (hf : ∀ g ∈ c2.filters, RowFilter g.2 (p g.1))
    {g : F2 × Filt (Row (List (List V)))} (hg : g ∈ c2.filters) (hl2 : s2.bufs.length = c2.keys.length)
    (hr2 : s2.restart = none) (h : Chain c1 c2 cfg.main s1 w1 s2 w2 as bs s1' w1' s2' w2') :
    ∃ one, frameCall O get gc z (rowsFn n cl pos) ordered none false (received c1 f as s1.restart s1.pre) none =
        .ok (some one, none) ∧ ((one.bins.map Prod.fst).Pairwise (· < ·) →
      received c2 g.1 bs none s2.pre = (one.bins.dropLast.map gB).filter (p g.1)) := by
  have hc := cfgOk_of hagg
  have hL := rows_lawful n hn0 cl pos (fun _ => 0)
  have hasc : AscOn (fun _ => 0) (received c1 f as s1.restart s1.pre) := by
    unfold AscOn
    exact List.Pairwise.imp (R := fun _ _ => True) (by simp) (List.pairwise_of_forall (by simp))
  obtain ⟨one, h1, h2, _⟩ := frame_once_bins O get hc z hL ordered hne hasc ho (xBins_labels _ n hn0 pos _)
  have hKL := keyLaws_bins O get hc z hL (ordered := ordered) hcall hres hpost hw hT
  have hms : (w1 cfg.snapKey).rgs = [] := by simpa [KeyCfg.snapKey, hres] using hm
  refine ⟨one, h1, fun hst => ?_⟩
  rw [h2, binRes_fst] at hst
  rw [h2]
  refine C89_chain hk hi hKL hT (by simp [hres]) (fun a b hv => ?_) (fun a b hv => ?_) hl hb
    ⟨_, rfl, frameOk_init O get trivial hL⟩ hm hms hord hp2 hn p hf hg hl2 hr2 (binsValid_of hL hasc ho hst) h
  · unfold binRes
    rw [← List.map_dropLast]
    exact (hL.dropLast_prefix a b hv.1).map _
  · rw [binRes_fst, binRes_fst]
    exact hL.labels_prefix a b hv.1

/-- Snapshots but the last do not change as rows are added. -/
theorem snapRes_dropLast {B : Type} {fn : BinFn R B} {pos : R → Int} {cl : Closed} {b0 : B} {spec : List R → List (Bin R)}
    {okb : List R → B → Prop} (hc : CfgOk dtype agg gc) (L : Lawful fn pos cl b0 spec okb) {sn : Snaps}
    {pts : List R → List (Int × Int)} {sok : List R → ScaleBuf → Prop} (SL : SnapLaw sn cl pos pts sok) {nb : Bool} (h p : List R)
    (hv : SnapsValid pos (cl == .right) nb spec pts (h ++ p)) :
    (snapRes (updCfg O get gc) (chunkRes0 O gc) (cl == .right) pos (spec h) (pts h)).dropLast <+:
      snapRes (updCfg O get gc) (chunkRes0 O gc) (cl == .right) pos (spec (h ++ p)) (pts (h ++ p)) := by
  by_cases hp : p = []
  · subst hp; rw [List.append_nil]; exact List.dropLast_prefix _
  have hreach : ∃ b, AggOk (accUpd O get gc) (acc0 O gc) spec okb sok h b := by
    by_cases hh : h = []
    · exact ⟨_, hh ▸ aggOk_init (acc0 O gc) L SL.init⟩
    · have hv' := hv.left
      have hv1 := hv'.2 _ (List.prefix_refl _)
      obtain ⟨_, b', _, _, _, _, _, h5⟩ := step_snaps (accHom O get hc) (acc0 O gc) (fun _ => false) L SL
        (h := []) (p := h) (b := Buf.init b0) hh (by simpa using hv'.1) (by simpa using hv1.1)
        (by rw [L.spec_nil]; trivial) (by simpa using hv1.2.1) (aggOk_init (acc0 O gc) L SL.init)
      exact ⟨b', by simpa using h5⟩
  obtain ⟨b, hb⟩ := hreach
  have hv1 := hv.2 _ (List.prefix_refl _)
  obtain ⟨_, _, news, _, _, _, h4, _⟩ := step_snaps (accHom O get hc) (acc0 O gc) (fun _ => false) L SL hp hv.1 hv1.1
    (hv.2 h ⟨p, rfl⟩).2.1 hv1.2.1 hb
  rw [← snapRes_val, ← snapRes_val, h4, projRows_append, projRows_dropLast]
  exact List.prefix_append _ _

/-- **C89** Same, the first stream storing snapshots from a `TimeGrouper`, alone or beside bins. -/
theorem C89_snaps_received {A2 : Type} {c2 : Config K2 (Row (List (List V))) A2 S2 P2 Q2 F2} {s2 s2' : State A2 S2 P2 Q2}
    {w2 w2' : World K2 A2 (Md S2 P2 Q2)} {bs : List (Call (Row (List (List V))))}
    (hk : Apart c1.keys) (hi : c1.keys[i]? = some (f, cfg))
    (hagg : setupCumsegagg agg dtype = .ok gc) (gr : Grouper) (hgr : Fixed gr) (gs : Grouper) (hgs : Fixed gs) (pos : R → Int)
    {emb : Buf ScaleBuf (List (List V)) → S} {e0 : Bool}
    (hcall : Embeds emb (inPlace (frameCall O get gc z (grouperFn gr pos) (some pos) (some (.grouper gs)) e0)) cfg.call)
    (hres : cfg.resType ≠ .bins) (hd : cfg.resType = .both → cfg.main ≠ cfg.snap) (hpost : PostRow cfg gB gS)
    (hw : WriteOk cfg.table cfg.params on d) (hws : cfg.resType = .both → WriteOk cfg.table cfg.snapParams on d)
    (hT : cfg.resType = .both → ByLabel cfg.table on d gB) (hTs : ByLabel cfg.table on d gS)
    (hl : s1.bufs.length = c1.keys.length)
    (hb : s1.bufs[i]? = some { seg := emb (Buf.init {}), post := q0 }) (hm : (w1 cfg.main).rgs = [])
    (hms : cfg.resType = .both → (w1 cfg.snap).rgs = [])
    (hne : received c1 f as s1.restart s1.pre ≠ []) (hasc : AscOn pos (received c1 f as s1.restart s1.pre))
    (hord : c2.ord = cfg.table.get on) (hp2 : c2.pre = none) (hn : (c2.filters.map Prod.fst).Nodup)
    (p : F2 → Row (List (List V)) → Bool) (hf : ∀ g ∈ c2.filters, RowFilter g.2 (p g.1))
    {g : F2 × Filt (Row (List (List V)))} (hg : g ∈ c2.filters) (hl2 : s2.bufs.length = c2.keys.length)
    (hr2 : s2.restart = none) (h : Chain c1 c2 cfg.snapKey s1 w1 s2 w2 as bs s1' w1' s2' w2') :
    ∃ one sns, frameCall O get gc z (grouperFn gr pos) (some pos) (some (.grouper gs)) false
        (received c1 f as s1.restart s1.pre) none = .ok (some one, none) ∧ one.snaps = some sns ∧
      received c2 g.1 bs none s2.pre = (sns.dropLast.map gS).filter (p g.1) := by
  have hc := cfgOk_of hagg
  have hL := grouper_lawful gr gr.origin0 hgr.anchored pos
  have hSL := grouper_snaps gs gs.origin0 hgs.anchored gr.closed pos
  have hst : ∀ q, StrictLabels (gridSpec (gr.closed == .right) gr.labelRight gr.origin0 gr.freq pos q) := fun q =>
    gridSpec_strict _ _ _ _ _ _ hgr.1
  obtain ⟨one, sns, h1, h2, h3, h4⟩ := frame_once_snaps O get hc z hL hSL hne hasc (strictLabels_ok (hst _))
    (gridSpec_sep _ _ _ _ _ _ hgr.1)
  have hKL := keyLaws_snaps O get hc z hL hSL (gridPts_prefix gs hgs gr.closed pos) (gridPts_ne gs hgs gr.closed pos)
    hcall hres hd hpost hw hws hT hTs
  have hms' : (w1 cfg.snapKey).rgs = [] := by
    unfold KeyCfg.snapKey
    split
    · rename_i h; exact hms h
    · exact hm
  refine ⟨one, sns, h1, h3, ?_⟩
  rw [h4]
  refine C89_chain_snaps hk hi hKL hTs hres (fun a b hv => snapRes_dropLast O get hc hL hSL a b hv) (fun a b hv => ?_) hl hb
    ⟨_, rfl, frameOk_init O get hSL.init hL⟩ hm hms' hord hp2 hn p hf hg hl2 hr2 ⟨hasc, fun q _ => ⟨strictLabels_ok (hst q),
      gridSpec_sep _ _ _ _ _ _ hgr.1, fun _ => hst q, by rw [gridPts_fst]; exact gridSpec_strict _ _ _ _ _ _ hgs.1⟩⟩ h
  rw [snapRes_fst, snapRes_fst]
  exact gridPts_prefix gs hgs gr.closed pos a b hv.1

/-- **C89** Two streams with `TimeGrouper`s, the seed of the second one being the bins that the first one stores, read again
at each round. After rounds of which the last one ends with a final write of the second stream, what the second stream stores is
what `cumsegagg` returns, at once, on the bins that `cumsegagg` returns, at once, on all rows of the first stream, except the
last bin. -/
theorem C89_time_stored {O2 : D2 → Ops V2} {get2 : Row (List (List V)) → Nat → V2} {dtype2 : Nat → Option D2}
    {agg2 : List (Nat × Nat × Option Fn)} {gc2 : List (D2 × Group)} {z2 : List (List V2) → Bool}
    {c2 : Config K2 (Row (List (List V))) (List (List V2)) S2 P2 Q2 F2} {s2 s2' : State (List (List V2)) S2 P2 Q2}
    {w2 w2' : World K2 (List (List V2)) (Md S2 P2 Q2)} {bs : List (Call (Row (List (List V))))}
    {b : Call (Row (List (List V)))} (hk : Apart c1.keys) (hi : c1.keys[i]? = some (f, cfg))
    (hagg : setupCumsegagg agg dtype = .ok gc) (gr : Grouper) (hgr : Fixed gr) (pos : R → Int) (ordered : Option (R → Int))
    {emb : Buf ScaleBuf (List (List V)) → S}
    {e0 : Bool} (hcall : Embeds emb (inPlace (frameCall O get gc z (grouperFn gr pos) ordered none e0)) cfg.call)
    (hres : cfg.resType = .bins) (hpost : PostRow cfg gB gS) (hw : WriteOk cfg.table cfg.params on d)
    (hT : ByLabel cfg.table on d gB) (hl : s1.bufs.length = c1.keys.length)
    (hb : s1.bufs[i]? = some { seg := emb (Buf.init {}), post := q0 }) (hm : (w1 cfg.main).rgs = [])
    (hne : received c1 f as s1.restart s1.pre ≠ []) (hasc : AscOn pos (received c1 f as s1.restart s1.pre))
    (ho : ∀ o, ordered = some o → AscOn o (received c1 f as s1.restart s1.pre))
    (hord : c2.ord = cfg.table.get on) (hp2 : c2.pre = none) (hn : (c2.filters.map Prod.fst).Nodup)
    (p : F2 → Row (List (List V)) → Bool) (hf : ∀ g ∈ c2.filters, RowFilter g.2 (p g.1))
    {g : F2 × Filt (Row (List (List V)))} (hg : g ∈ c2.filters) (hl2 : s2.bufs.length = c2.keys.length)
    (hr2 : s2.restart = none) {j : Nat} {cfg2 : KeyCfg K2 (Row (List (List V))) (List (List V2)) S2 Q2} {q2 : Q2}
    {gB2 gS2 : Row (List (List V2)) → Row (List (List V2))} {on2 : Col} {d2 : DupOn}
    (hk2 : Apart c2.keys) (hj : c2.keys[j]? = some (g.1, cfg2)) (hagg2 : setupCumsegagg agg2 dtype2 = .ok gc2)
    (gr2 : Grouper) (hgr2 : Fixed gr2) {emb2 : Buf ScaleBuf (List (List V2)) → S2} {e2 : Bool}
    (hcall2 : Embeds emb2 (inPlace (frameCall O2 get2 gc2 z2 (grouperFn gr2 c2.ord) none none e2)) cfg2.call)
    (hres2 : cfg2.resType = .bins) (hpost2 : PostRow cfg2 gB2 gS2) (hw2 : WriteOk cfg2.table cfg2.params on2 d2)
    (hT2 : ByLabel cfg2.table on2 d2 gB2) (hb2 : s2.bufs[j]? = some { seg := emb2 (Buf.init {}), post := q2 })
    (hm2 : (w2 cfg2.main).rgs = []) (hb' : b.finalWrite = true)
    (hne2 : received c2 g.1 (bs ++ [b]) none s2.pre ≠ [])
    (h : Chain c1 c2 cfg.main s1 w1 s2 w2 as (bs ++ [b]) s1' w1' s2' w2') :
    ∃ one two, frameCall O get gc z (grouperFn gr pos) ordered none false (received c1 f as s1.restart s1.pre) none =
        .ok (some one, none) ∧
      frameCall O2 get2 gc2 z2 (grouperFn gr2 c2.ord) none none false ((one.bins.dropLast.map gB).filter (p g.1)) none =
        .ok (some two, none) ∧
      readRows (w2' cfg2.main).rgs = two.bins.map gB2 := by
  obtain ⟨one, h1, h2⟩ := C89_time_received O get z hk hi hagg gr hgr pos ordered hcall hres hpost hw hT hl hb hm hne hasc ho
    hord hp2 hn p hf hg hl2 hr2 h
  have hc := cfgOk_of hagg
  have hL := grouper_lawful gr gr.origin0 hgr.anchored pos
  have hst := gridSpec_strict (gr.closed == .right) gr.labelRight gr.origin0 gr.freq pos
    (received c1 f as s1.restart s1.pre) hgr.anchored.1
  obtain ⟨one', h1', h3, _⟩ := frame_once_bins O get hc z hL ordered hne hasc ho (strictLabels_ok hst)
  obtain rfl : one = one' := by
    rw [h1'] at h1
    simpa using h1.symm
  have hasc2 : AscOn c2.ord (received c2 g.1 (bs ++ [b]) s2.restart s2.pre) := by
    rw [hr2, h2]
    refine List.Pairwise.sublist List.filter_sublist ?_
    rw [List.pairwise_map]
    refine List.Pairwise.sublist (List.dropLast_sublist _) ?_
    have := hst
    unfold StrictLabels at this
    rw [← binRes_fst (updCfg O get gc) (chunkRes0 O gc), ← h3, List.pairwise_map] at this
    exact this.imp fun {x y} hxy => by rw [hord, hT.label, hT.label]; exact hxy.le
  obtain ⟨two, h4, h5⟩ := C48_time_bins O2 get2 z2 hk2 hj hagg2 gr2 hgr2 c2.ord none hcall2 hres2 hpost2 hw2 hT2 hl2 hb2 hm2 hb'
    (by rw [hr2]; exact hne2) hasc2 (by simp) h.second
  rw [hr2, h2] at h4
  exact ⟨one, two, h1, h4, h5⟩

end
/-! ### C89: examples -/

/-- Value of the first aggregate in a row of results. -/
def exNextGet : Row (List (List Int)) → Nat → Int := fun r _ => ((r.2.bind List.head?).bind List.head?).getD 0

/-- Sum and last value, in bins of length 20, of the results of a first stream. -/
def exNextKey (maxSize : Nat) : KeyCfg Nat (Row (List (List Int))) (List (List Int)) ExBuf Unit where
  main := 0
  snap := 0
  call := inPlace (frameCall (fun _ => intOps) exNextGet ex_cfg exZ (grouperFn { freq := 20 } (exT.get 0)) none none true)
  mem := List.length
  maxSize := maxSize
  table := exT
  params := { orderedOn := some (.col 0), dupOn := some (.one 0) }

def exNextConf (maxSize : Nat) : Config Nat (Row (List (List Int))) (List (List Int)) ExBuf Unit Unit Nat where
  ord := exT.get 0
  filters := [(0, none)]
  keys := [(0, exNextKey maxSize)]
  truthy := fun i => decide (i ≠ 0)

/-- Bins stored by the first stream after `exSeed1`: the last one is temporary. -/
def exNextRead1 : List (List (Row (List (List Int)))) := [[(0, some [[1, 1]])], [(10, some [[6, 4]]), (20, some [[8, 8]])]]

/-- Bins stored after `exSeed2`, from the restart index of the second stream. -/
def exNextRead2 : List (List (Row (List (List Int)))) :=
  [[(20, some [[24, 16]]), (30, some [[96, 64]])], [(40, some [[128, 128]])]]

def exRowsCalls : List (Call (Int × Int)) :=
  [⟨[[(1, 1), (12, 2)], [(13, 4), (25, 8), (26, 16)]], false, false, true⟩, ⟨[[(38, 32), (39, 64)]], false, false, true⟩]
def exRowsRead1 : List (List (Row (List (List Int)))) := [[(1, some [[7, 4]]), (25, some [[24, 16]])]]
def exRowsRead2 : List (List (Row (List (List Int)))) := [[(1, some [[7, 4]]), (25, some [[56, 32]])], [(39, some [[64, 64]])]]

/-- Two rounds. -/
theorem exNextChain : ∃ s1' w1' s2' w2', Chain (exConf [(0, exKey 0 1)]) (exNextConf 1) 0 (exState 1 (Buf.init {})) exWorld
    (exState 1 (Buf.init {})) exWorld exTwoCalls [⟨exNextRead1, true, true, true⟩, ⟨exNextRead2, true, true, true⟩] s1' w1' s2' w2' ∧
    (w2' 0).rgs.map RG.rows = [[(0, some [[7, 6]]), (20, some [[120, 96]])]] ∧ s2'.restart = some 40 := by
  refine ⟨_, _, _, _, .round (as := [⟨exSeed1, false, false, true⟩]) (bs := [⟨exNextRead1, true, true, true⟩]) (as' := [])
    (a := ⟨exSeed2, false, false, true⟩) (seed := exNextRead2) (d := 2)
    (.round (as := []) (bs := []) (as' := []) (a := ⟨exSeed1, false, false, true⟩) (seed := exNextRead1) (d := 0)
      .nil rfl rfl ?_ ?_ rfl) rfl rfl ?_ ?_ rfl, ?_, ?_⟩
  · rfl
  · simp
  · rfl
  · show ∀ x ∈ [((0 : Int), some [[(1 : Int), 1]]), (10, some [[6, 4]])], ∃ t, some (20 : Int) = some t ∧ x.1 < t
    simp
  · rfl
  · rfl

-- `C89_received` for the seeds of the second stream
example : Revised (exNextConf 1) () [⟨exNextRead1, true, true, true⟩, ⟨exNextRead2, true, true, true⟩]
      [(0, some [[1, 1]]), (10, some [[6, 4]]), (20, some [[24, 16]]), (30, some [[96, 64]]), (40, some [[128, 128]])] ∧
    received (exNextConf 1) 0 [⟨exNextRead1, true, true, true⟩, ⟨exNextRead2, true, true, true⟩] none () =
      [(0, some [[1, 1]]), (10, some [[6, 4]]), (20, some [[24, 16]]), (30, some [[96, 64]])] := by
  have h : Revised (exNextConf 1) () [⟨exNextRead1, true, true, true⟩, ⟨exNextRead2, true, true, true⟩]
      [(0, some [[1, 1]]), (10, some [[6, 4]]), (20, some [[24, 16]]), (30, some [[96, 64]]), (40, some [[128, 128]])] := by
    refine .call (as := [⟨exNextRead1, true, true, true⟩]) (d := 2) (T := exNextRead1.flatten) (.call (as := []) (d := 0) .nil rfl rfl
      (by simp [Ascending, exNextConf, exT, exNextRead1]) (by simp [GoesOn]) rfl (by simp) rfl) rfl rfl
      (by simp [Ascending, exNextConf, exT]) ?_ rfl ?_ rfl
    · intro x hx
      obtain rfl : (20, some [[8, 8]]) = x := by simpa [exNextRead1] using hx
      exact ⟨rfl, (20, some [[24, 16]]), by simp, by decide⟩
    · show ∀ x ∈ [((0 : Int), some [[(1 : Int), 1]]), (10, some [[6, 4]])], ∃ t, some (20 : Int) = some t ∧ x.1 < t
      simp
  refine ⟨h, ?_⟩
  rw [C89_received (f := (0, none)) (by simp [exNextConf]) (fun _ _ => true) (by simp [exNextConf, RowFilter]) h (by simp [exNextConf])]
  rfl

-- `C89_time_stored` for these rounds
example : ∃ (w2' : ExWorld ExBuf) (one two : Res (List (List Int))),
    frameCall (fun _ => intOps) ex_get ex_cfg exZ (grouperFn { freq := 10 } Prod.fst) none none false
      (exSeed1 ++ exSeed2).flatten none = .ok (some one, none) ∧
    frameCall (fun _ => intOps) exNextGet ex_cfg exZ (grouperFn { freq := 20 } (exT.get 0)) none none false one.bins.dropLast none =
      .ok (some two, none) ∧
    readRows (w2' 0).rgs = two.bins ∧ (w2' 0).rgs.map RG.rows = [[(0, some [[7, 6]]), (20, some [[120, 96]])]] := by
  obtain ⟨s1', w1', s2', w2', h, h1, _⟩ := exNextChain
  obtain ⟨one, two, e1, e2, e3⟩ := C89_time_stored (emb := id) (e0 := true) (gB := id) (gS := id) (on := 0) (d := .one 0)
    (q0 := ()) (i := 0) (f := 0) (c1 := exConf [(0, exKey 0 1)]) (cfg := exKey 0 1) (fun _ : Unit => intOps) ex_get
    (dtype := fun _ => some ()) (agg := [(0, 0, some .sum), (1, 0, some .last)]) (gc := ex_cfg) exZ (c2 := exNextConf 1)
    (O2 := fun _ : Unit => intOps) (get2 := exNextGet) (z2 := exZ) (bs := [⟨exNextRead1, true, true, true⟩])
    (b := ⟨exNextRead2, true, true, true⟩) (by simp [Apart, exConf]) rfl rfl
    { freq := 10 } ⟨by decide, .inr (.inr ⟨rfl, by decide⟩)⟩ Prod.fst none (exEmbeds _) rfl ⟨rfl, rfl⟩
    ⟨rfl, rfl, by decide, by decide⟩ exKey_byLabel rfl rfl rfl
    (by
      show [((1 : Int), (1 : Int)), (12, 2), (13, 4), (25, 8), (26, 16), (38, 32), (39, 64), (41, 128)] ≠ []
      simp)
    (by
      show AscOn _ [((1 : Int), (1 : Int)), (12, 2), (13, 4), (25, 8), (26, 16), (38, 32), (39, 64), (41, 128)]
      simp [AscOn])
    (by simp) rfl rfl (by simp [exNextConf]) (fun _ _ => true) (by simp [exNextConf, RowFilter]) (g := (0, none)) (by simp [exNextConf])
    rfl rfl (j := 0) (cfg2 := exNextKey 1) (q2 := ()) (gB2 := id) (gS2 := id) (on2 := 0) (d2 := .one 0) (emb2 := id) (e2 := true)
    (dtype2 := fun _ => some ()) (agg2 := [(0, 0, some .sum), (1, 0, some .last)]) (gc2 := ex_cfg)
    (by simp [Apart, exNextConf]) rfl rfl { freq := 20 } ⟨by decide, .inr (.inr ⟨rfl, by decide⟩)⟩ (exEmbeds _) rfl ⟨rfl, rfl⟩
    ⟨rfl, rfl, by decide, by decide⟩ exKey_byLabel rfl rfl rfl
    (by
      show [((0 : Int), some [[(1 : Int), 1]]), (10, some [[6, 4]]), (20, some [[24, 16]]), (30, some [[96, 64]])] ≠ []
      simp) h
  refine ⟨w2', one, two, e1, ?_, by simpa [exNextKey] using e3, h1⟩
  simpa [exNextConf] using e2

-- `C89_sessions` for the same rounds, in new processes
example : ∃ w1' w2', ChainSessions (Buf.init {}) () () (Buf.init {}) () () (exConf [(0, exKey 0 1)]) (exNextConf 1) 0 exWorld exWorld
      exTwoCalls [⟨exNextRead1, true, true, true⟩, ⟨exNextRead2, true, true, true⟩] w1' w2' ∧
    ∃ s1' s2', Chain (exConf [(0, exKey 0 1)]) (exNextConf 1) 0 (exState 1 (Buf.init {})) exWorld
      (exState 1 (Buf.init {})) exWorld exTwoCalls [⟨exNextRead1, true, true, true⟩, ⟨exNextRead2, true, true, true⟩] s1' w1' s2' w2' := by
  have h : ∃ w1' w2', ChainSessions (Buf.init {}) () () (Buf.init {}) () () (exConf [(0, exKey 0 1)]) (exNextConf 1) 0 exWorld exWorld
      exTwoCalls [⟨exNextRead1, true, true, true⟩, ⟨exNextRead2, true, true, true⟩] w1' w2' := by
    refine ⟨_, _, .round (as := [⟨exSeed1, false, false, true⟩]) (bs := [⟨exNextRead1, true, true, true⟩]) (as' := [])
      (a := ⟨exSeed2, false, false, true⟩) (seed := exNextRead2) (d := 2) (i := 41) (j := 40)
      (.round (as := []) (bs := []) (as' := []) (a := ⟨exSeed1, false, false, true⟩) (seed := exNextRead1) (d := 0) (i := 25) (j := 20)
        .nil rfl rfl rfl rfl ?_ ?_ rfl rfl rfl rfl rfl) rfl rfl rfl rfl ?_ ?_ rfl rfl rfl rfl rfl⟩
    · rfl
    · simp
    · rfl
    · show ∀ x ∈ [((0 : Int), some [[(1 : Int), 1]]), (10, some [[6, 4]])], ∃ t, some (20 : Int) = some t ∧ x.1 < t
      simp
  obtain ⟨w1', w2', h⟩ := h
  refine ⟨w1', w2', h, ?_⟩
  obtain ⟨s1', s2', e, _⟩ := C89_sessions (by simp [Apart, exConf]) (by simp [exConf]) (by simp [exConf, exKey])
    (by simp only [exConf, List.mem_singleton, forall_eq, exKey]; exact answers_frame _ _ _ _ _ _ _ _)
    (by simp [Apart, exNextConf]) (by simp [exNextConf]) (by simp [exNextConf, exNextKey])
    (by simp only [exNextConf, List.mem_singleton, forall_eq, exNextKey]; exact answers_frame _ _ _ _ _ _ _ _)
    (s1 := exState 1 (Buf.init {})) (s2 := exState 1 (Buf.init {})) rfl rfl rfl rfl
    (by simp [exState, KeyBuf.Rest]) (by simp [exState, KeyBuf.Rest]) h
  exact ⟨s1', s2', e⟩

-- `C89_rows_received`: the first stream is in bins of three rows, the last one with two rows, then complete
example : ∃ s1' w1' s2' w2', Chain (exConf [(0, exRows 3 1)]) (exNextConf 1) 0 (exState 1 (Buf.init none)) exWorld
    (exState 1 (Buf.init {})) exWorld exRowsCalls [⟨exRowsRead1, true, true, true⟩, ⟨exRowsRead2, true, true, true⟩]
    s1' w1' s2' w2' ∧
    ∃ one, frameCall (fun _ => intOps) ex_get ex_cfg exZ (rowsFn 3 .left Prod.fst) none none false
        [(1, 1), (12, 2), (13, 4), (25, 8), (26, 16), (38, 32), (39, 64)] none = .ok (some one, none) ∧
      ((one.bins.map Prod.fst).Pairwise (· < ·) →
        received (exNextConf 1) 0 [⟨exRowsRead1, true, true, true⟩, ⟨exRowsRead2, true, true, true⟩] none () = one.bins.dropLast) := by
  have h : ∃ s1' w1' s2' w2', Chain (exConf [(0, exRows 3 1)]) (exNextConf 1) 0 (exState 1 (Buf.init none)) exWorld
      (exState 1 (Buf.init {})) exWorld exRowsCalls [⟨exRowsRead1, true, true, true⟩, ⟨exRowsRead2, true, true, true⟩]
      s1' w1' s2' w2' := by
    refine ⟨_, _, _, _, .round (as := [⟨[[(1, 1), (12, 2)], [(13, 4), (25, 8), (26, 16)]], false, false, true⟩])
      (bs := [⟨exRowsRead1, true, true, true⟩]) (as' := [])
      (a := ⟨[[(38, 32), (39, 64)]], false, false, true⟩) (seed := exRowsRead2) (d := 0)
      (.round (as := []) (bs := []) (as' := []) (a := ⟨[[(1, 1), (12, 2)], [(13, 4), (25, 8), (26, 16)]], false, false, true⟩)
        (seed := exRowsRead1) (d := 0) .nil rfl rfl ?_ ?_ rfl) rfl rfl ?_ ?_ rfl⟩
    · rfl
    · simp
    · rfl
    · simp
  obtain ⟨s1', w1', s2', w2', h⟩ := h
  refine ⟨s1', w1', s2', w2', h, ?_⟩
  obtain ⟨one, e1, e2⟩ := C89_rows_received (emb := id) (e0 := true) (gB := id) (gS := id) (on := 0) (d := .one 0)
    (q0 := ()) (i := 0) (f := 0) (c1 := exConf [(0, exRows 3 1)]) (cfg := exRows 3 1) (fun _ : Unit => intOps) ex_get
    (dtype := fun _ => some ()) (agg := [(0, 0, some .sum), (1, 0, some .last)]) (gc := ex_cfg) exZ (c2 := exNextConf 1)
    (by simp [Apart, exConf]) rfl rfl 3 (by decide) .left Prod.fst none (exEmbeds _) rfl ⟨rfl, rfl⟩
    ⟨rfl, rfl, by decide, by decide⟩ exKey_byLabel rfl rfl rfl
    (by
      show [((1 : Int), (1 : Int)), (12, 2), (13, 4), (25, 8), (26, 16), (38, 32), (39, 64)] ≠ []
      simp)
    (by simp) rfl rfl (by simp [exNextConf]) (fun _ _ => true) (by simp [exNextConf, RowFilter]) (g := (0, none)) (by simp [exNextConf])
    rfl rfl h
  exact ⟨one, e1, fun hs => by simpa using e2 hs⟩

def exSnapCalls : List (Call (Int × Int)) :=
  [⟨[[(1, 1), (2, 2)], [(7, 4)]], false, false, true⟩, ⟨[[(8, 8)], [(12, 16), (16, 32)]], false, false, true⟩]
def exSnapRead1 : List (List (Row (List (List Int)))) := [[(5, some [[3, 2]]), (10, some [[7, 4]])]]
def exSnapRead2 : List (List (Row (List (List Int)))) :=
  [[(5, some [[3, 2]]), (10, some [[15, 8]])], [(15, some [[16, 16]]), (20, some [[48, 32]])]]

-- `C89_snaps_received`: the second stream reads the snapshots of a pair of keys; the last snapshot is of value 7, then 15
example : ∃ s1' w1' s2' w2', Chain (exConf [(0, exBoth 3 none)]) (exNextConf 1) 1 (exState 1 (Buf.init {})) exWorld
    (exState 1 (Buf.init {})) exWorld exSnapCalls [⟨exSnapRead1, true, true, true⟩, ⟨exSnapRead2, true, true, true⟩]
    s1' w1' s2' w2' ∧
    ∃ one sns, frameCall (fun _ => intOps) ex_get ex_cfg exZ (grouperFn { freq := 10 } Prod.fst) (some Prod.fst)
        (some (.grouper { freq := 5, labelRight := true })) false
        [(1, 1), (2, 2), (7, 4), (8, 8), (12, 16), (16, 32)] none = .ok (some one, none) ∧ one.snaps = some sns ∧
      received (exNextConf 1) 0 [⟨exSnapRead1, true, true, true⟩, ⟨exSnapRead2, true, true, true⟩] none () = sns.dropLast := by
  have h : ∃ s1' w1' s2' w2', Chain (exConf [(0, exBoth 3 none)]) (exNextConf 1) 1 (exState 1 (Buf.init {})) exWorld
      (exState 1 (Buf.init {})) exWorld exSnapCalls [⟨exSnapRead1, true, true, true⟩, ⟨exSnapRead2, true, true, true⟩]
      s1' w1' s2' w2' := by
    refine ⟨_, _, _, _, .round (as := [⟨[[(1, 1), (2, 2)], [(7, 4)]], false, false, true⟩])
      (bs := [⟨exSnapRead1, true, true, true⟩]) (as' := [])
      (a := ⟨[[(8, 8)], [(12, 16), (16, 32)]], false, false, true⟩) (seed := exSnapRead2) (d := 0)
      (.round (as := []) (bs := []) (as' := []) (a := ⟨[[(1, 1), (2, 2)], [(7, 4)]], false, false, true⟩)
        (seed := exSnapRead1) (d := 0) .nil rfl rfl ?_ ?_ rfl) rfl rfl ?_ ?_ rfl⟩
    · rfl
    · simp
    · rfl
    · simp
  obtain ⟨s1', w1', s2', w2', h⟩ := h
  refine ⟨s1', w1', s2', w2', h, ?_⟩
  obtain ⟨one, sns, e1, e2, e3⟩ := C89_snaps_received (emb := id) (e0 := true) (gB := id) (gS := id) (on := 0) (d := .one 0)
    (q0 := ()) (i := 0) (f := 0) (c1 := exConf [(0, exBoth 3 none)]) (cfg := exBoth 3 none) (fun _ : Unit => intOps) ex_get
    (dtype := fun _ => some ()) (agg := [(0, 0, some .sum), (1, 0, some .last)]) (gc := ex_cfg) exZ (c2 := exNextConf 1)
    (by simp [Apart, exConf]) rfl rfl { freq := 10 } ⟨by decide, .inr (.inr ⟨rfl, by decide⟩)⟩
    { freq := 5, labelRight := true } ⟨by decide, .inr (.inr ⟨rfl, by decide⟩)⟩ Prod.fst (exEmbeds _) (by simp [exBoth])
    (by simp [exBoth]) ⟨rfl, rfl⟩ ⟨rfl, rfl, by decide, by decide⟩ (fun _ => ⟨rfl, rfl, by decide, by decide⟩)
    (fun _ => exKey_byLabel) exKey_byLabel rfl rfl rfl (fun _ => rfl)
    (by
      show [((1 : Int), (1 : Int)), (2, 2), (7, 4), (8, 8), (12, 16), (16, 32)] ≠ []
      simp)
    (by
      show AscOn _ [((1 : Int), (1 : Int)), (2, 2), (7, 4), (8, 8), (12, 16), (16, 32)]
      simp [AscOn])
    rfl rfl (by simp [exNextConf]) (fun _ _ => true) (by simp [exNextConf, RowFilter]) (g := (0, none)) (by simp [exNextConf])
    rfl rfl h
  exact ⟨one, sns, e1, e2, by simpa using e3⟩

/-- Without `discard_last`, the temporary row of value 8 is received, then the definitive one of value 24 also, as the restart
index is its label: the sum of the second bin is 8 + 24 + 96 + ..., not 24 + 96. -/
theorem C89_discard_fails :
    exStored 0 (aggs (exNextConf 100) [⟨exNextRead1, true, false, true⟩, ⟨exNextRead2, true, false, true⟩] (exState 1 (Buf.init {})) exWorld) =
      some [[(0, some [[7, 6]]), (20, some [[128, 96]]), (40, some [[128, 128]])]] ∧
    exStored 0 (aggs (exNextConf 100) [⟨exNextRead1, true, true, true⟩, ⟨exNextRead2, true, true, true⟩] (exState 1 (Buf.init {})) exWorld) =
      some [[(0, some [[7, 6]]), (20, some [[120, 96]])]] := by
  constructor <;> decide +kernel

end Oups.AggStream
