import Verif.Props.AggStream
/-! Property C51: a failing check of the seed. -/
set_option linter.unusedSimpArgs false
namespace Oups.AggStream
open Oups.Writer (Table Params RG)
variable {K R A S P Q F : Type} [DecidableEq K] [DecidableEq F]

/-- Datasets that differ by the buffer of `pre` recorded, at most. -/
def SameButPre (d1 d2 : Dataset (Row A) (Md S P Q)) : Prop :=
  d1.rgs = d2.rgs ∧ d1.inStore = d2.inStore ∧
    d1.md.map (fun m => (m.restart, m.seg, m.post)) = d2.md.map fun m => (m.restart, m.seg, m.post)

/-- Outcomes that differ by the buffer of `pre` recorded, at most. -/
def OutButPre {B : Type} (o1 o2 : Except Err (B × World K A (Md S P Q))) : Prop :=
  match o1, o2 with
  | .error e1, .error e2 => e1 = e2
  | .ok (b1, w1), .ok (b2, w2) => b1 = b2 ∧ ∀ k, SameButPre (w1 k) (w2 k)
  | _, _ => False

theorem SameButPre.refl (d : Dataset (Row A) (Md S P Q)) : SameButPre d d := ⟨rfl, rfl, rfl⟩

theorem OutButPre.refl {B : Type} (o : Except Err (B × World K A (Md S P Q))) : OutButPre o o := by
  cases o with
  | error e => exact rfl
  | ok x => exact ⟨rfl, fun _ => SameButPre.refl _⟩

theorem storeSet_pre {T : Table (Row A)} {p : Params} {d1 d2 : Dataset (Row A) (Md S P Q)} (hd : SameButPre d1 d2)
    (rows : List (Row A)) {m1 m2 : Option (Md S P Q)}
    (hm : m1.map (fun m => (m.restart, m.seg, m.post)) = m2.map fun m => (m.restart, m.seg, m.post)) :
    match storeSet T p d1 rows m1, storeSet T p d2 rows m2 with
    | .error e1, .error e2 => e1 = e2
    | .ok a, .ok b => SameButPre a b
    | _, _ => False := by
  obtain ⟨h1, h2, h3⟩ := hd
  simp only [storeSet, h1]
  cases Oups.Writer.write T p d2.rgs rows with
  | error e => rfl
  | ok rgs =>
    refine ⟨rfl, rfl, ?_⟩
    cases m1 with
    | none =>
      cases m2 with
      | some m => simp at hm
      | none =>
        simp only
        split
        · rfl
        · exact h3
    | some m =>
      cases m2 with
      | none => simp at hm
      | some m => exact hm

theorem set_pre {w1 w2 : World K A (Md S P Q)} (hw : ∀ k, SameButPre (w1 k) (w2 k)) {d1 d2 : Dataset (Row A) (Md S P Q)}
    (hd : SameButPre d1 d2) (k0 : K) : ∀ k, SameButPre (w1.set k0 d1 k) (w2.set k0 d2 k) := by
  intro k
  simp only [World.set]
  split
  · exact hd
  · exact hw k

theorem writeResults_pre (cfg : KeyCfg K R A S Q) {m1 m2 : Option (Md S P Q)}
    (hm : m1.map (fun m => (m.restart, m.seg, m.post)) = m2.map fun m => (m.restart, m.seg, m.post))
    (main snap : Option (List (Row A))) {w1 w2 : World K A (Md S P Q)} (hw : ∀ k, SameButPre (w1 k) (w2 k)) :
    match writeResults cfg m1 main snap w1, writeResults cfg m2 main snap w2 with
    | .error e1, .error e2 => e1 = e2
    | .ok a, .ok b => ∀ k, SameButPre (a k) (b k)
    | _, _ => False := by
  simp only [writeResults]
  cases main with
  | none =>
    cases m1 with
    | none =>
      cases m2 with
      | some m => simp at hm
      | none => exact hw
    | some m =>
      cases m2 with
      | none => simp at hm
      | some m' =>
        simp only
        apply set_pre hw
        rw [(hw cfg.main).2.1]
        split
        · exact ⟨(hw _).1, rfl, hm⟩
        · exact ⟨rfl, rfl, hm⟩
  | some rows =>
    simp only
    have h1 := storeSet_pre (T := cfg.table) (p := cfg.params) (hw cfg.main) rows hm
    cases e1 : storeSet cfg.table cfg.params (w1 cfg.main) rows m1 with
    | error e =>
      cases e2 : storeSet cfg.table cfg.params (w2 cfg.main) rows m2 with
      | error e => rw [e1, e2] at h1; exact h1
      | ok d => rw [e1, e2] at h1; exact h1.elim
    | ok d1 =>
      cases e2 : storeSet cfg.table cfg.params (w2 cfg.main) rows m2 with
      | error e => rw [e1, e2] at h1; exact h1.elim
      | ok d2 =>
        rw [e1, e2] at h1
        simp only
        by_cases hb : cfg.resType = .both
        · simp only [hb, if_true]
          cases snap with
          | none => rfl
          | some srows =>
            simp only
            have h2 := storeSet_pre (T := cfg.table) (p := cfg.snapParams) (set_pre hw h1 cfg.main cfg.snap) srows
              (m1 := none) (m2 := none) rfl
            cases e3 : storeSet cfg.table cfg.snapParams ((w1.set cfg.main d1) cfg.snap) srows none with
            | error e =>
              cases e4 : storeSet cfg.table cfg.snapParams ((w2.set cfg.main d2) cfg.snap) srows none with
              | error e => rw [e3, e4] at h2; exact h2
              | ok d => rw [e3, e4] at h2; exact h2.elim
            | ok d3 =>
              cases e4 : storeSet cfg.table cfg.snapParams ((w2.set cfg.main d2) cfg.snap) srows none with
              | error e => rw [e3, e4] at h2; exact h2.elim
              | ok d4 =>
                rw [e3, e4] at h2
                exact set_pre (set_pre hw h1 _) h2 _
        · simp only [hb, if_false]
          exact set_pre hw h1 _

theorem postNWrite_pre (cfg : KeyCfg K R A S Q) (truthy : Int → Bool) (i : Option Int) (p1 p2 : P) (st : KeyBuf A S Q)
    {w1 w2 : World K A (Md S P Q)} (hw : ∀ k, SameButPre (w1 k) (w2 k)) :
    OutButPre (postNWrite cfg truthy true (i.map fun i => (i, p1)) st w1)
      (postNWrite cfg truthy true (i.map fun i => (i, p2)) st w2) := by
  simp only [postNWrite]
  cases results cfg true st with
  | error e => rfl
  | ok x =>
    obtain ⟨q, main, snap⟩ := x
    simp only
    have h := writeResults_pre cfg (m1 := pendingMd truthy (i.map fun i => (i, p1)) st.seg q)
      (m2 := pendingMd truthy (i.map fun i => (i, p2)) st.seg q) (by
        cases i with
        | none => rfl
        | some i => simp only [pendingMd, Option.map_some]; split <;> rfl) main snap hw
    cases e1 : writeResults cfg (pendingMd truthy (i.map fun i => (i, p1)) st.seg q) main snap w1 with
    | error e =>
      cases e2 : writeResults cfg (pendingMd truthy (i.map fun i => (i, p2)) st.seg q) main snap w2 with
      | error e => rw [e1, e2] at h; exact h
      | ok d => rw [e1, e2] at h; exact h.elim
    | ok a =>
      cases e2 : writeResults cfg (pendingMd truthy (i.map fun i => (i, p2)) st.seg q) main snap w2 with
      | error e => rw [e1, e2] at h; exact h.elim
      | ok b => rw [e1, e2] at h; exact ⟨rfl, h⟩

theorem forKeys_pre (truthy : Int → Bool) (i : Option Int) (p1 p2 : P) (ks : List (F × KeyCfg K R A S Q))
    (bs : List (KeyBuf A S Q)) {w1 w2 : World K A (Md S P Q)} (hw : ∀ k, SameButPre (w1 k) (w2 k)) :
    OutButPre (forKeys (fun _ => true) (fun cfg => postNWrite cfg truthy true (i.map fun i => (i, p1))) ks bs w1)
      (forKeys (fun _ => true) (fun cfg => postNWrite cfg truthy true (i.map fun i => (i, p2))) ks bs w2) := by
  induction ks generalizing bs w1 w2 with
  | nil => exact ⟨rfl, hw⟩
  | cons k ks ih =>
    cases bs with
    | nil => exact ⟨rfl, hw⟩
    | cons b bs =>
      simp only [forKeys, if_true]
      have h := postNWrite_pre k.2 truthy i p1 p2 b hw
      cases e1 : postNWrite k.2 truthy true (i.map fun i => (i, p1)) b w1 with
      | error e =>
        cases e2 : postNWrite k.2 truthy true (i.map fun i => (i, p2)) b w2 with
        | error e => rw [e1, e2] at h; exact h
        | ok d => rw [e1, e2] at h; exact h.elim
      | ok x =>
        cases e2 : postNWrite k.2 truthy true (i.map fun i => (i, p2)) b w2 with
        | error e => rw [e1, e2] at h; exact h.elim
        | ok y =>
          rw [e1, e2] at h
          obtain ⟨h1, h2⟩ := h
          simp only
          have h3 := ih bs h2
          cases e3 : forKeys (fun _ => true) (fun cfg => postNWrite cfg truthy true (i.map fun i => (i, p1))) ks bs x.2 with
          | error e =>
            cases e4 : forKeys (fun _ => true) (fun cfg => postNWrite cfg truthy true (i.map fun i => (i, p2))) ks bs y.2 with
            | error e => rw [e3, e4] at h3; exact h3
            | ok d => rw [e3, e4] at h3; exact h3.elim
          | ok u =>
            cases e4 : forKeys (fun _ => true) (fun cfg => postNWrite cfg truthy true (i.map fun i => (i, p2))) ks bs y.2 with
            | error e => rw [e3, e4] at h3; exact h3.elim
            | ok v =>
              rw [e3, e4] at h3
              exact ⟨by rw [h1, h3.1], h3.2⟩

/-- The chunk is refused: not in order, or `pre` raises. -/
def Refused (c : Config K R A S P Q F) (pb : P) (chunk : List R) : Prop :=
  ¬ Ascending c.ord chunk ∨ (runPre c.pre chunk pb).2.2 = true

theorem fails_of_refused {c : Config K R A S P Q F} {pb : P} {chunk : List R} :
    fails c.ord c.pre pb chunk = true ↔ Refused c pb chunk := by
  simp only [fails, Refused, Bool.or_eq_true, Bool.not_eq_true', ← isAscending_map, Bool.not_eq_true]

/-- **C51** A chunk that is refused, `good` being the chunks before: the exception is raised (`true`) in the end, and
the outcome is the one of the call with `good` only, with `final_write` or not. What may differ is the buffer of `pre`, if
`pre` changed it before raising. -/
theorem C51_prefix {c : Config K R A S P Q F} {good rest : List (List R)} {bad : List R} {trim discard fin : Bool}
    {s : State A S P Q} {w : World K A (Md S P Q)} {ys : List (Yield F R)} {pb : P}
    (h : iterData c.ord s.restart c.pre s.pre c.filters trim discard good = (ys, pb, none)) (hbad : Refused c pb bad) :
    match agg c ⟨good, trim, discard, fin⟩ s w, agg c ⟨good ++ bad :: rest, trim, discard, fin⟩ s w with
    | .error e1, .error e2 => e1 = e2
    | .ok (s1, w1, e1), .ok (s2, w2, e2) =>
      e1 = false ∧ e2 = true ∧ s1.restart = s2.restart ∧ s1.bufs = s2.bufs ∧ ∀ k, SameButPre (w1 k) (w2 k)
    | _, _ => False := by
  have h2 : iterData c.ord s.restart c.pre s.pre c.filters trim discard (good ++ bad :: rest) = _ :=
    iterLoop_fail h (fails_of_refused.2 hbad)
  simp only [agg, h, h2]
  cases aggLoop c ys s.restart s.bufs w with
  | error e => rfl
  | ok x =>
    obtain ⟨r, bs, w'⟩ := x
    simp only [true_or, or_true, if_true]
    cases fin with
    | false => exact ⟨rfl, rfl, rfl, rfl, fun _ => SameButPre.refl _⟩
    | true =>
      simp only [if_true, finalWrite]
      have h3 := forKeys_pre c.truthy r pb (failBuffer c.ord c.pre pb bad) c.keys bs (fun k => SameButPre.refl (w' k))
      cases e1 : forKeys (fun _ => true) (fun cfg => postNWrite cfg c.truthy true (r.map fun i => (i, pb))) c.keys bs w' with
      | error e =>
        cases e2 : forKeys (fun _ => true) (fun cfg => postNWrite cfg c.truthy true
            (r.map fun i => (i, failBuffer c.ord c.pre pb bad))) c.keys bs w' with
        | error e => rw [e1, e2] at h3; exact h3
        | ok d => rw [e1, e2] at h3; exact h3.elim
      | ok u =>
        cases e2 : forKeys (fun _ => true) (fun cfg => postNWrite cfg c.truthy true
            (r.map fun i => (i, failBuffer c.ord c.pre pb bad))) c.keys bs w' with
        | error e => rw [e1, e2] at h3; exact h3.elim
        | ok v =>
          rw [e1, e2] at h3
          exact ⟨rfl, rfl, rfl, h3.1, h3.2⟩

/-- **C51** Same, state and store being equal, if `pre` does not change its buffer when it raises. In particular for chunks
that are not in order, for which `pre` is not run. -/
theorem C51_same {c : Config K R A S P Q F} {good rest : List (List R)} {bad : List R} {trim discard fin : Bool}
    {s : State A S P Q} {w : World K A (Md S P Q)} {ys : List (Yield F R)} {pb : P}
    (h : iterData c.ord s.restart c.pre s.pre c.filters trim discard good = (ys, pb, none)) (hbad : Refused c pb bad)
    (hpb : Ascending c.ord bad → (runPre c.pre bad pb).2.1 = pb) :
    agg c ⟨good ++ bad :: rest, trim, discard, fin⟩ s w =
      (agg c ⟨good, trim, discard, fin⟩ s w).map fun x => (x.1, x.2.1, true) := by
  have h2 : iterData c.ord s.restart c.pre s.pre c.filters trim discard (good ++ bad :: rest) = _ :=
    iterLoop_fail h (fails_of_refused.2 hbad)
  have h3 : failBuffer c.ord c.pre pb bad = pb := by
    simp only [failBuffer]
    split
    · rename_i ha; exact hpb ((isAscending_map ..).1 ha)
    · rfl
  simp only [agg, h, h2, h3]
  cases aggLoop c ys s.restart s.bufs w with
  | error e => rfl
  | ok x =>
    obtain ⟨r, bs, w'⟩ := x
    simp only [true_or, or_true, if_true]
    cases fin with
    | false => rfl
    | true =>
      simp only [if_true]
      cases finalWrite c ⟨r, pb, bs⟩ w' <;> rfl

/-- **C51** The exception is raised only then: some chunk is refused, after chunks that are not. -/
theorem C51_only {c : Config K R A S P Q F} {a : Call R} {s s' : State A S P Q} {w w' : World K A (Md S P Q)}
    (h : agg c a s w = .ok (s', w', true)) :
    ∃ good bad rest ys pb, a.seed = good ++ bad :: rest ∧
      iterData c.ord s.restart c.pre s.pre c.filters a.trimStart a.discardLast good = (ys, pb, none) ∧ Refused c pb bad := by
  simp only [agg] at h
  generalize hit : iterData c.ord s.restart c.pre s.pre c.filters a.trimStart a.discardLast a.seed = it at h
  obtain ⟨ys, pb, exc⟩ := it
  simp only at h
  cases hx : aggLoop c ys s.restart s.bufs w with
  | error e => simp [hx] at h
  | ok x =>
    obtain ⟨r, bs, w1⟩ := x
    simp only [hx] at h
    split at h
    · rename_i he
      have : exc = some .seedPre := by
        rcases he with rfl | rfl
        · exfalso
          split at h
          · cases hf : finalWrite c ⟨r, pb, bs⟩ w1 with
            | error e => simp [hf] at h
            | ok y => simp [hf] at h
          · simp at h
        · rfl
      subst this
      obtain ⟨good, bad, rest, pb1, h1, h2, h3, -⟩ := iterLoop_seedPre hit
      exact ⟨good, bad, rest, ys, pb1, h1, h2, fails_of_refused.1 h3⟩
    · simp at h

/-- Without `final_write`, a call that raises stores what the loop stored, that is the intermediate writes on `good`. -/
theorem C51_no_final_write {c : Config K R A S P Q F} {good rest : List (List R)} {bad : List R} {trim discard : Bool}
    {s s' : State A S P Q} {w w' : World K A (Md S P Q)} {ys : List (Yield F R)} {pb : P} {e : Bool}
    (h : iterData c.ord s.restart c.pre s.pre c.filters trim discard good = (ys, pb, none)) (hbad : Refused c pb bad)
    (ha : agg c ⟨good ++ bad :: rest, trim, discard, false⟩ s w = .ok (s', w', e)) :
    aggLoop c ys s.restart s.bufs w = .ok (s'.restart, s'.bufs, w') := by
  have h2 : iterData c.ord s.restart c.pre s.pre c.filters trim discard (good ++ bad :: rest) = _ :=
    iterLoop_fail h (fails_of_refused.2 hbad)
  simp only [agg, h2] at ha
  cases hx : aggLoop c ys s.restart s.bufs w with
  | error e => simp [hx] at ha
  | ok x =>
    obtain ⟨r, bs, w1⟩ := x
    simp only [hx, or_true, if_true, Bool.false_eq_true, if_false, Except.ok.injEq, Prod.mk.injEq] at ha
    obtain ⟨rfl, rfl, -⟩ := ha
    rfl

/-! ### Examples -/

/-- `pre` counts chunks, and raises if a value is negative. -/
def exConfPre : Config Nat (Int × Int) (List (List Int)) ExBuf Nat Unit Nat where
  ord := Prod.fst
  pre := some fun l n => (l, n + 1, l.any fun r => decide (r.2 < 0))
  filters := [(0, none)]
  keys := [(0, exKey 0 100)]
  truthy := fun i => decide (i ≠ 0)

def exOut (r : Except Err (State (List (List Int)) ExBuf Nat Unit × World Nat (List (List Int)) (Md ExBuf Nat Unit) × Bool)) :=
  r.toOption.map fun x => ((x.2.1 0).rgs.map RG.rows, (x.2.1 0).md.map fun m => (m.restart, m.pre), x.2.2)

def exStart : State (List (List Int)) ExBuf Nat Unit := ⟨none, 0, [{ seg := Oups.Agg.Buf.init {}, post := () }]⟩

-- a chunk not in order
example : exOut (agg exConfPre ⟨[[(1, 1), (12, 2)], [(14, 4), (13, 4)], [(25, 8)]], false, false, true⟩ exStart fun _ => {}) =
    some ([[(0, some [[1, 1]]), (10, some [[2, 2]])]], some (12, 1), true) ∧
  exOut (agg exConfPre ⟨[[(1, 1), (12, 2)]], false, false, true⟩ exStart fun _ => {}) =
    some ([[(0, some [[1, 1]]), (10, some [[2, 2]])]], some (12, 1), false) ∧
  exOut (agg exConfPre ⟨[[(1, 1), (12, 2)], [(14, 4), (13, 4)], [(25, 8)]], false, false, false⟩ exStart fun _ => {}) =
    some ([], none, true) := ⟨rfl, rfl, rfl⟩

/-- What `pre` did to its buffer before raising is recorded: the chunk, once corrected, is counted twice. -/
theorem C51_pre_buffer_fails :
    exOut (agg exConfPre ⟨[[(1, 1), (12, 2)], [(13, -4)], [(25, 8)]], false, false, true⟩ exStart fun _ => {}) =
      some ([[(0, some [[1, 1]]), (10, some [[2, 2]])]], some (12, 2), true) := rfl

end Oups.AggStream
