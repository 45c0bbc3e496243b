import Verif.Spec.AggMemory
import Verif.Props.AggRestart
/-! Property C61: results held in memory. -/
set_option linter.unusedSimpArgs false
namespace Oups.AggStream

section
variable {K R A S P Q F : Type} [DecidableEq K] [DecidableEq F]
variable {cfg : KeyCfg K R A S Q} {truthy : Int → Bool}

theorem framesMem_append (cfg : KeyCfg K R A S Q) (a b : List (Frame A)) :
    framesMem cfg (a ++ b) = framesMem cfg a + framesMem cfg b := by
  simp [framesMem]

theorem Held.push {st : KeyBuf A S Q} {fs : List (Frame A)} (h : Held cfg st fs) (b : List (Row A)) :
    Held cfg (pushPrev cfg st b) (fs ++ [(b, st.snap)]) := by
  refine ⟨by simp [pushPrev, h.bins], ?_, ?_⟩
  · simp only [pushPrev]
    cases hs : st.snap <;> simp [h.snaps]
  · rw [framesMem_append, pushPrev, h.size]
    simp only [framesMem, frameMem, List.map_cons, List.map_nil, List.sum_cons, List.sum_nil, Nat.add_zero, Nat.add_assoc]
    cases st.snap <;> rfl

theorem postNWrite_held {al : Bool} {fin : Option (Int × P)} {st st' : KeyBuf A S Q} {w w' : World K A (Md S P Q)}
    (h : postNWrite cfg truthy al fin st w = .ok (st', w')) (hb : st.bin.isSome = true) : Held cfg st' [] := by
  simp only [postNWrite] at h
  cases hr : results cfg al st with
  | error e => simp [hr] at h
  | ok x =>
    obtain ⟨q, main, snap⟩ := x
    simp only [hr] at h
    cases hw : writeResults cfg (pendingMd truthy fin st.seg q) main snap w with
    | error e => simp [hw] at h
    | ok w1 =>
      simp only [hw, hb, if_true, Except.ok.injEq, Prod.mk.injEq] at h
      rw [← h.1]
      exact ⟨rfl, rfl, rfl⟩

/-- **C61** An iteration on a key that holds results `fs` and has the results `b` of the previous one: if usage is within the limit,
these are held too and nothing is written; otherwise all are handed over for writing, and none is held any more. -/
theorem C61_step {chunk : List R} {st st' : KeyBuf A S Q} {w w' : World K A (Md S P Q)} {fs : List (Frame A)}
    {b : List (Row A)} (h : Held cfg st fs) (hb : st.bin = some b) (hne : b ≠ [])
    (hi : aggIter cfg truthy chunk st w = .ok (st', w')) :
    (Within cfg fs → w' = w ∧ Held cfg st' (fs ++ [(b, st.snap)])) ∧ (¬ Within cfg fs → Held cfg st' []) := by
  have hemp : b.isEmpty = false := by cases b <;> simp_all
  have hlen : st.binBuf.length = fs.length := by rw [h.bins, List.length_map]
  simp only [aggIter, flushPrev, hb, hemp, Bool.false_eq_true, if_false, h.size, hlen] at hi
  constructor
  · intro hw
    rw [if_neg (Nat.not_lt.2 hw)] at hi
    simp only at hi
    split at hi
    · cases hi
    · simp only [Except.ok.injEq, Prod.mk.injEq] at hi
      obtain ⟨rfl, rfl⟩ := hi
      have := h.push b
      exact ⟨rfl, this.bins, this.snaps, this.size⟩
  · intro hw
    rw [if_pos (Nat.lt_of_not_le hw)] at hi
    cases hp : postNWrite cfg truthy false (none : Option (Int × P)) (pushPrev cfg st b) w with
    | error e => simp [hp] at hi
    | ok x =>
      obtain ⟨st1, w1⟩ := x
      have := postNWrite_held hp (by simp [pushPrev, hb])
      simp only [hp] at hi
      split at hi
      · cases hi
      · simp only [Except.ok.injEq, Prod.mk.injEq] at hi
        obtain ⟨rfl, rfl⟩ := hi
        exact ⟨this.bins, this.snaps, this.size⟩

/-- What a key holds, all but the last results being within the limit. -/
def Bounded (cfg : KeyCfg K R A S Q) (st : KeyBuf A S Q) : Prop :=
  ∃ fs, Held cfg st fs ∧ (fs = [] ∨ ∃ init last, fs = init ++ [last] ∧ Within cfg init)

theorem keyStep_bounded {op : KOp R P} {st st' : KeyBuf A S Q} {w w' : World K A (Md S P Q)} (h : Bounded cfg st)
    (hs : keyStep cfg truthy op st w = .ok (st', w')) : Bounded cfg st' := by
  obtain ⟨fs, hh, hlim⟩ := h
  cases op with
  | final r pb =>
    simp only [keyStep] at hs
    cases hb : st.bin with
    | some b => exact ⟨[], postNWrite_held hs (by simp [hb]), Or.inl rfl⟩
    | none =>
      simp only [postNWrite, results, hb] at hs
      cases hw : writeResults cfg (pendingMd truthy (r.map fun i => (i, pb)) st.seg st.post) none none w with
      | error e => simp [hw] at hs
      | ok w1 =>
        simp only [hw, Option.isSome_none, Bool.false_eq_true, if_false, Except.ok.injEq, Prod.mk.injEq] at hs
        rw [← hs.1]
        exact ⟨fs, ⟨hh.bins, hh.snaps, hh.size⟩, hlim⟩
  | chunk c =>
    simp only [keyStep] at hs
    by_cases hb : ∃ b, st.bin = some b ∧ b ≠ []
    · obtain ⟨b, hb, hne⟩ := hb
      obtain ⟨h1, h2⟩ := C61_step hh hb hne hs
      by_cases hw : Within cfg fs
      · exact ⟨_, (h1 hw).2, Or.inr ⟨fs, _, rfl, hw⟩⟩
      · exact ⟨[], h2 hw, Or.inl rfl⟩
    · have hf : flushPrev cfg truthy st w = .ok (st, w) := by
        simp only [flushPrev]
        cases hx : st.bin with
        | none => rfl
        | some b =>
          have : b = [] := by
            by_contra hne
            exact hb ⟨b, hx, hne⟩
          subst this
          rfl
      simp only [aggIter, hf] at hs
      split at hs
      · cases hs
      · simp only [Except.ok.injEq, Prod.mk.injEq] at hs
        obtain ⟨rfl, -⟩ := hs
        exact ⟨fs, ⟨hh.bins, hh.snaps, hh.size⟩, hlim⟩

theorem keyRun_bounded {ops : List (KOp R P)} {st st' : KeyBuf A S Q} {w w' : World K A (Md S P Q)} (h : Bounded cfg st)
    (hs : keyRun cfg truthy ops st w = .ok (st', w')) : Bounded cfg st' := by
  induction ops generalizing st w with
  | nil =>
    simp only [keyRun, Except.ok.injEq, Prod.mk.injEq] at hs
    rw [← hs.1]; exact h
  | cons op ops ih =>
    simp only [keyRun] at hs
    cases hx : keyStep cfg truthy op st w with
    | error e => simp [hx] at hs
    | ok x =>
      obtain ⟨st1, w1⟩ := x
      simp only [hx] at hs
      exact ih (keyStep_bounded h hx) hs

/-- **C61** After any calls, from a new stream: the results that a key holds, last ones excepted, are within the limit, and
the recorded usage is theirs, hence at most the limit plus the usage of the last ones. -/
theorem C61_held {c : Config K R A S P Q F} (hk : Apart c.keys) {as : List (Call R)} {s s' : State A S P Q}
    {w w' : World K A (Md S P Q)} (hl : s.bufs.length = c.keys.length)
    (hnew : ∀ b ∈ s.bufs, b.size = 0 ∧ b.binBuf = [] ∧ b.snapBuf = []) (h : aggs c as s w = .ok (s', w'))
    {i : Nat} {k : F × KeyCfg K R A S Q} {b : KeyBuf A S Q} (hi : c.keys[i]? = some k) (hb : s'.bufs[i]? = some b) :
    ∃ fs, Held k.2 b fs ∧ (fs = [] ∨ ∃ init last, fs = init ++ [last] ∧ Within k.2 init ∧
      b.size ≤ k.2.maxSize + frameMem k.2 last) := by
  have hlt := (List.getElem?_eq_some_iff.1 hi).1
  obtain ⟨b0, hb0⟩ : ∃ b0, s.bufs[i]? = some b0 := ⟨_, List.getElem?_eq_getElem (hl ▸ hlt)⟩
  obtain ⟨b', w1, h1, h2, -⟩ := aggs_key hk h hl hi hb0
  rw [hb, Option.some.injEq] at h2
  subst h2
  obtain ⟨n1, n2, n3⟩ := hnew b0 (List.mem_of_getElem? hb0)
  obtain ⟨fs, hh, hlim⟩ := keyRun_bounded ⟨[], ⟨n2, n3, n1⟩, Or.inl rfl⟩ h1
  refine ⟨fs, hh, hlim.imp_right ?_⟩
  rintro ⟨init, last, rfl, hw⟩
  refine ⟨init, last, rfl, hw, ?_⟩
  rw [hh.size, framesMem_append]
  simp only [framesMem, List.map_cons, List.map_nil, List.sum_cons, List.sum_nil, Nat.add_zero]
  have := Nat.le_trans (Nat.le_add_right _ _) hw
  simp only [framesMem] at this
  omega

end

/-! ### Examples -/

-- limit of 2 rows: the results of two chunks are held, then all are written
example :
    let r (n : Nat) := (aggs (exConf [(0, exKey 0 2)]) [⟨(exSeed1 ++ exSeed2).take n, false, false, false⟩]
      (exState 1 ex0) exWorld)
    (List.range 5).map (fun n => ((r n).toOption.map fun x => x.1.bufs.map (fun b => (b.size, b.binBuf.length)))) =
        [some [(0, 0)], some [(0, 0)], some [(2, 1)], some [(0, 0)], some [(2, 1)]] ∧
    exStored 0 (r 2) = some [] ∧ exStored 0 (r 3) = some [[(0, some [[1, 1]]), (10, some [[6, 4]])]] := by
  exact ⟨rfl, rfl, rfl⟩

/-- The limit is not a maximum of the usage: it is compared with the usage before the last results are added. With limit 0,
results of usage 2 are held, in addition to those of the last iteration. -/
theorem C61_limit_fails :
    ((aggs (exConf [(0, exKey 0 0)]) [⟨exSeed1, false, false, false⟩] (exState 1 ex0) exWorld).toOption.map
      fun x => x.1.bufs.map fun b => (b.size, b.bin.map List.length)) = some [(2, some 2)] := rfl

end Oups.AggStream
