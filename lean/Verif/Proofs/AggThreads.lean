import Verif.Spec.AggThreads
import Verif.Proofs.AggRun
set_option linter.unusedSimpArgs false
namespace Oups.AggStream
open Oups.Writer (Table Params)

section
variable {K R A S P Q M F : Type} [DecidableEq K]

/-! ### Steps on one store key -/

def runCell : List (Act A M) → Cell A M → Except Err (Cell A M)
  | [], c => .ok c
  | a :: l, c =>
    match a.run c with
    | .error e => .error e
    | .ok c => runCell l c

def actsOn (k : K) (l : List (K × Act A M)) : List (Act A M) := l.filterMap fun x => if x.1 = k then some x.2 else none

theorem runActs_ok {l : List (K × Act A M)} {g g' : K → Cell A M} (h : runActs l g = .ok g') (k : K) :
    runCell (actsOn k l) (g k) = .ok (g' k) := by
  induction l generalizing g with
  | nil => simp only [runActs, Except.ok.injEq] at h; subst h; rfl
  | cons x l ih =>
    obtain ⟨j, a⟩ := x
    simp only [runActs] at h
    cases ha : a.run (g j) with
    | error e => simp [ha] at h
    | ok c =>
      simp only [ha] at h
      have := ih h
      by_cases hj : j = k
      · subst hj
        simp only [if_true] at this
        simpa [actsOn, runCell, ha] using this
      · rw [if_neg (Ne.symm hj)] at this
        simpa [actsOn, hj] using this

theorem runActs_of_cells {l : List (K × Act A M)} {g g' : K → Cell A M}
    (h : ∀ k, runCell (actsOn k l) (g k) = .ok (g' k)) : runActs l g = .ok g' := by
  induction l generalizing g with
  | nil =>
    simp only [actsOn, List.filterMap_nil, runCell, Except.ok.injEq] at h
    simp only [runActs, Except.ok.injEq]
    funext k; exact h k
  | cons x l ih =>
    obtain ⟨j, a⟩ := x
    simp only [runActs]
    have hj := h j
    simp only [actsOn, List.filterMap_cons, if_true, runCell] at hj
    cases ha : a.run (g j) with
    | error e => simp [ha] at hj
    | ok c =>
      simp only [ha] at hj ⊢
      apply ih
      intro k
      by_cases hk : k = j
      · subst hk; rw [if_pos rfl]; exact hj
      · rw [if_neg hk]
        have := h k
        simpa [actsOn, Ne.symm hk] using this

theorem runActs_append {l1 l2 : List (K × Act A M)} {g g1 : K → Cell A M} (h : runActs l1 g = .ok g1) :
    runActs (l1 ++ l2) g = runActs l2 g1 := by
  induction l1 generalizing g with
  | nil => simp only [runActs, Except.ok.injEq] at h; subst h; rfl
  | cons x l ih =>
    obtain ⟨j, a⟩ := x
    simp only [List.cons_append, runActs] at h ⊢
    cases ha : a.run (g j) with
    | error e => simp [ha] at h
    | ok c => simp only [ha] at h ⊢; exact ih h

/-! ### Steps of one key -/

theorem clean_set (w : World K A M) (k : K) (d : Dataset (Row A) M) :
    (fun k' => if k' = k then (⟨d, none⟩ : Cell A M) else clean w k') = clean (w.set k d) := by
  funext k'
  simp only [clean, World.set]
  split <;> rfl

theorem writeActs_run (cfg : KeyCfg K R A S Q) (md : Option (Md S P Q)) (main snap : Option (List (Row A)))
    {w w' : World K A (Md S P Q)} (h : writeResults cfg md main snap w = .ok w') :
    runActs (writeActs cfg md main snap) (clean w) = .ok (clean w') := by
  simp only [writeResults] at h
  have hpend : ∀ (m : Md S P Q) (c : Cell A (Md S P Q)) (g : K → Cell A (Md S P Q)) (k : K),
      (fun k' => if k' = k then c else (fun k' => if k' = k then (⟨w k, some m⟩ : Cell A (Md S P Q)) else g k') k') =
        fun k' => if k' = k then c else g k' := by
    intro m c g k; funext k'
    split
    · rfl
    · rename_i h; simp [h]
  cases main with
  | some rows =>
    simp only at h
    cases hs : storeSet cfg.table cfg.params (w cfg.main) rows md with
    | error e => simp [hs] at h
    | ok d =>
      simp only [hs] at h
      have hstep : ∀ l, runActs (pendActs cfg md ++ (cfg.main, .store cfg.table cfg.params rows) :: l) (clean w) = runActs l (clean (w.set cfg.main d)) := by
        intro l
        cases md with
        | none =>
          simp only [pendActs, List.nil_append, runActs, Act.run, clean, hs]
          rw [← clean_set]; rfl
        | some m =>
          simp only [pendActs, List.cons_append, List.nil_append, runActs, Act.run, clean, if_true, hs]
          rw [← clean_set]
          congr 1
          funext k'
          by_cases hk : k' = cfg.main <;> simp [hk, clean]
      simp only [writeActs]
      rw [hstep]
      by_cases hb : cfg.resType = .both
      · simp only [hb, if_true] at h ⊢
        cases snap with
        | none => simp at h
        | some srows =>
          simp only at h ⊢
          cases hs2 : storeSet cfg.table cfg.snapParams ((w.set cfg.main d) cfg.snap) srows none with
          | error e => simp [hs2] at h
          | ok d2 =>
            simp only [hs2, Except.ok.injEq] at h
            subst h
            simp only [runActs, Act.run, clean, hs2]
            rw [← clean_set]; rfl
      · simp only [hb, if_false, Except.ok.injEq] at h ⊢
        subst h; rfl
  | none =>
    cases md with
    | none =>
      simp only [Except.ok.injEq] at h
      subst h; rfl
    | some m =>
      simp only [Except.ok.injEq] at h
      subst h
      simp only [writeActs, pendActs, List.cons_append, List.nil_append, runActs, Act.run, clean, if_true, Except.ok.injEq]
      rw [← clean_set]
      funext k'
      by_cases hk : k' = cfg.main <;> simp [hk, clean]

theorem postActs_run (cfg : KeyCfg K R A S Q) (truthy : Int → Bool) (al : Bool) (fin : Option (Int × P))
    {st st' : KeyBuf A S Q} {w w' : World K A (Md S P Q)} (h : postNWrite cfg truthy al fin st w = .ok (st', w')) :
    runActs (postActs cfg truthy al fin st) (clean w) = .ok (clean w') := by
  simp only [postNWrite] at h
  simp only [postActs]
  cases hr : results cfg al st with
  | error e => simp [hr] at h
  | ok x =>
    obtain ⟨q, main, snap⟩ := x
    simp only [hr] at h ⊢
    cases hw : writeResults cfg (pendingMd truthy fin st.seg q) main snap w with
    | error e => simp [hw] at h
    | ok w1 =>
      simp only [hw, Except.ok.injEq, Prod.mk.injEq] at h
      rw [← h.2]
      exact writeActs_run _ _ _ _ hw

theorem opActs_run (cfg : KeyCfg K R A S Q) (truthy : Int → Bool) (op : KOp R P)
    {st st' : KeyBuf A S Q} {w w' : World K A (Md S P Q)} (h : keyStep cfg truthy op st w = .ok (st', w')) :
    runActs (opActs cfg truthy op st) (clean w) = .ok (clean w') := by
  cases op with
  | final r pb => exact postActs_run _ _ _ _ h
  | chunk rows =>
    simp only [keyStep, aggIter] at h
    cases hf : flushPrev cfg truthy st w with
    | error e => simp [hf] at h
    | ok x =>
      obtain ⟨st1, w1⟩ := x
      simp only [hf] at h
      have hw : w1 = w' := by
        cases hc : cfg.call rows st1.seg with
        | error e => simp [hc] at h
        | ok y => simp only [hc, Except.ok.injEq, Prod.mk.injEq] at h; exact h.2
      subst hw
      simp only [opActs, iterActs]
      simp only [flushPrev] at hf
      cases hb : st.bin with
      | none =>
        simp only [hb, Except.ok.injEq, Prod.mk.injEq] at hf ⊢
        rw [← hf.2]; rfl
      | some b =>
        simp only [hb] at hf ⊢
        split
        · rename_i he
          simp only [he, if_true, Except.ok.injEq, Prod.mk.injEq] at hf
          rw [← hf.2]; rfl
        · rename_i he
          rw [if_neg he] at hf
          split
          · rename_i hs
            rw [if_pos hs] at hf
            exact postActs_run _ _ _ _ hf
          · rename_i hs
            simp only [if_neg hs, Except.ok.injEq, Prod.mk.injEq] at hf
            rw [← hf.2]; rfl

theorem writeActs_touch (cfg : KeyCfg K R A S Q) (md : Option (Md S P Q)) (main snap : Option (List (Row A))) :
    ∀ x ∈ writeActs cfg md main snap, cfg.touches x.1 := by
  have hm : cfg.touches cfg.main := Or.inl rfl
  intro x hx
  simp only [writeActs, List.mem_append] at hx
  rcases hx with hx | hx
  · cases md with
    | none => simp [pendActs] at hx
    | some m => simp [pendActs] at hx; subst hx; exact hm
  · cases main with
    | none =>
      cases md with
      | none => simp at hx
      | some m => simp at hx; subst hx; exact hm
    | some rows =>
      by_cases hb : cfg.resType = .both
      · simp only [hb, if_true, List.mem_cons] at hx
        rcases hx with rfl | hx
        · exact hm
        · cases snap with
          | none => simp at hx; subst hx; exact Or.inr ⟨hb, rfl⟩
          | some s => simp at hx; subst hx; exact Or.inr ⟨hb, rfl⟩
      · simp only [hb, if_false, List.mem_cons, List.not_mem_nil, or_false] at hx
        subst hx; exact hm

theorem postActs_touch (cfg : KeyCfg K R A S Q) (truthy : Int → Bool) (al : Bool) (fin : Option (Int × P))
    (st : KeyBuf A S Q) : ∀ x ∈ postActs cfg truthy al fin st, cfg.touches x.1 := by
  simp only [postActs]
  cases results cfg al st with
  | error e => intro x hx; simp at hx; subst hx; exact Or.inl rfl
  | ok y => exact writeActs_touch _ _ _ _

theorem opActs_touch (cfg : KeyCfg K R A S Q) (truthy : Int → Bool) (op : KOp R P) (st : KeyBuf A S Q) :
    ∀ x ∈ opActs cfg truthy op st, cfg.touches x.1 := by
  cases op with
  | final r pb => exact postActs_touch _ _ _ _ _
  | chunk rows =>
    simp only [opActs, iterActs]
    cases st.bin with
    | none => simp
    | some b =>
      simp only
      split
      · simp
      · split
        · exact postActs_touch _ _ _ _ _
        · simp

/-! ### Threads -/

theorem actsOn_other {k : K} {l : List (K × Act A M)} (h : ∀ x ∈ l, x.1 ≠ k) : actsOn k l = [] := by
  rw [actsOn, List.filterMap_eq_nil_iff]
  intro x hx
  rw [if_neg (h x hx)]

theorem actsOn_steps {i : Nat} {k : K} {l : List (Nat × K × Act A M)} (h : ∀ x ∈ l, x.2.1 = k → x.1 = i) :
    actsOn k (l.map Prod.snd) = actsOn k (stepsOf i l) := by
  induction l with
  | nil => rfl
  | cons x l ih =>
    obtain ⟨j, k', a⟩ := x
    have ih' := ih fun x hx => h x (List.mem_cons_of_mem _ hx)
    by_cases hj : j = i
    · subst hj
      have e : stepsOf j ((j, k', a) :: l) = (k', a) :: stepsOf j l := by simp [stepsOf]
      rw [e, List.map_cons]
      simp only [actsOn, List.filterMap_cons] at ih' ⊢
      rw [ih']
    · have e : stepsOf i ((j, k', a) :: l) = stepsOf i l := by simp [stepsOf, hj]
      have hk : k' ≠ k := fun hk => hj (h _ List.mem_cons_self hk)
      rw [e, List.map_cons, ← ih']
      simp [actsOn, hk]

/-- Threads of keys that are apart: schedules with the same steps in each thread have the same steps on each store key. -/
theorem actsOn_sched {keys : List (F × KeyCfg K R A S Q)} (hk : Apart keys)
    {l1 l2 : List (Nat × K × Act A (Md S P Q))} (hl : ∀ i, stepsOf i l1 = stepsOf i l2)
    (ht : ∀ x ∈ l1, ∃ c, keys[x.1]? = some c ∧ c.2.touches x.2.1) (k : K) :
    actsOn k (l1.map Prod.snd) = actsOn k (l2.map Prod.snd) := by
  have hmem : ∀ (l : List (Nat × K × Act A (Md S P Q))) x, x ∈ l ↔ x.2 ∈ stepsOf x.1 l := by
    intro l x
    simp only [stepsOf, List.mem_filterMap]
    constructor
    · intro h; exact ⟨x, h, by simp⟩
    · rintro ⟨y, hy, h⟩
      split at h
      · rename_i e
        have : y = x := Prod.ext e (by simpa using h)
        exact this ▸ hy
      · cases h
  have ht2 : ∀ x ∈ l2, ∃ c, keys[x.1]? = some c ∧ c.2.touches x.2.1 := by
    intro x hx
    rw [hmem, ← hl, ← hmem] at hx
    exact ht x hx
  by_cases hx : ∃ (i : Nat) (c : F × KeyCfg K R A S Q), keys[i]? = some c ∧ c.2.touches k
  · obtain ⟨i, c, hi, hc⟩ := hx
    have uniq : ∀ (l : List (Nat × K × Act A (Md S P Q))),
        (∀ x ∈ l, ∃ c, keys[x.1]? = some c ∧ c.2.touches x.2.1) → ∀ x ∈ l, x.2.1 = k → x.1 = i := by
      intro l hlt x hxl hxk
      obtain ⟨c', h1, h2⟩ := hlt x hxl
      by_contra hne
      exact hk.get hne h1 hi k (hxk ▸ h2) hc
    rw [actsOn_steps (uniq l1 ht), actsOn_steps (uniq l2 ht2), hl i]
  · have none : ∀ (l : List (Nat × K × Act A (Md S P Q))),
        (∀ x ∈ l, ∃ c, keys[x.1]? = some c ∧ c.2.touches x.2.1) → actsOn k (l.map Prod.snd) = [] := by
      intro l hlt
      apply actsOn_other
      intro y hy hyk
      obtain ⟨x, hx', rfl⟩ := List.mem_map.1 hy
      obtain ⟨c, h1, h2⟩ := hlt x hx'
      exact hx ⟨x.1, c, h1, hyk ▸ h2⟩
    rw [none l1 ht, none l2 ht2]

/-- Steps of the threads, one thread after the other. -/
def seqSteps (sel : F → Bool) (truthy : Int → Bool) (op : KOp R P) :
    Nat → List (F × KeyCfg K R A S Q) → List (KeyBuf A S Q) → List (Nat × K × Act A (Md S P Q))
  | n, k :: ks, b :: bs =>
    (if sel k.1 then (opActs k.2 truthy op b).map fun x => (n, x) else []) ++ seqSteps sel truthy op (n + 1) ks bs
  | _, _, _ => []

theorem seqSteps_run {sel : F → Bool} {truthy : Int → Bool} {op : KOp R P} {ks : List (F × KeyCfg K R A S Q)}
    {bs bs' : List (KeyBuf A S Q)} {w w' : World K A (Md S P Q)} {n : Nat}
    (h : forKeys sel (fun cfg => keyStep cfg truthy op) ks bs w = .ok (bs', w')) :
    runActs ((seqSteps sel truthy op n ks bs).map Prod.snd) (clean w) = .ok (clean w') := by
  induction ks generalizing bs bs' w n with
  | nil =>
    simp only [forKeys, Except.ok.injEq, Prod.mk.injEq] at h
    obtain ⟨rfl, rfl⟩ := h
    cases bs <;> rfl
  | cons k ks ih =>
    cases bs with
    | nil =>
      simp only [forKeys, Except.ok.injEq, Prod.mk.injEq] at h
      obtain ⟨rfl, rfl⟩ := h
      rfl
    | cons b bs =>
      simp only [forKeys] at h
      simp only [seqSteps, List.map_append]
      cases hs : sel k.1 with
      | true =>
        simp only [hs, if_true] at h ⊢
        cases h1 : keyStep k.2 truthy op b w with
        | error e => simp [h1] at h
        | ok r =>
          obtain ⟨b1, w1⟩ := r
          simp only [h1] at h
          cases h2 : forKeys sel (fun cfg => keyStep cfg truthy op) ks bs w1 with
          | error e => simp [h2] at h
          | ok r =>
            obtain ⟨bs2, w2⟩ := r
            simp only [h2, Except.ok.injEq, Prod.mk.injEq] at h
            obtain ⟨rfl, rfl⟩ := h
            rw [runActs_append (g1 := clean w1)]
            · exact ih h2
            · rw [List.map_map, show (Prod.snd ∘ fun x => (n, x) : K × Act A (Md S P Q) → _) = id from rfl, List.map_id]
              exact opActs_run _ _ _ h1
      | false =>
        simp only [hs, Bool.false_eq_true, if_false] at h ⊢
        cases h2 : forKeys sel (fun cfg => keyStep cfg truthy op) ks bs w with
        | error e => simp [h2] at h
        | ok r =>
          obtain ⟨bs2, w2⟩ := r
          simp only [h2, Except.ok.injEq, Prod.mk.injEq] at h
          obtain ⟨rfl, rfl⟩ := h
          exact ih h2

theorem stepsOf_append (i : Nat) (a b : List (Nat × K × Act A M)) : stepsOf i (a ++ b) = stepsOf i a ++ stepsOf i b :=
  List.filterMap_append

theorem stepsOf_tag (i n : Nat) (l : List (K × Act A M)) : stepsOf i (l.map fun x => (n, x)) = if n = i then l else [] := by
  induction l with
  | nil => simp [stepsOf]
  | cons x l ih =>
    simp only [stepsOf, List.map_cons, List.filterMap_cons] at ih ⊢
    split_ifs at ih ⊢ <;> simp_all

theorem stepsOf_seq (sel : F → Bool) (truthy : Int → Bool) (op : KOp R P) (i n : Nat) (ks : List (F × KeyCfg K R A S Q))
    (bs : List (KeyBuf A S Q)) :
    stepsOf i (seqSteps sel truthy op n ks bs) = if n ≤ i then
      (match ks[i - n]?, bs[i - n]? with
        | some k, some b => if sel k.1 then opActs k.2 truthy op b else []
        | _, _ => []) else [] := by
  induction ks generalizing n bs with
  | nil => simp [seqSteps, stepsOf]
  | cons k ks ih =>
    cases bs with
    | nil =>
      simp only [seqSteps, stepsOf, List.filterMap_nil, List.getElem?_nil]
      split
      · split
        · rename_i h1 h2; cases h2
        · rfl
      · rfl
    | cons b bs =>
      have e : stepsOf i (if sel k.1 = true then (opActs k.2 truthy op b).map fun x => (n, x) else []) =
          if n = i ∧ sel k.1 = true then opActs k.2 truthy op b else [] := by
        cases sel k.1 with
        | true => simp [stepsOf_tag]
        | false => simp [stepsOf]
      rw [seqSteps, stepsOf_append, ih, e]
      by_cases hn : n = i
      · subst hn
        rw [if_neg (show ¬ n + 1 ≤ n by omega), List.append_nil]
        simp only [true_and, le_refl, if_true, Nat.sub_self, List.getElem?_cons_zero]
      · simp only [hn, false_and, if_false, List.nil_append]
        by_cases hlt : n + 1 ≤ i
        · rw [if_pos hlt, if_pos (by omega)]
          have : i - n = (i - (n + 1)) + 1 := by omega
          rw [this, List.getElem?_cons_succ, List.getElem?_cons_succ]
        · rw [if_neg hlt, if_neg (by omega)]

end
end Oups.AggStream
