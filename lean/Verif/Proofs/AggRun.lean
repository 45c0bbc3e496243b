import Verif.Proofs.AggKey
import Verif.Proofs.SeedIter
/-! Many keys: what is done to one key reads and changes its own datasets only. -/
set_option linter.unusedSimpArgs false
namespace Oups.AggStream
open Oups.Writer (Table Params RG)
open Oups.Agg (Res)

section
variable {K R A S P Q : Type} [DecidableEq K]

/-- Same datasets for the key. -/
def Agree (cfg : KeyCfg K R A S Q) (w1 w2 : World K A (Md S P Q)) : Prop := ∀ k, cfg.touches k → w1 k = w2 k

/-- Two outcomes for a key: same error, or same state and same datasets for the key, the other ones being left. -/
def Same (cfg : KeyCfg K R A S Q) (w1 w2 : World K A (Md S P Q)) :
    Except Err (KeyBuf A S Q × World K A (Md S P Q)) → Except Err (KeyBuf A S Q × World K A (Md S P Q)) → Prop
  | .error e1, .error e2 => e1 = e2
  | .ok (st1, w1'), .ok (st2, w2') => st1 = st2 ∧ Agree cfg w1' w2' ∧ (∀ k, ¬ cfg.touches k → w1' k = w1 k) ∧
      (∀ k, ¬ cfg.touches k → w2' k = w2 k)
  | _, _ => False

theorem touches_main (cfg : KeyCfg K R A S Q) : cfg.touches cfg.main := Or.inl rfl

theorem touches_snapKey (cfg : KeyCfg K R A S Q) : cfg.touches cfg.snapKey := by
  simp only [KeyCfg.touches, KeyCfg.snapKey]
  split
  · rename_i h; exact Or.inr ⟨h, rfl⟩
  · exact Or.inl rfl

theorem writeResults_local (cfg : KeyCfg K R A S Q) (md : Option (Md S P Q)) (main snap : Option (List (Row A)))
    {w1 w2 : World K A (Md S P Q)} (h : Agree cfg w1 w2) :
    match writeResults cfg md main snap w1, writeResults cfg md main snap w2 with
    | .error e1, .error e2 => e1 = e2
    | .ok w1', .ok w2' => Agree cfg w1' w2' ∧ (∀ k, ¬ cfg.touches k → w1' k = w1 k) ∧
        (∀ k, ¬ cfg.touches k → w2' k = w2 k)
    | _, _ => False := by
  have hm := h _ (touches_main cfg)
  have hset : ∀ d, Agree cfg (w1.set cfg.main d) (w2.set cfg.main d) := by
    intro d k hk
    simp only [World.set]
    split
    · rfl
    · exact h k hk
  have hout : ∀ (w : World K A (Md S P Q)) d k, ¬ cfg.touches k → (w.set cfg.main d) k = w k := by
    intro w d k hk
    simp only [World.set]
    rw [if_neg]
    rintro rfl
    exact hk (touches_main cfg)
  simp only [writeResults, ← hm]
  cases main with
  | none =>
    cases md with
    | none => exact ⟨h, fun _ _ => rfl, fun _ _ => rfl⟩
    | some m => exact ⟨hset _, hout _ _, hout _ _⟩
  | some rows =>
    simp only
    cases hw : storeSet cfg.table cfg.params (w1 cfg.main) rows md with
    | error e => rfl
    | ok d =>
      simp only
      by_cases hb : cfg.resType = .both
      · have ht : cfg.touches cfg.snap := Or.inr ⟨hb, rfl⟩
        simp only [hb, if_true]
        cases snap with
        | none => rfl
        | some srows =>
          simp only [← hset d _ ht]
          cases hs : storeSet cfg.table cfg.snapParams (w1.set cfg.main d cfg.snap) srows none with
          | error e => rfl
          | ok d' =>
            refine ⟨fun k hk => ?_, fun k hk => ?_, fun k hk => ?_⟩
            · simp only [World.set]
              split
              · rfl
              · exact hset d k hk
            · rw [← hout w1 d k hk]
              exact if_neg (by rintro rfl; exact hk ht)
            · rw [← hout w2 d k hk]
              exact if_neg (by rintro rfl; exact hk ht)
      · simp only [hb, if_false]
        exact ⟨hset _, hout _ _, hout _ _⟩

theorem postNWrite_local (cfg : KeyCfg K R A S Q) (truthy : Int → Bool) (al : Bool) (fin : Option (Int × P))
    (st : KeyBuf A S Q) {w1 w2 : World K A (Md S P Q)} (h : Agree cfg w1 w2) :
    Same cfg w1 w2 (postNWrite cfg truthy al fin st w1) (postNWrite cfg truthy al fin st w2) := by
  simp only [postNWrite]
  cases results cfg al st with
  | error e => rfl
  | ok r =>
    obtain ⟨q, main, snap⟩ := r
    simp only
    have := writeResults_local cfg (pendingMd truthy fin st.seg q) main snap h
    cases h1 : writeResults cfg (pendingMd truthy fin st.seg q) main snap w1 with
    | error e =>
      cases h2 : writeResults cfg (pendingMd truthy fin st.seg q) main snap w2 with
      | error e' => rw [h1, h2] at this; exact this
      | ok w' => rw [h1, h2] at this; exact this.elim
    | ok w' =>
      cases h2 : writeResults cfg (pendingMd truthy fin st.seg q) main snap w2 with
      | error e' => rw [h1, h2] at this; exact this.elim
      | ok w'' => rw [h1, h2] at this; exact ⟨rfl, this⟩

theorem Same.refl' (cfg : KeyCfg K R A S Q) {w1 w2 : World K A (Md S P Q)} (h : Agree cfg w1 w2) (st : KeyBuf A S Q) :
    Same cfg w1 w2 (.ok (st, w1)) (.ok (st, w2)) := ⟨rfl, h, fun _ _ => rfl, fun _ _ => rfl⟩

theorem flushPrev_local (cfg : KeyCfg K R A S Q) (truthy : Int → Bool)
    (st : KeyBuf A S Q) {w1 w2 : World K A (Md S P Q)} (h : Agree cfg w1 w2) :
    Same cfg w1 w2 (flushPrev cfg truthy st w1) (flushPrev cfg truthy st w2) := by
  simp only [flushPrev]
  cases st.bin with
  | none => exact .refl' cfg h _
  | some b =>
    simp only
    split
    · exact .refl' cfg h _
    · split
      · exact postNWrite_local cfg truthy false none _ h
      · exact .refl' cfg h _

theorem keyStep_local (cfg : KeyCfg K R A S Q) (truthy : Int → Bool) (op : KOp R P)
    (st : KeyBuf A S Q) {w1 w2 : World K A (Md S P Q)} (h : Agree cfg w1 w2) :
    Same cfg w1 w2 (keyStep cfg truthy op st w1) (keyStep cfg truthy op st w2) := by
  cases op with
  | final r pb => exact postNWrite_local cfg truthy true _ st h
  | chunk c =>
    simp only [keyStep, aggIter]
    have := flushPrev_local cfg truthy st h
    cases h1 : flushPrev cfg truthy st w1 with
    | error e =>
      cases h2 : flushPrev cfg truthy st w2 with
      | error e' => rw [h1, h2] at this; exact this
      | ok w' => rw [h1, h2] at this; exact this.elim
    | ok r =>
      obtain ⟨st1, w1'⟩ := r
      cases h2 : flushPrev cfg truthy st w2 with
      | error e' => rw [h1, h2] at this; exact this.elim
      | ok r =>
        obtain ⟨st2, w2'⟩ := r
        rw [h1, h2] at this
        obtain ⟨rfl, h3⟩ := this
        simp only
        cases cfg.call c st1.seg with
        | error e => rfl
        | ok r => exact ⟨rfl, h3⟩

theorem keyStep_frame {cfg : KeyCfg K R A S Q} {truthy : Int → Bool} {op : KOp R P} {st st' : KeyBuf A S Q}
    {w w' : World K A (Md S P Q)} (h : keyStep cfg truthy op st w = .ok (st', w')) :
    ∀ k, ¬ cfg.touches k → w' k = w k := by
  have := keyStep_local cfg truthy op st (w1 := w) (w2 := w) fun _ _ => rfl
  rw [h] at this
  exact this.2.2.1

theorem keyRun_local (cfg : KeyCfg K R A S Q) (truthy : Int → Bool) (ops : List (KOp R P))
    (st : KeyBuf A S Q) {w1 w2 : World K A (Md S P Q)} (h : Agree cfg w1 w2) :
    Same cfg w1 w2 (keyRun cfg truthy ops st w1) (keyRun cfg truthy ops st w2) := by
  induction ops generalizing st w1 w2 with
  | nil => exact .refl' cfg h st
  | cons op ops ih =>
    simp only [keyRun]
    have := keyStep_local cfg truthy op st h
    cases h1 : keyStep cfg truthy op st w1 with
    | error e =>
      cases h2 : keyStep cfg truthy op st w2 with
      | error e' => rw [h1, h2] at this; exact this
      | ok w' => rw [h1, h2] at this; exact this.elim
    | ok r =>
      obtain ⟨st1, w1'⟩ := r
      cases h2 : keyStep cfg truthy op st w2 with
      | error e' => rw [h1, h2] at this; exact this.elim
      | ok r =>
        obtain ⟨st2, w2'⟩ := r
        rw [h1, h2] at this
        obtain ⟨rfl, h3, h4, h5⟩ := this
        simp only
        have := ih st1 h3
        cases h6 : keyRun cfg truthy ops st1 w1' with
        | error e =>
          cases h7 : keyRun cfg truthy ops st1 w2' with
          | error e' => rw [h6, h7] at this; exact this
          | ok w' => rw [h6, h7] at this; exact this.elim
        | ok r =>
          cases h7 : keyRun cfg truthy ops st1 w2' with
          | error e' => rw [h6, h7] at this; exact this.elim
          | ok r' =>
            rw [h6, h7] at this
            obtain ⟨a1, a2, a3, a4⟩ := this
            exact ⟨a1, a2, fun k hk => (a3 k hk).trans (h4 k hk), fun k hk => (a4 k hk).trans (h5 k hk)⟩

/-! ### Operations on numbered keys -/

variable {F : Type}

theorem Apart.get {keys : List (F × KeyCfg K R A S Q)} (h : Apart keys) {i j : Nat} (hij : i ≠ j)
    {a b : F × KeyCfg K R A S Q} (ha : keys[i]? = some a) (hb : keys[j]? = some b) (k : K) (hk : a.2.touches k) :
    ¬ b.2.touches k := by
  obtain ⟨hi, rfl⟩ := List.getElem?_eq_some_iff.1 ha
  obtain ⟨hj, rfl⟩ := List.getElem?_eq_some_iff.1 hb
  rw [Apart, List.pairwise_iff_getElem] at h
  rcases Nat.lt_or_gt_of_ne hij with hlt | hlt
  · exact h i j hi hj hlt k hk
  · intro hbk
    exact h j i hj hi hlt k hbk hk

theorem opsOf_append (i : Nat) (a b : List (Nat × KOp R P)) : opsOf i (a ++ b) = opsOf i a ++ opsOf i b :=
  List.filterMap_append

theorem opsOf_same (i : Nat) (op : KOp R P) (l : List (Nat × KOp R P)) : opsOf i ((i, op) :: l) = op :: opsOf i l := by
  simp [opsOf]

theorem opsOf_other {i j : Nat} (h : j ≠ i) (op : KOp R P) (l : List (Nat × KOp R P)) :
    opsOf i ((j, op) :: l) = opsOf i l := by
  simp [opsOf, h]

/-- Each key gets what it would get alone. -/
theorem idxRun_proj {keys : List (F × KeyCfg K R A S Q)} (hk : Apart keys) {truthy : Int → Bool}
    {l : List (Nat × KOp R P)} {bs bs' : List (KeyBuf A S Q)} {w w' : World K A (Md S P Q)}
    (h : idxRun keys truthy l bs w = .ok (bs', w')) :
    bs'.length = bs.length ∧
    (∀ x, (∀ (i : Nat) k, keys[i]? = some k → i < bs.length → ¬ k.2.touches x) → w' x = w x) ∧
    (∀ i : Nat, keys[i]? = none → bs'[i]? = bs[i]?) ∧
    ∀ (i : Nat) k b, keys[i]? = some k → bs[i]? = some b →
      ∃ b' w1, keyRun k.2 truthy (opsOf i l) b w = .ok (b', w1) ∧ bs'[i]? = some b' ∧ Agree k.2 w1 w' := by
  induction l generalizing bs w with
  | nil =>
    simp only [idxRun, Except.ok.injEq, Prod.mk.injEq] at h
    obtain ⟨rfl, rfl⟩ := h
    exact ⟨rfl, fun _ _ => rfl, fun _ _ => rfl, fun i k b _ hb => ⟨b, w, rfl, hb, fun _ _ => rfl⟩⟩
  | cons x l ih =>
    obtain ⟨j, op⟩ := x
    simp only [idxRun] at h
    cases hkj : keys[j]? with
    | none =>
      simp only [hkj] at h
      obtain ⟨h1, h2, h3, h4⟩ := ih h
      refine ⟨h1, h2, h3, fun i k b hi hb => ?_⟩
      rw [opsOf_other (by rintro rfl; rw [hkj] at hi; cases hi)]
      exact h4 i k b hi hb
    | some kj =>
      cases hbj : bs[j]? with
      | none =>
        simp only [hkj, hbj] at h
        obtain ⟨h1, h2, h3, h4⟩ := ih h
        refine ⟨h1, h2, h3, fun i k b hi hb => ?_⟩
        rw [opsOf_other (by rintro rfl; rw [hbj] at hb; cases hb)]
        exact h4 i k b hi hb
      | some bj =>
        simp only [hkj, hbj] at h
        cases hs : keyStep kj.2 truthy op bj w with
        | error e => simp [hs] at h
        | ok r =>
          obtain ⟨b1, w1⟩ := r
          simp only [hs] at h
          obtain ⟨h1, h2, h3, h4⟩ := ih h
          have hf := keyStep_frame hs
          refine ⟨by rw [h1, List.length_set], fun x hx => ?_, fun i hi => ?_, fun i k b hi hb => ?_⟩
          · rw [h2 x (by simpa using hx), hf x (hx j kj hkj (List.getElem?_eq_some_iff.1 hbj).1)]
          · rw [h3 i hi, List.getElem?_set_ne]
            rintro rfl
            rw [hkj] at hi; cases hi
          · by_cases hij : j = i
            · subst hij
              rw [hkj, Option.some.injEq] at hi
              rw [hbj, Option.some.injEq] at hb
              subst hi hb
              obtain ⟨b', w2, e1, e2, e3⟩ := h4 j kj b1 hkj (by
                rw [List.getElem?_set_self]
                exact (List.getElem?_eq_some_iff.1 hbj).1)
              rw [opsOf_same]
              exact ⟨b', w2, by simp only [keyRun, hs]; exact e1, e2, e3⟩
            · obtain ⟨b', w2, e1, e2, e3⟩ := h4 i k b hi (by rw [List.getElem?_set_ne hij]; exact hb)
              rw [opsOf_other hij]
              have ha : Agree k.2 w1 w := fun x hx => hf x (hk.get (Ne.symm hij) hi hkj x hx)
              have := keyRun_local k.2 truthy (opsOf i l) b ha
              rw [e1] at this
              cases hr : keyRun k.2 truthy (opsOf i l) b w with
              | error e => rw [hr] at this; exact this.elim
              | ok r =>
                obtain ⟨b2, w3⟩ := r
                rw [hr] at this
                obtain ⟨rfl, a1, -, -⟩ := this
                exact ⟨b', w3, rfl, e2, fun x hx => (a1 x hx).symm.trans (e3 x hx)⟩

/-- Conversely, if all keys can be processed alone, they can be together. -/
theorem idxRun_of_proj {keys : List (F × KeyCfg K R A S Q)} (hk : Apart keys) {truthy : Int → Bool}
    {l : List (Nat × KOp R P)} {bs : List (KeyBuf A S Q)} {w : World K A (Md S P Q)}
    (h : ∀ (i : Nat) k b, keys[i]? = some k → bs[i]? = some b → ∃ r, keyRun k.2 truthy (opsOf i l) b w = .ok r) :
    ∃ r, idxRun keys truthy l bs w = .ok r := by
  induction l generalizing bs w with
  | nil => exact ⟨_, rfl⟩
  | cons x l ih =>
    obtain ⟨j, op⟩ := x
    simp only [idxRun]
    cases hkj : keys[j]? with
    | none =>
      refine ih fun i k b hi hb => ?_
      have := h i k b hi hb
      rwa [opsOf_other (by rintro rfl; rw [hkj] at hi; cases hi)] at this
    | some kj =>
      cases hbj : bs[j]? with
      | none =>
        refine ih fun i k b hi hb => ?_
        have := h i k b hi hb
        rwa [opsOf_other (by rintro rfl; rw [hbj] at hb; cases hb)] at this
      | some bj =>
        simp only
        obtain ⟨r, hr⟩ := h j kj bj hkj hbj
        rw [opsOf_same] at hr
        simp only [keyRun] at hr
        cases hs : keyStep kj.2 truthy op bj w with
        | error e => simp [hs] at hr
        | ok x =>
          obtain ⟨b1, w1⟩ := x
          simp only [hs] at hr ⊢
          refine ih fun i k b hi hb => ?_
          by_cases hij : j = i
          · subst hij
            rw [List.getElem?_set_self (List.getElem?_eq_some_iff.1 hbj).1, Option.some.injEq] at hb
            rw [hkj, Option.some.injEq] at hi
            subst hi hb
            exact ⟨r, hr⟩
          · rw [List.getElem?_set_ne hij] at hb
            obtain ⟨r', hr'⟩ := h i k b hi hb
            rw [opsOf_other hij] at hr'
            have ha : Agree k.2 w w1 := fun x hx => (keyStep_frame hs x (hk.get (Ne.symm hij) hi hkj x hx)).symm
            have := keyRun_local k.2 truthy (opsOf i l) b ha
            rw [hr'] at this
            cases hr2 : keyRun k.2 truthy (opsOf i l) b w1 with
            | error e => rw [hr2] at this; exact this.elim
            | ok r => exact ⟨r, rfl⟩

/-- The order between operations on different keys does not matter. -/
theorem idxRun_comm {keys : List (F × KeyCfg K R A S Q)} (hk : Apart keys) {truthy : Int → Bool}
    {l1 l2 : List (Nat × KOp R P)} {bs bs' : List (KeyBuf A S Q)} {w w' : World K A (Md S P Q)}
    (hl : ∀ i, opsOf i l1 = opsOf i l2) (h : idxRun keys truthy l1 bs w = .ok (bs', w')) :
    idxRun keys truthy l2 bs w = .ok (bs', w') := by
  obtain ⟨a1, a2, a3, a4⟩ := idxRun_proj hk h
  obtain ⟨⟨bs2, w2⟩, h2⟩ := idxRun_of_proj (l := l2) (truthy := truthy) hk (bs := bs) (w := w) fun i k b hi hb => by
    obtain ⟨b', w1, e1, -, -⟩ := a4 i k b hi hb
    rw [← hl i]
    exact ⟨_, e1⟩
  obtain ⟨c1, c2, c3, c4⟩ := idxRun_proj hk h2
  rw [h2]
  have hbs : bs2 = bs' := by
    apply List.ext_getElem?
    intro i
    cases hki : keys[i]? with
    | none => rw [a3 i hki, c3 i hki]
    | some k =>
      cases hbi : bs[i]? with
      | none =>
        rw [List.getElem?_eq_none_iff] at hbi
        rw [List.getElem?_eq_none_iff.2 (by omega), List.getElem?_eq_none_iff.2 (by omega)]
      | some b =>
        obtain ⟨b1, w1, e1, e2, -⟩ := a4 i k b hki hbi
        obtain ⟨b2, w3, e3, e4, -⟩ := c4 i k b hki hbi
        rw [hl i, e3] at e1
        simp only [Except.ok.injEq, Prod.mk.injEq] at e1
        rw [e2, e4, e1.1]
  have hw : w2 = w' := by
    funext x
    by_cases hx : ∃ (i : Nat) (k : F × KeyCfg K R A S Q), keys[i]? = some k ∧ i < bs.length ∧ k.2.touches x
    · obtain ⟨i, k, hki, hi, ht⟩ := hx
      have hbi : bs[i]? = some bs[i] := List.getElem?_eq_getElem hi
      obtain ⟨b1, w1, e1, -, e2⟩ := a4 i k _ hki hbi
      obtain ⟨b2, w3, e3, -, e4⟩ := c4 i k _ hki hbi
      rw [hl i, e3] at e1
      simp only [Except.ok.injEq, Prod.mk.injEq] at e1
      rw [← e2 x ht, ← e4 x ht, e1.2]
    · have hx' : ∀ (i : Nat) (k : F × KeyCfg K R A S Q), keys[i]? = some k → i < bs.length → ¬ k.2.touches x :=
        fun i k h1 h2 h3 => hx ⟨i, k, h1, h2, h3⟩
      rw [a2 x hx', c2 x hx']
  rw [hbs, hw]

/-! ### Loops over keys -/

theorem idxRun_append {keys : List (F × KeyCfg K R A S Q)} {truthy : Int → Bool}
    {l1 l2 : List (Nat × KOp R P)} {bs bs1 : List (KeyBuf A S Q)} {w w1 : World K A (Md S P Q)}
    (h : idxRun keys truthy l1 bs w = .ok (bs1, w1)) :
    idxRun keys truthy (l1 ++ l2) bs w = idxRun keys truthy l2 bs1 w1 := by
  induction l1 generalizing bs w with
  | nil =>
    simp only [idxRun, Except.ok.injEq, Prod.mk.injEq] at h
    obtain ⟨rfl, rfl⟩ := h
    rfl
  | cons x l ih =>
    obtain ⟨j, op⟩ := x
    simp only [List.cons_append, idxRun] at h ⊢
    cases hkj : keys[j]? with
    | none => simp only [hkj] at h; exact ih h
    | some kj =>
      cases hbj : bs[j]? with
      | none => simp only [hkj, hbj] at h; exact ih h
      | some bj =>
        simp only [hkj, hbj] at h ⊢
        cases hs : keyStep kj.2 truthy op bj w with
        | error e => simp [hs] at h
        | ok r => simp only [hs] at h ⊢; exact ih h

theorem idxRun_length {keys : List (F × KeyCfg K R A S Q)} {truthy : Int → Bool}
    {l : List (Nat × KOp R P)} {bs bs' : List (KeyBuf A S Q)} {w w' : World K A (Md S P Q)}
    (h : idxRun keys truthy l bs w = .ok (bs', w')) : bs'.length = bs.length := by
  induction l generalizing bs w with
  | nil =>
    simp only [idxRun, Except.ok.injEq, Prod.mk.injEq] at h
    rw [h.1]
  | cons x l ih =>
    obtain ⟨j, op⟩ := x
    simp only [idxRun] at h
    cases hkj : keys[j]? with
    | none => simp only [hkj] at h; exact ih h
    | some kj =>
      cases hbj : bs[j]? with
      | none => simp only [hkj, hbj] at h; exact ih h
      | some bj =>
        simp only [hkj, hbj] at h
        cases hs : keyStep kj.2 truthy op bj w with
        | error e => simp [hs] at h
        | ok r => simp only [hs] at h; rw [ih h, List.length_set]

/-- One operation on each selected key. -/
def selOps (sel : F → Bool) (op : KOp R P) : Nat → List (F × KeyCfg K R A S Q) → List (Nat × KOp R P)
  | _, [] => []
  | n, k :: ks => if sel k.1 then (n, op) :: selOps sel op (n + 1) ks else selOps sel op (n + 1) ks

theorem forKeys_idx {sel : F → Bool} {op : KOp R P} {truthy : Int → Bool} {ks : List (F × KeyCfg K R A S Q)}
    {bs bs' : List (KeyBuf A S Q)} {w w' : World K A (Md S P Q)}
    (h : forKeys sel (fun cfg => keyStep cfg truthy op) ks bs w = .ok (bs', w')) (hl : bs.length = ks.length)
    (pk : List (F × KeyCfg K R A S Q)) (pb : List (KeyBuf A S Q)) (hp : pb.length = pk.length) :
    idxRun (pk ++ ks) truthy (selOps sel op pk.length ks) (pb ++ bs) w = .ok (pb ++ bs', w') := by
  induction ks generalizing bs bs' w pk pb with
  | nil =>
    simp only [forKeys, Except.ok.injEq, Prod.mk.injEq] at h
    obtain ⟨rfl, rfl⟩ := h
    rfl
  | cons k ks ih =>
    cases bs with
    | nil => simp at hl
    | cons b bs =>
      have hl' : bs.length = ks.length := by simpa using hl
      have hk : (pk ++ k :: ks)[pk.length]? = some k := by simp
      have hb : (pb ++ b :: bs)[pk.length]? = some b := by rw [← hp]; simp
      simp only [forKeys] at h
      simp only [selOps]
      cases hs : sel k.1 with
      | true =>
        simp only [hs, if_true] at h ⊢
        cases h1 : keyStep k.2 truthy op b w with
        | error e => simp [h1] at h
        | ok r =>
          obtain ⟨b1, w1⟩ := r
          simp only [h1] at h
          cases h2 : forKeys sel (fun cfg => keyStep cfg truthy op) ks bs w1 with
          | error e => simp [h2] at h
          | ok r =>
            obtain ⟨bs2, w2⟩ := r
            simp only [h2, Except.ok.injEq, Prod.mk.injEq] at h
            obtain ⟨rfl, rfl⟩ := h
            simp only [idxRun, hk, hb, h1]
            have := ih h2 hl' (pk ++ [k]) (pb ++ [b1]) (by simp [hp])
            rw [← hp]
            simpa [hp] using this
      | false =>
        simp only [hs, Bool.false_eq_true, if_false] at h ⊢
        cases h2 : forKeys sel (fun cfg => keyStep cfg truthy op) ks bs w with
        | error e => simp [h2] at h
        | ok r =>
          obtain ⟨bs2, w2⟩ := r
          simp only [h2, Except.ok.injEq, Prod.mk.injEq] at h
          obtain ⟨rfl, rfl⟩ := h
          have := ih h2 hl' (pk ++ [k]) (pb ++ [b]) (by simp [hp])
          simpa [hp] using this

theorem opsOf_selOps (sel : F → Bool) (op : KOp R P) (ks : List (F × KeyCfg K R A S Q)) (n i : Nat) :
    opsOf i (selOps sel op n ks) =
      if n ≤ i then (match ks[i - n]? with | some k => if sel k.1 then [op] else [] | none => []) else [] := by
  induction ks generalizing n with
  | nil => simp [selOps, opsOf]
  | cons k ks ih =>
    simp only [selOps]
    by_cases hn : n = i
    · subst hn
      have : opsOf n (selOps sel op (n + 1) ks) = [] := by rw [ih, if_neg (by omega)]
      cases hs : sel k.1 with
      | true => simp [opsOf_same, this, hs]
      | false => simp [this, hs]
    · have e : opsOf i (if sel k.1 = true then (n, op) :: selOps sel op (n + 1) ks else selOps sel op (n + 1) ks) =
          opsOf i (selOps sel op (n + 1) ks) := by
        split
        · exact opsOf_other hn _ _
        · rfl
      rw [e, ih]
      by_cases hlt : n + 1 ≤ i
      · rw [if_pos hlt, if_pos (by omega)]
        have : i - n = (i - (n + 1)) + 1 := by omega
        rw [this, List.getElem?_cons_succ]
      · rw [if_neg hlt, if_neg (by omega)]

theorem opsOf_selOps_key {sel : F → Bool} {op : KOp R P} {ks : List (F × KeyCfg K R A S Q)} {i : Nat}
    {k : F × KeyCfg K R A S Q} (hi : ks[i]? = some k) :
    opsOf i (selOps sel op 0 ks) = if sel k.1 then [op] else [] := by
  rw [opsOf_selOps, if_pos (Nat.zero_le _), Nat.sub_zero, hi]

end

section
variable {K R A S P Q F : Type} [DecidableEq K] [DecidableEq F]

/-- Operations of the loop of `agg`. -/
def loopOps (keys : List (F × KeyCfg K R A S Q)) (ys : List (Yield F R)) : List (Nat × KOp R P) :=
  ys.flatMap fun y => selOps (fun f => decide (f = y.filt)) (.chunk y.rows) 0 keys

theorem aggLoop_idx {c : Config K R A S P Q F} {ys : List (Yield F R)} {r r' : Option Int} {bs bs' : List (KeyBuf A S Q)}
    {w w' : World K A (Md S P Q)} (h : aggLoop c ys r bs w = .ok (r', bs', w')) (hl : bs.length = c.keys.length) :
    idxRun c.keys c.truthy (loopOps c.keys ys) bs w = .ok (bs', w') ∧ r' = restartAfter r ys ∧
      bs'.length = c.keys.length := by
  induction ys generalizing r bs w with
  | nil =>
    simp only [aggLoop, Except.ok.injEq, Prod.mk.injEq] at h
    obtain ⟨rfl, rfl, rfl⟩ := h
    exact ⟨rfl, rfl, hl⟩
  | cons y ys ih =>
    simp only [aggLoop] at h
    cases hf : forKeys (fun f => decide (f = y.filt)) (fun cfg => aggIter cfg c.truthy y.rows) c.keys bs w with
    | error e => simp [hf] at h
    | ok x =>
      obtain ⟨bs1, w1⟩ := x
      simp only [hf] at h
      have h1 := forKeys_idx (op := KOp.chunk y.rows) hf hl [] [] rfl
      simp only [List.nil_append, List.length_nil] at h1
      have hl1 : bs1.length = c.keys.length := by
        rw [← hl]; exact idxRun_length h1
      obtain ⟨h2, h3, h4⟩ := ih h hl1
      refine ⟨?_, ?_, h4⟩
      · rw [loopOps, List.flatMap_cons, idxRun_append h1]
        exact h2
      · rw [h3]
        have := restartAfter_append r [y] ys
        simpa [restartAfter] using this.symm

/-- Operations of `agg`. -/
def callOps (c : Config K R A S P Q F) (a : Call R) (r : Option Int) (pb : P) : List (Nat × KOp R P) :=
  match iterData c.ord r c.pre pb c.filters a.trimStart a.discardLast a.seed with
  | (ys, pb', _) => loopOps c.keys ys ++
    if a.finalWrite then selOps (fun _ => true) (.final (restartAfter r ys) pb') 0 c.keys else []

/-- `agg`, as operations on keys. -/
theorem agg_idx {c : Config K R A S P Q F} {a : Call R} {s s' : State A S P Q} {w w' : World K A (Md S P Q)} {e : Bool}
    (h : agg c a s w = .ok (s', w', e)) (hl : s.bufs.length = c.keys.length) :
    idxRun c.keys c.truthy (callOps c a s.restart s.pre) s.bufs w = .ok (s'.bufs, w') ∧
    s'.bufs.length = c.keys.length ∧
    ∃ ys exc, iterData c.ord s.restart c.pre s.pre c.filters a.trimStart a.discardLast a.seed = (ys, s'.pre, exc) ∧
      s'.restart = restartAfter s.restart ys ∧ (e = true ↔ exc = some .seedPre) ∧ (e = false ↔ exc = none) := by
  simp only [agg] at h
  simp only [callOps]
  generalize iterData c.ord s.restart c.pre s.pre c.filters a.trimStart a.discardLast a.seed = it at h ⊢
  obtain ⟨ys, pb, exc⟩ := it
  simp only at h ⊢
  cases hx : aggLoop c ys s.restart s.bufs w with
  | error e => simp [hx] at h
  | ok x =>
    obtain ⟨r, bs, w1⟩ := x
    simp only [hx] at h
    obtain ⟨h1, rfl, h3⟩ := aggLoop_idx hx hl
    split at h
    · rename_i hexc
      have hfl : ∀ b : Bool, exc.isSome = b → (b = true ↔ exc = some .seedPre) ∧ (b = false ↔ exc = none) := by
        rintro b rfl
        rcases hexc with rfl | rfl <;> simp
      cases hfw : a.finalWrite with
      | true =>
        simp only [hfw, if_true] at h ⊢
        simp only [finalWrite] at h
        cases hk : forKeys (fun _ => true) (fun cfg => postNWrite cfg c.truthy true
            ((restartAfter s.restart ys).map fun i => (i, pb))) c.keys bs w1 with
        | error e => simp [hk] at h
        | ok x =>
          obtain ⟨bs2, w2⟩ := x
          simp only [hk, Except.ok.injEq, Prod.mk.injEq] at h
          obtain ⟨rfl, rfl, h4⟩ := h
          have h5 := forKeys_idx (op := KOp.final (restartAfter s.restart ys) pb) hk h3 [] [] rfl
          simp only [List.nil_append, List.length_nil] at h5
          refine ⟨by rw [idxRun_append h1]; exact h5, by rw [idxRun_length h5, h3], ys, exc, rfl, rfl, hfl _ h4⟩
      | false =>
        simp only [hfw, Bool.false_eq_true, if_false, Except.ok.injEq, Prod.mk.injEq] at h ⊢
        obtain ⟨rfl, rfl, h4⟩ := h
        exact ⟨by rw [List.append_nil]; exact h1, h3, ys, exc, ⟨rfl, rfl, rfl⟩, rfl, hfl _ h4⟩
    · simp at h

/-- Operations on the keys of filter `f`, in a call. -/
def keyOps (c : Config K R A S P Q F) (f : F) (a : Call R) (r : Option Int) (pb : P) : List (KOp R P) :=
  match iterData c.ord r c.pre pb c.filters a.trimStart a.discardLast a.seed with
  | (ys, pb', _) => ((ys.filter fun y => decide (y.filt = f)).map fun y => KOp.chunk y.rows) ++
    if a.finalWrite then [.final (restartAfter r ys) pb'] else []

theorem opsOf_loopOps {keys : List (F × KeyCfg K R A S Q)} {ys : List (Yield F R)} {i : Nat} {k : F × KeyCfg K R A S Q}
    (hi : keys[i]? = some k) :
    opsOf i (loopOps keys ys : List (Nat × KOp R P)) =
      (ys.filter fun y => decide (y.filt = k.1)).map fun y => KOp.chunk y.rows := by
  induction ys with
  | nil => rfl
  | cons y ys ih =>
    simp only [loopOps, List.flatMap_cons] at ih ⊢
    rw [opsOf_append, opsOf_selOps_key hi, ih, List.filter_cons]
    by_cases h : k.1 = y.filt
    · simp [h]
    · simp [h, Ne.symm h]

theorem opsOf_callOps {c : Config K R A S P Q F} {a : Call R} {r : Option Int} {pb : P} {i : Nat}
    {k : F × KeyCfg K R A S Q} (hi : c.keys[i]? = some k) : opsOf i (callOps c a r pb) = keyOps c k.1 a r pb := by
  simp only [callOps, keyOps]
  rw [opsOf_append, opsOf_loopOps hi]
  congr 1
  split
  · rw [opsOf_selOps_key hi, if_pos rfl]
  · rfl

/-- Operations on the keys of a filter, in successive calls. -/
def keyOpsAll (c : Config K R A S P Q F) (f : F) : List (Call R) → Option Int → P → List (KOp R P)
  | [], _, _ => []
  | a :: as, r, pb =>
    keyOps c f a r pb ++
    match iterData c.ord r c.pre pb c.filters a.trimStart a.discardLast a.seed with
    | (ys, pb', _) => keyOpsAll c f as (restartAfter r ys) pb'

theorem keyRun_append_ok {cfg : KeyCfg K R A S Q} {truthy : Int → Bool} {a b : List (KOp R P)}
    {st st1 : KeyBuf A S Q} {w w1 : World K A (Md S P Q)}
    (h : keyRun cfg truthy a st w = .ok (st1, w1)) : keyRun cfg truthy (a ++ b) st w = keyRun cfg truthy b st1 w1 := by
  induction a generalizing st w with
  | nil =>
    simp only [keyRun, Except.ok.injEq, Prod.mk.injEq] at h
    obtain ⟨rfl, rfl⟩ := h
    rfl
  | cons op a ih =>
    simp only [List.cons_append, keyRun] at h ⊢
    cases hs : keyStep cfg truthy op st w with
    | error e => simp [hs] at h
    | ok r => simp only [hs] at h ⊢; exact ih h

/-- Successive calls, for one key. -/
theorem aggs_key {c : Config K R A S P Q F} (hk : Apart c.keys) {as : List (Call R)} {s s' : State A S P Q}
    {w w' : World K A (Md S P Q)} (h : aggs c as s w = .ok (s', w')) (hl : s.bufs.length = c.keys.length) {i : Nat}
    {k : F × KeyCfg K R A S Q} {b : KeyBuf A S Q} (hi : c.keys[i]? = some k) (hb : s.bufs[i]? = some b) :
    ∃ b' w1, keyRun k.2 c.truthy (keyOpsAll c k.1 as s.restart s.pre) b w = .ok (b', w1) ∧ s'.bufs[i]? = some b' ∧
      Agree k.2 w1 w' := by
  induction as generalizing s w b with
  | nil =>
    simp only [aggs, Except.ok.injEq, Prod.mk.injEq] at h
    obtain ⟨rfl, rfl⟩ := h
    exact ⟨b, w, rfl, hb, fun _ _ => rfl⟩
  | cons a as ih =>
    simp only [aggs] at h
    cases ha : agg c a s w with
    | error e => simp [ha] at h
    | ok x =>
      obtain ⟨s1, w1, e⟩ := x
      simp only [ha] at h
      obtain ⟨h1, h2, ys, exc, h3, h4, -⟩ := agg_idx ha hl
      obtain ⟨b1, w2, e1, e2, e3⟩ := (idxRun_proj hk h1).2.2.2 i k b hi hb
      rw [opsOf_callOps hi] at e1
      obtain ⟨b', w3, e4, e5, e6⟩ := ih h h2 e2
      simp only [keyOpsAll, h3]
      rw [keyRun_append_ok e1, ← h4]
      have := keyRun_local k.2 c.truthy (keyOpsAll c k.1 as s1.restart s1.pre) b1 e3
      rw [e4] at this
      cases hr : keyRun k.2 c.truthy (keyOpsAll c k.1 as s1.restart s1.pre) b1 w2 with
      | error e => rw [hr] at this; exact this.elim
      | ok r =>
        obtain ⟨b2, w4⟩ := r
        rw [hr] at this
        obtain ⟨rfl, a1, -, -⟩ := this
        exact ⟨b2, w4, rfl, e5, fun x hx => (a1 x hx).trans (e6 x hx)⟩

theorem aggs_length {c : Config K R A S P Q F} {as : List (Call R)} {s s' : State A S P Q}
    {w w' : World K A (Md S P Q)} (h : aggs c as s w = .ok (s', w')) (hl : s.bufs.length = c.keys.length) :
    s'.bufs.length = c.keys.length := by
  induction as generalizing s w with
  | nil =>
    simp only [aggs, Except.ok.injEq, Prod.mk.injEq] at h
    rw [← h.1]; exact hl
  | cons a as ih =>
    simp only [aggs] at h
    cases ha : agg c a s w with
    | error e => simp [ha] at h
    | ok x =>
      obtain ⟨s1, w1, e⟩ := x
      simp only [ha] at h
      exact ih h (agg_idx ha hl).2.1

theorem aggs_append {c : Config K R A S P Q F} {as bs : List (Call R)} {s s' : State A S P Q}
    {w w' : World K A (Md S P Q)} (h : aggs c (as ++ bs) s w = .ok (s', w')) :
    ∃ s1 w1, aggs c as s w = .ok (s1, w1) ∧ aggs c bs s1 w1 = .ok (s', w') := by
  induction as generalizing s w with
  | nil => exact ⟨s, w, rfl, h⟩
  | cons a as ih =>
    simp only [List.cons_append, aggs] at h ⊢
    cases ha : agg c a s w with
    | error e => simp [ha] at h
    | ok x => simp only [ha] at h ⊢; exact ih h

/-! ### Frames delivered -/

theorem opRows_chunks (ys : List (Yield F R)) :
    opRows (ys.map fun y => (KOp.chunk y.rows : KOp R P)) = ys.flatMap Yield.rows := by
  induction ys with
  | nil => rfl
  | cons y ys ih => simp [opRows, ih]

theorem opRows_keyOps (c : Config K R A S P Q F) (f : F) (a : Call R) (r : Option Int) (pb : P) :
    opRows (keyOps c f a r pb) =
      delivered f (iterData c.ord r c.pre pb c.filters a.trimStart a.discardLast a.seed).1 := by
  simp only [keyOps]
  rw [opRows_append, opRows_chunks]
  have : ∀ (b : Bool) x y, opRows (if b = true then [(KOp.final x y : KOp R P)] else []) = [] := by
    intro b x y; cases b <;> rfl
  rw [this, List.append_nil]
  rfl

theorem opRows_keyOpsAll (c : Config K R A S P Q F) (f : F) (as : List (Call R)) (r : Option Int) (pb : P) :
    opRows (keyOpsAll c f as r pb) = received c f as r pb := by
  induction as generalizing r pb with
  | nil => rfl
  | cons a as ih =>
    simp only [keyOpsAll, received]
    rw [opRows_append, opRows_keyOps, ih]

theorem maskRows_ne_nil {m : List Bool} {rows : List R} (h : m.any (fun b => b) = true) (hl : m.length ≤ rows.length) :
    maskRows m rows ≠ [] := by
  induction m generalizing rows with
  | nil => simp at h
  | cons b m ih =>
    cases rows with
    | nil => simp at hl
    | cons r rows =>
      cases b with
      | true => simp [maskRows]
      | false =>
        have := ih (rows := rows) (by simpa using h) (by simpa using hl)
        simpa [maskRows] using this

theorem filterLoop_ne_nil {last : Int} {chunk : List R} {mask : List Bool} (hl : mask.length ≤ chunk.length)
    {fs : List (F × Filt R)} {ys : List (Yield F R)} {e : Option IterExc} (h : filterLoop last chunk mask fs = (ys, e)) :
    ∀ y ∈ ys, y.rows ≠ [] := by
  induction fs generalizing ys e with
  | nil => simp only [filterLoop, Prod.mk.injEq] at h; rw [← h.1]; simp
  | cons f fs ih =>
    obtain ⟨id, f⟩ := f
    simp only [filterLoop] at h
    cases hf : filterArray chunk mask f with
    | error e => simp only [hf, Prod.mk.injEq] at h; rw [← h.1]; simp
    | ok m =>
      simp only [hf] at h
      have hm : m.length ≤ chunk.length := by
        cases f with
        | none => simp only [filterArray, Except.ok.injEq] at hf; rw [← hf]; exact hl
        | some g =>
          simp only [filterArray] at hf
          cases hg : g chunk with
          | error e => simp [hg] at hf
          | ok m' =>
            simp only [hg, Except.ok.injEq] at hf
            rw [← hf, List.length_zipWith]
            omega
      split at h
      · rename_i hany
        simp only [Prod.mk.injEq] at h
        rw [← h.1]
        intro y hy
        rcases List.mem_cons.1 hy with rfl | hy
        · exact maskRows_ne_nil hany hm
        · exact ih rfl y hy
      · exact ih h

theorem iterLoop_ne_nil {ord : R → Int} {pre : Option (Pre R P)} {fs : List (F × Filt R)} {discard : Bool}
    {seed : List (List R)} {trim : Option Int} {rem : List R} {pb pb' : P} {ys : List (Yield F R)} {e : Option IterExc}
    (h : iterLoop ord pre fs discard trim rem pb seed = (ys, pb', e)) : ∀ y ∈ ys, y.rows ≠ [] := by
  induction seed generalizing trim rem pb pb' ys e with
  | nil => simp only [iterLoop, Prod.mk.injEq] at h; rw [← h.1]; simp
  | cons c cs ih =>
    simp only [iterLoop] at h
    split at h
    · simp only [Prod.mk.injEq] at h; rw [← h.1]; simp
    · generalize runPre pre c pb = rp at h
      obtain ⟨c1, pb1, b1⟩ := rp
      cases b1 with
      | true => simp only [Prod.mk.injEq] at h; rw [← h.1]; simp
      | false =>
        simp only at h
        cases hx : (rem ++ c1).getLast? with
        | none => simp only [hx, Prod.mk.injEq] at h; rw [← h.1]; simp
        | some x =>
          simp only [hx] at h
          split at h
          · exact ih h
          · generalize hfl : filterLoop (ord x) (rem ++ c1) _ fs = fl at h
            obtain ⟨ys1, e1⟩ := fl
            have h1 := filterLoop_ne_nil (by split <;> simp [List.length_zipWith]) hfl
            cases e1 with
            | some e1 => simp only [Prod.mk.injEq] at h; rw [← h.1]; exact h1
            | none =>
              simp only at h
              generalize hz : iterLoop ord pre fs discard none _ pb1 cs = it at h
              obtain ⟨zs, pb2, e2⟩ := it
              simp only [Prod.mk.injEq] at h
              rw [← h.1]
              intro y hy
              rcases List.mem_append.1 hy with hy | hy
              · exact h1 y hy
              · exact ih hz y hy

theorem keyOps_ok (c : Config K R A S P Q F) (f : F) (a : Call R) (r : Option Int) (pb : P) :
    OpsOk (keyOps c f a r pb) := by
  intro ch hch
  simp only [keyOps] at hch
  generalize hit : iterData c.ord r c.pre pb c.filters a.trimStart a.discardLast a.seed = it at hch
  obtain ⟨ys, pb', e⟩ := it
  simp only at hch
  rcases List.mem_append.1 hch with h | h
  · obtain ⟨y, hy, he⟩ := List.mem_map.1 h
    simp only [KOp.chunk.injEq] at he
    rw [← he]
    exact iterLoop_ne_nil hit y (List.mem_filter.1 hy).1
  · split at h <;> simp at h

theorem keyOpsAll_ok (c : Config K R A S P Q F) (f : F) (as : List (Call R)) (r : Option Int) (pb : P) :
    OpsOk (keyOpsAll c f as r pb) := by
  induction as generalizing r pb with
  | nil => intro ch h; simp [keyOpsAll] at h
  | cons a as ih =>
    intro ch h
    simp only [keyOpsAll] at h
    rcases List.mem_append.1 h with h | h
    · exact keyOps_ok c f a r pb ch h
    · exact ih _ _ ch h

theorem keyOpsAll_append (c : Config K R A S P Q F) (f : F) (as bs : List (Call R)) (r : Option Int) (pb : P) :
    ∃ r' pb', keyOpsAll c f (as ++ bs) r pb = keyOpsAll c f as r pb ++ keyOpsAll c f bs r' pb' := by
  induction as generalizing r pb with
  | nil => exact ⟨r, pb, rfl⟩
  | cons a as ih =>
    obtain ⟨r', pb', h⟩ := ih (restartAfter r (iterData c.ord r c.pre pb c.filters a.trimStart a.discardLast a.seed).1)
      (iterData c.ord r c.pre pb c.filters a.trimStart a.discardLast a.seed).2.1
    refine ⟨r', pb', ?_⟩
    simp only [List.cons_append, keyOpsAll]
    rw [h, List.append_assoc]

/-- The operations end with a final write, if the last call does one. -/
theorem keyOpsAll_final (c : Config K R A S P Q F) (f : F) (as : List (Call R)) {a : Call R} (ha : a.finalWrite = true)
    (r : Option Int) (pb : P) :
    ∃ ops r' pb', keyOpsAll c f (as ++ [a]) r pb = ops ++ [.final r' pb'] := by
  obtain ⟨r1, pb1, h⟩ := keyOpsAll_append c f as [a] r pb
  rw [h]
  simp only [keyOpsAll, keyOps, ha, if_true, List.append_nil, ← List.append_assoc]
  exact ⟨_, _, _, rfl⟩

end
end Oups.AggStream
