import Verif.Model.Filter
import Mathlib.Data.List.Basic
import Mathlib.Tactic.Common
/-! Property C25: `dataframe_filter`. -/
set_option linter.unusedSimpArgs false
namespace Oups.Filter
variable {V : Type}

/-! ### Specification -/

/-- Meaning of one condition on a value `x` of its column. -/
inductive Sat (O : Ops V) (x : V) : String → Arg V → Prop
  | eq {v} : O.eq x v = true → Sat O x "==" (.one v)
  | eq' {v} : O.eq x v = true → Sat O x "=" (.one v)
  | ne {v} : O.eq x v = false → Sat O x "!=" (.one v)
  | gt {v} : O.lt v x = true → Sat O x ">" (.one v)
  | ge {v} : O.le v x = true → Sat O x ">=" (.one v)
  | lt {v} : O.lt x v = true → Sat O x "<" (.one v)
  | le {v} : O.le x v = true → Sat O x "<=" (.one v)
  | mem {l} : (∃ v ∈ l, O.same x v = true) → Sat O x "in" (.many l)
  | notMem {l} : (∀ v ∈ l, O.same x v = false) → Sat O x "not in" (.many l)
  | not {a} : O.truth x = false → Sat O x "~" a

/-- Operators that compare. -/
def cmpOps : List String := ["==", "=", "!=", ">", ">=", "<", "<="]

/-- Conditions that can be evaluated. A list compared with a column has as many items as the frame has rows, or one item. -/
def Meaningful (df : Frame V) (c : Cond V) : Prop :=
  ∃ vs, df.col c.name = some vs ∧
  ((c.op ∈ cmpOps ∧ ((∃ v, c.val = .one v) ∨ ∃ l, c.val = .many l ∧ (l.length = vs.length ∨ l.length = 1))) ∨
   (c.op ∈ ["in", "not in"] ∧ ∃ l, c.val = .many l) ∨ c.op = "~")

/-- What a row `i` is compared with, in a frame of `n` rows: the value of the condition; for a list that is compared, its item at this
row, or its only item. -/
inductive ArgAt (n i : Nat) (op : String) : Arg V → Arg V → Prop
  | one {v} : ArgAt n i op (.one v) (.one v)
  | set {l} : op ∉ cmpOps → ArgAt n i op (.many l) (.many l)
  | row {l v} : op ∈ cmpOps → l.length = n → l[i]? = some v → ArgAt n i op (.many l) (.one v)
  | single {v} : op ∈ cmpOps → ArgAt n i op (.many [v]) (.one v)

/-- Condition `c` holds for row `i`. -/
def RowSat (O : Ops V) (df : Frame V) (i : Nat) (c : Cond V) : Prop :=
  ∃ vs x a, df.col c.name = some vs ∧ vs[i]? = some x ∧ ArgAt vs.length i c.op c.val a ∧ Sat O x c.op a

/-- Exception for a condition that cannot be evaluated: the operator is looked at first, then the column, then the value. -/
inductive Refused (df : Frame V) (c : Cond V) : Err → Prop
  | op : c.op ∉ ["==", "=", "!=", ">", ">=", "<", "<=", "in", "not in", "~"] → Refused df c .valueError
  | col : c.op ∈ ["==", "=", "!=", ">", ">=", "<", "<=", "in", "not in", "~"] → df.col c.name = none → Refused df c .keyError
  | one {vs v} : c.op ∈ ["in", "not in"] → df.col c.name = some vs → c.val = .one v → Refused df c .typeError
  | many {vs l} : c.op ∈ cmpOps → df.col c.name = some vs → c.val = .many l → l.length ≠ vs.length → l.length ≠ 1 →
    Refused df c .valueError

/-! ### Proofs -/

theorem Sat.inv {O : Ops V} {x : V} {op : String} {a : Arg V} (h : Sat O x op a) :
    (∃ v, a = .one v ∧ (((op = "==" ∨ op = "=") ∧ O.eq x v = true) ∨ (op = "!=" ∧ O.eq x v = false) ∨
      (op = ">" ∧ O.lt v x = true) ∨ (op = ">=" ∧ O.le v x = true) ∨ (op = "<" ∧ O.lt x v = true) ∨
      (op = "<=" ∧ O.le x v = true))) ∨
    (∃ l, a = .many l ∧ ((op = "in" ∧ ∃ v ∈ l, O.same x v = true) ∨ (op = "not in" ∧ ∀ v ∈ l, O.same x v = false))) ∨
    (op = "~" ∧ O.truth x = false) := by
  cases h <;> simp_all

theorem opsTable_sat {O : Ops V} {op : String} {f : V → V → Bool} (h : opsTable O op = some f) (x v : V) :
    f x v = true ↔ Sat O x op (.one v) := by
  simp only [opsTable] at h
  repeat' split at h
  all_goals first
    | (cases h; done)
    | skip
  all_goals
    rename_i ho
    first | subst ho | skip
    simp only [Option.some.injEq] at h
    subst h
    constructor
    · intro h
      constructor; simpa using h
    · intro h
      have := h.inv
      simp_all

theorem opsTable_mem {O : Ops V} {op : String} :
    (∃ f, opsTable O op = some f) ↔ op ∈ ["==", "=", "!=", ">", ">=", "<", "<="] := by
  simp only [opsTable, List.mem_cons, List.not_mem_nil, or_false]
  by_cases h1 : op = "=="
  · simp [h1]
  by_cases h2 : op = "="
  · simp [h2]
  by_cases h3 : op = "!="
  · simp [h3]
  by_cases h4 : op = ">"
  · simp [h4]
  by_cases h5 : op = ">="
  · simp [h5]
  by_cases h6 : op = "<"
  · simp [h6]
  by_cases h7 : op = "<="
  · simp [h7]
  simp [h1, h2, h3, h4, h5, h6, h7]

theorem ArgAt.set_eq {n i : Nat} {op : String} {a b : Arg V} (h : ArgAt n i op a b) (ho : op ∉ cmpOps) : a = b := by
  cases h with
  | one => rfl
  | set _ => rfl
  | row h => exact absurd h ho
  | single h => exact absurd h ho

theorem argAt_set {n i : Nat} {op : String} {O : Ops V} {x : V} {a : Arg V} (ho : op ∉ cmpOps) :
    (∃ b, ArgAt n i op a b ∧ Sat O x op b) ↔ Sat O x op a := by
  constructor
  · rintro ⟨b, h1, h2⟩
    rwa [h1.set_eq ho]
  · intro h
    refine ⟨a, ?_, h⟩
    cases a with
    | one v => exact .one
    | many l => exact .set ho

theorem listArray_spec {O : Ops V} {op : String} {f : V → V → Bool} (hf : opsTable O op = some f) (ho : op ∈ cmpOps) (vs l : List V)
    (a : List Bool) (h : listArray f vs l = .ok a) :
    a.length = vs.length ∧ ∀ (i : Nat) (x : V), vs[i]? = some x →
      (a[i]? = some true ↔ ∃ b, ArgAt vs.length i op (.many l) b ∧ Sat O x op b) := by
  have one : ∀ v, a = vs.map (fun x => f x v) → (∀ (i : Nat) (b : Arg V), i < vs.length → (ArgAt vs.length i op (.many l) b ↔ b = .one v)) →
      a.length = vs.length ∧ ∀ (i : Nat) (x : V), vs[i]? = some x →
      (a[i]? = some true ↔ ∃ b, ArgAt vs.length i op (.many l) b ∧ Sat O x op b) := by
    intro v ha hb
    subst ha
    refine ⟨by simp, fun i x hx => ?_⟩
    have hi : i < vs.length := (List.getElem?_eq_some_iff.1 hx).1
    simp only [List.getElem?_map, hx, Option.map_some, Option.some.injEq, hb i _ hi, exists_eq_left]
    exact opsTable_sat hf x v
  unfold listArray at h
  split at h
  · rename_i hl
    simp only [Except.ok.injEq] at h
    subst h
    refine ⟨by simp [hl], fun i x hx => ?_⟩
    have hi : i < vs.length := (List.getElem?_eq_some_iff.1 hx).1
    have hv : l[i]? = some (l[i]'(by omega)) := List.getElem?_eq_getElem (by omega)
    simp only [List.getElem?_zipWith, hx, hv, Option.some.injEq]
    rw [opsTable_sat hf]
    constructor
    · exact fun h => ⟨_, .row ho hl hv, h⟩
    · rintro ⟨b, hb, hs⟩
      cases hb with
      | set h => exact absurd ho h
      | row _ _ h =>
        rw [hv] at h
        cases h
        exact hs
      | single _ =>
        have : i = 0 := by simp at hl; omega
        subst this
        simpa using hs
  · rename_i hl
    split at h
    · rename_i v
      simp only [Except.ok.injEq] at h
      refine one v h.symm fun i b hi => ⟨fun hb => ?_, fun hb => ?_⟩
      · cases hb with
        | set h => exact absurd ho h
        | row _ h => exact absurd h hl
        | single => rfl
      · subst hb; exact .single ho
    · cases h

theorem listArray_ok (f : V → V → Bool) (vs l : List V) :
    (∃ a, listArray f vs l = .ok a) ↔ l.length = vs.length ∨ l.length = 1 := by
  unfold listArray
  split
  · rename_i h; simp [h]
  · rename_i h
    split
    · simp
    · rename_i hn
      have : l.length ≠ 1 := fun h1 => by
        obtain ⟨v, rfl⟩ := List.length_eq_one_iff.1 h1
        exact hn v rfl
      simp [h, this]

theorem listArray_error {f : V → V → Bool} {vs l : List V} {e : Err} (h : listArray f vs l = .error e) :
    e = .valueError ∧ l.length ≠ vs.length ∧ l.length ≠ 1 := by
  have hn : ¬ (l.length = vs.length ∨ l.length = 1) := by
    rw [← listArray_ok f vs l, h]; simp
  rw [not_or] at hn
  refine ⟨?_, hn⟩
  unfold listArray at h
  rw [if_neg hn.1] at h
  split at h
  · cases h
  · cases h; rfl

theorem condArray_spec (O : Ops V) (df : Frame V) (c : Cond V) (a : List Bool) (h : condArray O df c = .ok a) :
    ∃ vs, df.col c.name = some vs ∧ a.length = vs.length ∧
      ∀ (i : Nat) (x : V), vs[i]? = some x → (a[i]? = some true ↔ ∃ b, ArgAt vs.length i c.op c.val b ∧ Sat O x c.op b) := by
  obtain ⟨name, op, val⟩ := c
  cases hc : df.col name with
  | none =>
    exfalso
    simp only [condArray, getCol, hc, bind, Except.bind] at h
    repeat' split at h
    all_goals simp at h
  | some vs =>
    refine ⟨vs, rfl, ?_⟩
    simp only [condArray, getCol, hc, bind, Except.bind] at h
    split at h
    · rename_i ho
      subst ho
      cases val with
      | one v => simp at h
      | many l =>
        simp only [Except.ok.injEq] at h
        subst h
        refine ⟨by simp, fun i x hx => ?_⟩
        rw [argAt_set (by simp [cmpOps])]
        simp only [List.getElem?_map, hx, Option.map_some, Option.some.injEq, List.any_eq_true]
        exact ⟨fun h => .mem h, fun h => by simpa using h.inv⟩
    · split at h
      · rename_i ho
        subst ho
        cases val with
        | one v => simp at h
        | many l =>
          simp only [Except.ok.injEq] at h
          subst h
          refine ⟨by simp, fun i x hx => ?_⟩
          rw [argAt_set (by simp [cmpOps])]
          simp only [List.getElem?_map, hx, Option.map_some, Option.some.injEq, Bool.not_eq_true', List.any_eq_false,
            Bool.not_eq_true]
          exact ⟨fun h => .notMem h, fun h => by simpa using h.inv⟩
      · split at h
        · rename_i f hf
          cases val with
          | many l => exact listArray_spec hf (opsTable_mem.1 ⟨f, hf⟩) vs l a h
          | one v =>
            simp only [Except.ok.injEq] at h
            subst h
            refine ⟨by simp, fun i x hx => ?_⟩
            simp only [List.getElem?_map, hx, Option.map_some, Option.some.injEq]
            rw [opsTable_sat hf x v]
            constructor
            · exact fun h => ⟨_, .one, h⟩
            · rintro ⟨b, hb, hs⟩
              cases hb
              exact hs
        · split at h
          · rename_i ho
            subst ho
            simp only [Except.ok.injEq] at h
            subst h
            refine ⟨by simp, fun i x hx => ?_⟩
            rw [argAt_set (by simp [cmpOps])]
            simp only [List.getElem?_map, hx, Option.map_some, Option.some.injEq, Bool.not_eq_true']
            exact ⟨fun h => .not h, fun h => by simpa using h.inv⟩
          · simp at h

theorem condArray_ok (O : Ops V) (df : Frame V) (c : Cond V) :
    (∃ a, condArray O df c = .ok a) ↔ Meaningful df c := by
  obtain ⟨name, op, val⟩ := c
  have hm := opsTable_mem (O := O) (op := op)
  simp only [Meaningful]
  by_cases h1 : op = "in"
  · subst h1
    cases hc : df.col name <;> cases val <;> simp [condArray, getCol, hc, bind, Except.bind, cmpOps]
  by_cases h2 : op = "not in"
  · subst h2
    cases hc : df.col name <;> cases val <;> simp [condArray, getCol, hc, bind, Except.bind, cmpOps]
  by_cases h3 : op = "~"
  · subst h3
    cases hc : df.col name <;> simp [condArray, getCol, hc, bind, Except.bind, opsTable, cmpOps]
  cases hf : opsTable O op with
  | none =>
    rw [hf] at hm
    have : op ∉ ["==", "=", "!=", ">", ">=", "<", "<="] := fun h => by simpa using hm.2 h
    simp [condArray, h1, h2, h3, hf, show op ∉ cmpOps from this]
  | some f =>
    rw [hf] at hm
    have : op ∈ ["==", "=", "!=", ">", ">=", "<", "<="] := hm.1 ⟨f, rfl⟩
    have this : op ∈ cmpOps := this
    cases hc : df.col name <;> cases val <;> simp [condArray, h1, h2, h3, hf, getCol, hc, bind, Except.bind, this, listArray_ok]

theorem andPart_aux (O : Ops V) (df : Frame V) (hwf : df.WF) (conds : List (Cond V)) (acc a : List Bool)
    (hacc : acc.length = df.len)
    (h : conds.foldlM (fun acc c => do
      let a ← condArray O df c
      .ok (List.zipWith (· && ·) acc a)) acc = .ok a) :
    a.length = df.len ∧ ∀ i : Nat, a[i]? = some true ↔ acc[i]? = some true ∧ ∀ c ∈ conds, RowSat O df i c := by
  induction conds generalizing acc with
  | nil =>
    simp only [List.foldlM_nil, pure, Except.pure, Except.ok.injEq] at h
    subst h
    exact ⟨hacc, fun i => by simp⟩
  | cons c conds ih =>
    rw [List.foldlM_cons] at h
    cases hca : condArray O df c with
    | error e => simp [hca, bind, Except.bind] at h
    | ok b =>
      rw [hca] at h
      simp only [bind, Except.bind] at h ih
      obtain ⟨vs, hvs, hbl, hb⟩ := condArray_spec O df c b hca
      have hlen := hwf _ _ hvs
      obtain ⟨h1, h2⟩ := ih (List.zipWith (· && ·) acc b) (by simp [hacc, hbl, hlen]) h
      refine ⟨h1, fun i => ?_⟩
      rw [h2 i]
      have key : (List.zipWith (· && ·) acc b)[i]? = some true ↔ acc[i]? = some true ∧ RowSat O df i c := by
        rw [List.getElem?_zipWith]
        by_cases hi : i < df.len
        · have e1 : acc[i]? = some acc[i] := List.getElem?_eq_getElem (by omega)
          have e2 : b[i]? = some b[i] := List.getElem?_eq_getElem (by omega)
          have e3 : vs[i]? = some vs[i] := List.getElem?_eq_getElem (by omega)
          have hb' := hb i _ e3
          rw [e2] at hb'
          rw [e1, e2]
          simp only [Option.some.injEq, Bool.and_eq_true] at hb' ⊢
          rw [hb']
          refine and_congr_right fun _ => ⟨fun ⟨a, ha, h⟩ => ⟨vs, _, a, hvs, e3, ha, h⟩, ?_⟩
          rintro ⟨vs', x, a, h1, h2, h3⟩
          rw [hvs] at h1; cases h1
          rw [e3] at h2; cases h2
          exact ⟨a, h3⟩
        · have e1 : acc[i]? = none := List.getElem?_eq_none (by omega)
          simp [e1]
      rw [key]
      simp [and_assoc]

theorem andPart_spec (O : Ops V) (df : Frame V) (hwf : df.WF) (conds : List (Cond V)) (a : List Bool)
    (h : andPart O df conds = .ok a) :
    a.length = df.len ∧ ∀ i : Nat, a[i]? = some true ↔ i < df.len ∧ ∀ c ∈ conds, RowSat O df i c := by
  obtain ⟨h1, h2⟩ := andPart_aux O df hwf conds _ a (by simp) h
  refine ⟨h1, fun i => ?_⟩
  rw [h2 i]
  simp [List.getElem?_replicate]

theorem orPart_aux (O : Ops V) (df : Frame V) (hwf : df.WF) (parts : List (List (Cond V))) (acc a : List Bool)
    (hacc : acc.length = df.len)
    (h : parts.foldlM (fun acc conds => do
      let a ← andPart O df conds
      .ok (List.zipWith (· || ·) acc a)) acc = .ok a) :
    a.length = df.len ∧ ∀ i : Nat, a[i]? = some true ↔
      acc[i]? = some true ∨ (i < df.len ∧ ∃ conds ∈ parts, ∀ c ∈ conds, RowSat O df i c) := by
  induction parts generalizing acc with
  | nil =>
    simp only [List.foldlM_nil, pure, Except.pure, Except.ok.injEq] at h
    subst h
    exact ⟨hacc, fun i => by simp⟩
  | cons p parts ih =>
    rw [List.foldlM_cons] at h
    cases hca : andPart O df p with
    | error e => simp [hca, bind, Except.bind] at h
    | ok b =>
      rw [hca] at h
      simp only [bind, Except.bind] at h ih
      obtain ⟨hbl, hb⟩ := andPart_spec O df hwf p b hca
      obtain ⟨h1, h2⟩ := ih (List.zipWith (· || ·) acc b) (by simp [hacc, hbl]) h
      refine ⟨h1, fun i => ?_⟩
      rw [h2 i]
      have key : (List.zipWith (· || ·) acc b)[i]? = some true ↔
          acc[i]? = some true ∨ (i < df.len ∧ ∀ c ∈ p, RowSat O df i c) := by
        rw [← hb i, List.getElem?_zipWith]
        by_cases hi : i < df.len
        · have e1 : acc[i]? = some acc[i] := List.getElem?_eq_getElem (by omega)
          have e2 : b[i]? = some b[i] := List.getElem?_eq_getElem (by omega)
          rw [e1, e2]
          simp
        · have e1 : acc[i]? = none := List.getElem?_eq_none (by omega)
          have e2 : b[i]? = none := List.getElem?_eq_none (by omega)
          simp [e1, e2]
      rw [key]
      simp only [List.mem_cons, exists_eq_or_imp]
      tauto

theorem foldlM_ok {α β : Type} (f : α → β → Except Err α) (l : List β) (P : β → Prop)
    (hf : ∀ b ∈ l, (∀ a, ∃ a', f a b = .ok a') ∨ ∀ a, ∃ e, f a b = .error e)
    (hP : ∀ b ∈ l, ∀ a, (∃ a', f a b = .ok a') ↔ P b) (a : α) :
    (∃ r, l.foldlM f a = .ok r) ↔ ∀ b ∈ l, P b := by
  induction l generalizing a with
  | nil => simp [pure, Except.pure]
  | cons b l ih =>
    rw [List.foldlM_cons]
    simp only [List.mem_cons, forall_eq_or_imp] at hf hP ⊢
    rw [← hP.1 a]
    cases hfa : f a b with
    | error e => simp [bind, Except.bind]
    | ok a' =>
      simp only [bind, Except.bind]
      rw [ih hf.2 hP.2 a']
      simp

theorem andPart_ok (O : Ops V) (df : Frame V) (conds : List (Cond V)) :
    (∃ a, andPart O df conds = .ok a) ↔ ∀ c ∈ conds, Meaningful df c := by
  have key : ∀ c acc, (∃ a', (do
      let a ← condArray O df c
      .ok (List.zipWith (· && ·) acc a) : Except Err (List Bool)) = .ok a') ↔ Meaningful df c := by
    intro c acc
    rw [← condArray_ok O df c]
    cases condArray O df c <;> simp [bind, Except.bind]
  refine foldlM_ok _ conds (Meaningful df) (fun c _ => ?_) (fun c _ acc => key c acc) _
  cases hc : condArray O df c with
  | error e => right; intro a; exact ⟨e, rfl⟩
  | ok b => left; intro a; exact ⟨_, rfl⟩

theorem condArray_error (O : Ops V) (df : Frame V) (c : Cond V) {e : Err} (h : condArray O df c = .error e) :
    Refused df c e := by
  obtain ⟨name, op, val⟩ := c
  have hm := opsTable_mem (O := O) (op := op)
  by_cases h1 : op = "in"
  · subst h1
    cases hc : df.col name with
    | none =>
      simp [condArray, getCol, hc, bind, Except.bind] at h
      subst h; exact .col (by simp) hc
    | some vs =>
      cases val with
      | one v => simp [condArray, getCol, hc, bind, Except.bind] at h; subst h; exact .one (by simp) hc rfl
      | many l => simp [condArray, getCol, hc, bind, Except.bind] at h
  by_cases h2 : op = "not in"
  · subst h2
    cases hc : df.col name with
    | none =>
      simp [condArray, getCol, hc, bind, Except.bind] at h
      subst h; exact .col (by simp) hc
    | some vs =>
      cases val with
      | one v => simp [condArray, getCol, hc, bind, Except.bind] at h; subst h; exact .one (by simp) hc rfl
      | many l => simp [condArray, getCol, hc, bind, Except.bind] at h
  by_cases h3 : op = "~"
  · subst h3
    cases hc : df.col name with
    | none =>
      simp [condArray, getCol, hc, bind, Except.bind, opsTable] at h
      subst h; exact .col (by simp) hc
    | some vs => simp [condArray, getCol, hc, bind, Except.bind, opsTable] at h
  cases hf : opsTable O op with
  | none =>
    rw [hf] at hm
    have : op ∉ ["==", "=", "!=", ">", ">=", "<", "<="] := fun h => by simpa using hm.2 h
    simp [condArray, h1, h2, h3, hf] at h
    subst h
    refine .op ?_
    simp only [List.mem_cons, List.not_mem_nil, or_false, not_or] at this ⊢
    tauto
  | some f =>
    rw [hf] at hm
    have : op ∈ ["==", "=", "!=", ">", ">=", "<", "<="] := hm.1 ⟨f, rfl⟩
    cases hc : df.col name with
    | none =>
      simp [condArray, h1, h2, h3, hf, getCol, hc, bind, Except.bind] at h
      subst h
      refine .col ?_ hc
      simp only [List.mem_cons, List.not_mem_nil, or_false] at this ⊢
      tauto
    | some vs =>
      cases val with
      | one v => simp [condArray, h1, h2, h3, hf, getCol, hc, bind, Except.bind] at h
      | many l =>
        simp [condArray, h1, h2, h3, hf, getCol, hc, bind, Except.bind] at h
        obtain ⟨rfl, h4, h5⟩ := listArray_error h
        exact .many this hc rfl h4 h5

theorem foldlM_error {α β : Type} (f : α → β → Except Err α) (l : List β) (a : α) {e : Err}
    (h : l.foldlM f a = .error e) : ∃ pre b post a1, l = pre ++ b :: post ∧ pre.foldlM f a = .ok a1 ∧ f a1 b = .error e := by
  induction l generalizing a with
  | nil => simp [pure, Except.pure] at h
  | cons b l ih =>
    rw [List.foldlM_cons] at h
    cases hfa : f a b with
    | error e' =>
      rw [hfa] at h
      simp only [bind, Except.bind, Except.error.injEq] at h
      subst h
      exact ⟨[], b, l, a, rfl, rfl, hfa⟩
    | ok a' =>
      rw [hfa] at h
      obtain ⟨pre, b', post, a1, h1, h2, h3⟩ := ih a' h
      refine ⟨b :: pre, b', post, a1, by rw [h1]; rfl, ?_, h3⟩
      rw [List.foldlM_cons, hfa]
      exact h2

theorem andPart_error (O : Ops V) (df : Frame V) {conds : List (Cond V)} {e : Err} (h : andPart O df conds = .error e) :
    ∃ pre c post, conds = pre ++ c :: post ∧ (∀ x ∈ pre, Meaningful df x) ∧ Refused df c e := by
  obtain ⟨pre, c, post, a1, h1, h2, h3⟩ := foldlM_error _ _ _ h
  refine ⟨pre, c, post, h1, (andPart_ok O df pre).1 ⟨a1, h2⟩, condArray_error O df c ?_⟩
  cases hc : condArray O df c with
  | ok a => simp [hc, bind, Except.bind] at h3
  | error e' => simpa [hc, bind, Except.bind] using h3

/-! ### C25 -/

/-- **C25** The filter keeps a row if and only if all conditions of some inner list hold for that row: no other row
matters. -/
theorem C25_rows {O : Ops V} {df : Frame V} (hwf : df.WF) {fs : List (List (Cond V))} {out : List Bool}
    (h : dataframeFilter O df (.nested fs) = .ok out) :
    out.length = df.len ∧
    ∀ i, i < df.len → (out[i]? = some true ↔ ∃ conds ∈ fs, ∀ c ∈ conds, RowSat O df i c) := by
  cases fs with
  | nil => simp [dataframeFilter] at h
  | cons p ps =>
    obtain ⟨h1, h2⟩ := orPart_aux O df hwf (p :: ps) _ out (by simp) h
    refine ⟨h1, fun i hi => ?_⟩
    rw [h2 i]
    simp [List.getElem?_replicate, hi]

/-- **C25** The filter is refused if and only if there is no inner list, or a condition, wherever it is, has an
unknown operator, an unknown column or a value the operator cannot use. -/
theorem C25_accepts {O : Ops V} {df : Frame V} {fs : List (List (Cond V))} :
    (∃ out, dataframeFilter O df (.nested fs) = .ok out) ↔
      fs ≠ [] ∧ ∀ conds ∈ fs, ∀ c ∈ conds, Meaningful df c := by
  cases fs with
  | nil => simp [dataframeFilter]
  | cons p ps =>
    simp only [ne_eq, reduceCtorEq, not_false_eq_true, true_and]
    have key : ∀ conds acc, (∃ a', (do
        let a ← andPart O df conds
        .ok (List.zipWith (· || ·) acc a) : Except Err (List Bool)) = .ok a') ↔ ∀ c ∈ conds, Meaningful df c := by
      intro conds acc
      rw [← andPart_ok O df conds]
      cases andPart O df conds <;> simp [bind, Except.bind]
    refine foldlM_ok _ (p :: ps) (fun conds => ∀ c ∈ conds, Meaningful df c) (fun conds _ => ?_)
      (fun conds _ acc => key conds acc) _
    cases hc : andPart O df conds with
    | error e => right; intro a; exact ⟨e, rfl⟩
    | ok b => left; intro a; exact ⟨_, rfl⟩

/-- **C25** The exception is that of the first condition that cannot be evaluated, in the order they are written: `ValueError`
for an unknown operator, `KeyError` for an unknown column, `TypeError` for a value the operator cannot use. -/
theorem C25_errors {O : Ops V} {df : Frame V} {fs : List (List (Cond V))} (hne : fs ≠ []) {e : Err}
    (h : dataframeFilter O df (.nested fs) = .error e) :
    ∃ pre c post, fs.flatten = pre ++ c :: post ∧ (∀ x ∈ pre, Meaningful df x) ∧ Refused df c e := by
  cases fs with
  | nil => exact absurd rfl hne
  | cons p ps =>
    simp only [dataframeFilter] at h
    obtain ⟨pre, conds, post, a1, h1, h2, h3⟩ := foldlM_error _ _ _ h
    have h4 : andPart O df conds = .error e := by
      cases hc : andPart O df conds with
      | ok a => simp [hc, bind, Except.bind] at h3
      | error e' => simpa [hc, bind, Except.bind] using h3
    obtain ⟨pre', c, post', g1, g2, g3⟩ := andPart_error O df h4
    refine ⟨pre.flatten ++ pre', c, post' ++ post.flatten, by rw [h1, g1]; simp, fun x hx => ?_, g3⟩
    rcases List.mem_append.1 hx with hx | hx
    · obtain ⟨l, hl, hx⟩ := List.mem_flatten.1 hx
      cases hpre : pre with
      | nil => rw [hpre] at hl; simp at hl
      | cons q qs =>
        rw [hpre] at h2 hl
        exact (C25_accepts (O := O) (fs := q :: qs)).1 ⟨a1, h2⟩ |>.2 l hl x hx
    · exact g2 x hx

/-- **C25** A list of conditions without inner list is refused with `ValueError`, an empty list with `IndexError`. -/
theorem C25_flat {O : Ops V} {df : Frame V} :
    (∀ c l, dataframeFilter O df (.flat (c :: l)) = .error .valueError) ∧
    dataframeFilter O df (.flat []) = .error .indexError ∧ dataframeFilter O df (.nested []) = .error .indexError :=
  ⟨fun _ _ => rfl, rfl, rfl⟩

/-- Integers. -/
def exOps : Ops Int := ⟨fun a b => a = b, fun a b => a < b, fun a b => a ≤ b, fun a b => a = b, fun a => a ≠ 0⟩

def exFrame : Frame Int := ⟨4, fun c => if c = "a" then some [1, 2, 3, 4] else if c = "b" then some [0, 1, 0, 1] else none⟩

example : exFrame.WF := by
  intro c vs h
  simp only [exFrame] at h
  repeat' split at h
  all_goals first | (cases h; rfl) | cases h

example : dataframeFilter exOps exFrame
    (.nested [[⟨"a", ">", .one 1⟩, ⟨"b", "~", .one 0⟩], [⟨"a", "in", .many [4, 7]⟩]]) =
    .ok [false, false, true, true] := by decide

example : dataframeFilter exOps exFrame (.nested [[⟨"a", ">", .one 1⟩], [⟨"a", "=>", .one 7⟩]]) = .error .valueError := by
  decide

-- one condition of each kind refused; the first one in the list decides
example : dataframeFilter exOps exFrame (.nested [[⟨"z", ">", .one 1⟩], [⟨"a", "=>", .one 7⟩]]) = .error .keyError ∧
    dataframeFilter exOps exFrame (.nested [[⟨"a", "in", .one 1⟩]]) = .error .typeError ∧
    dataframeFilter exOps exFrame (.nested [[⟨"a", "not in", .one 1⟩], [⟨"z", ">", .one 1⟩]]) = .error .typeError ∧
    dataframeFilter exOps exFrame (.nested [[⟨"a", "<", .one 1⟩, ⟨"a", "==", .many [1, 2]⟩]]) = .error .valueError := by
  decide

-- lists compared row by row, and lists of one item
example : dataframeFilter exOps exFrame (.nested [[⟨"a", "==", .many [1, 7, 3, 0]⟩]]) = .ok [true, false, true, false] ∧
    dataframeFilter exOps exFrame (.nested [[⟨"a", ">=", .many [3]⟩]]) = .ok [false, false, true, true] := by
  decide

/-- **C25** (finding) A comparison with a list of values is not a membership test: whether it is accepted depends on the number of rows
of the frame, and whether it holds on the position of the row. The same row is kept alone, then refused, then left out. -/
theorem C25_list_fails :
    let keep (rows : List Int) := dataframeFilter exOps ⟨rows.length, fun c => if c = "a" then some rows else none⟩
      (.nested [[⟨"a", "==", .many [1, 2]⟩]])
    keep [1, 2] = .ok [true, true] ∧ keep [2, 1] = .ok [false, false] ∧ keep [1, 2, 3] = .error .valueError := by
  decide

end Oups.Filter
