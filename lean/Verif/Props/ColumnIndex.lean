import Verif.Model.ColumnIndex
import Mathlib.Data.List.Basic
import Mathlib.Data.List.Nodup
import Mathlib.Order.Lattice
import Mathlib.Tactic.Common
/-! Properties C26 and C57: column multi-indexes. -/
set_option linter.unusedSimpArgs false
namespace Oups.ColumnIndex

theorem toStr_eq_iff (v : Val) : v.toStr = v ↔ v.isStr = true := by
  cases v <;> simp [Val.toStr, Val.isStr]

theorem toStr_isStr (v : Val) : v.toStr.isStr = true := by
  cases v <;> rfl

theorem map_toStr_eq_iff (l : List Val) : l.map Val.toStr = l ↔ ∀ v ∈ l, v.isStr = true := by
  induction l with
  | nil => simp
  | cons v l ih => simp [toStr_eq_iff, ih]

/-- All values of the column names are strings and all levels are named: what the parquet library requires. -/
def Writable (m : MIdx) : Prop :=
  (∀ n ∈ m.names, n ≠ none) ∧ ∀ level ∈ m.levels, ∀ v ∈ level, ∃ s, v = .str s

theorem isStr_iff (v : Val) : v.isStr = true ↔ ∃ s, v = .str s := by
  cases v <;> simp [Val.isStr]

theorem checkCmidx_iff (m : MIdx) : checkCmidx m = .ok () ↔ Writable m := by
  simp only [checkCmidx, Writable]
  by_cases h : none ∈ m.names
  · simp only [h, if_true, reduceCtorEq, false_iff]
    rintro ⟨h', _⟩
    exact h' _ h rfl
  · have h' : ∀ n ∈ m.names, n ≠ none := fun n hn e => h (e ▸ hn)
    simp only [h, if_false]
    by_cases h2 : (m.levels.any fun level => level.any fun v => !v.isStr) = true
    · simp only [h2, if_true, reduceCtorEq, false_iff]
      rintro ⟨_, h3⟩
      simp only [List.any_eq_true, Bool.not_eq_true'] at h2
      obtain ⟨l, hl, v, hv, hs⟩ := h2
      rw [(isStr_iff v).2 (h3 l hl v hv)] at hs
      cases hs
    · simp only [h2, if_false, true_iff, Bool.false_eq_true]
      refine ⟨h', fun l hl v hv => ?_⟩
      simp only [List.any_eq_true, Bool.not_eq_true', not_exists, not_and] at h2
      exact (isStr_iff v).1 (by simpa using h2 l hl v hv)

/-- The index after `conform_cmidx`, when it succeeds. -/
theorem conform_ok {m m' : MIdx} (h : conformCmidx m = (m', none)) :
    m'.names = m.names.map (fun n => some (n.getD "")) ∧ m'.codes = m.codes ∧
      m'.levels = m.levels.map (·.map Val.toStr) := by
  have hn : (if none ∈ m.names then { m with names := m.names.map fun n => some (n.getD "") } else m : MIdx) =
      { m with names := m.names.map fun n => some (n.getD "") } := by
    split
    · rfl
    · rename_i hno
      have : m.names.map (fun n => some (n.getD "")) = m.names := by
        conv_rhs => rw [← List.map_id m.names]
        refine List.map_congr_left fun n hn => ?_
        cases n with
        | none => exact absurd hn hno
        | some s => rfl
      rw [this]
  simp only [conformCmidx, hn] at h
  split at h
  · split at h
    · simp at h
    · simp only [Prod.mk.injEq, and_true] at h
      subst h
      refine ⟨rfl, rfl, ?_⟩
      simp only [List.map_map]
      refine List.map_congr_left fun l _ => ?_
      simp only [Function.comp]
      split
      · rfl
      · rename_i h; push Not at h; exact h
  · rename_i hno
    simp only [Prod.mk.injEq, and_true] at h
    subst h
    refine ⟨rfl, rfl, ?_⟩
    simp only [List.any_map, List.any_eq_true, Function.comp, decide_eq_true_eq, not_exists, not_and, not_not] at hno
    conv_lhs => rw [← List.map_id m.levels]
    exact List.map_congr_left fun l hl => hno l hl

/-- **C26** After a successful `conform_cmidx`, the check done by the writer passes. -/
theorem C26_writable {m m' : MIdx} (h : conformCmidx m = (m', none)) : checkCmidx m' = .ok () := by
  obtain ⟨h1, _, h3⟩ := conform_ok h
  rw [checkCmidx_iff]
  refine ⟨?_, ?_⟩
  · rw [h1]; simp
  · rw [h3]
    intro level hl v hv
    obtain ⟨l, _, rfl⟩ := List.mem_map.1 hl
    obtain ⟨w, _, rfl⟩ := List.mem_map.1 hv
    exact (isStr_iff _).1 (toStr_isStr w)

/-- **C26** The writer refuses other column indexes: `ValueError` for a level without name, otherwise `TypeError` for a value
that is not a string. -/
theorem C26_refused (m : MIdx) : checkCmidx m = .ok () ∧ Writable m ∨
    checkCmidx m = .error .valueError ∧ (∃ n ∈ m.names, n = none) ∨
    checkCmidx m = .error .typeError ∧ (∀ n ∈ m.names, n ≠ none) ∧ ∃ level ∈ m.levels, ∃ v ∈ level, ¬ ∃ s, v = .str s := by
  by_cases hn : none ∈ m.names
  · exact .inr (.inl ⟨by simp [checkCmidx, hn], none, hn, rfl⟩)
  · have hn' : ∀ n ∈ m.names, n ≠ none := fun n h e => hn (e ▸ h)
    by_cases h2 : (m.levels.any fun level => level.any fun v => !v.isStr) = true
    · refine .inr (.inr ⟨by simp only [checkCmidx, hn, if_false, h2, if_true], hn', ?_⟩)
      simp only [List.any_eq_true, Bool.not_eq_true'] at h2
      obtain ⟨l, hl, v, hv, hs⟩ := h2
      exact ⟨l, hl, v, hv, fun h => by rw [(isStr_iff v).2 h] at hs; cases hs⟩
    · have h3 : checkCmidx m = .ok () := by simp only [checkCmidx, hn, if_false, h2]; rfl
      exact .inl ⟨h3, (checkCmidx_iff m).1 h3⟩

-- each exception
example : checkCmidx ⟨[some "a", none], [[.str "x"], [.obj 1 "2.5"]], [[some 0, some 0]]⟩ = .error .valueError ∧
    checkCmidx ⟨[some "a", some "b"], [[.str "x"], [.obj 1 "2.5"]], [[some 0, some 0]]⟩ = .error .typeError := by decide

/-- **C26** What complied is left unchanged: names of levels, and, column by column, values that are strings;
a missing level name becomes '', another value becomes its text. -/
theorem C26_only_needed {m m' : MIdx} (h : conformCmidx m = (m', none)) :
    m'.names = m.names.map (fun n => match n with | some s => some s | none => some "") ∧
    m'.columns = m.columns.map (·.map (·.map Val.toStr)) := by
  obtain ⟨h1, h2, h3⟩ := conform_ok h
  constructor
  · rw [h1]
    refine List.map_congr_left fun n _ => ?_
    cases n <;> rfl
  · simp only [MIdx.columns, h2, List.map_map]
    refine List.map_congr_left fun code _ => ?_
    simp only [MIdx.column, h3, Function.comp]
    rw [List.map_zipWith, List.zipWith_map_left]
    congr 1
    funext l c
    cases c with
    | none => rfl
    | some i => simp

/-- **C26** Applying it twice changes nothing more; a frame that already complies is left as it is. -/
theorem C26_idempotent {m m' : MIdx} (h : conformCmidx m = (m', none)) : conformCmidx m' = (m', none) := by
  obtain ⟨h1, _, h3⟩ := conform_ok h
  have hw := (checkCmidx_iff m').1 (C26_writable h)
  have hno : none ∉ m'.names := fun hn => hw.1 _ hn rfl
  have hl : (m'.levels.map fun level => (level, level.map Val.toStr)).any (fun p => p.1 ≠ p.2) = false := by
    simp only [List.any_map, List.any_eq_false, Function.comp, decide_eq_true_eq, not_not]
    intro l hl
    exact ((map_toStr_eq_iff l).2 fun v hv => (isStr_iff v).2 (hw.2 l hl v hv)).symm
  simp only [conformCmidx, if_neg hno, hl, Bool.false_eq_true, if_false]

/-- **C26** It fails only if two different values of a level have the same text. -/
theorem C26_succeeds {m : MIdx} (hd : ∀ level ∈ m.levels, (level.map Val.toStr).Nodup) :
    ∃ m', conformCmidx m = (m', none) := by
  have hl : (if none ∈ m.names then { m with names := m.names.map fun n => some (n.getD "") } else m : MIdx).levels =
      m.levels := by split <;> rfl
  have hc : (m.levels.map fun level => (level, level.map Val.toStr)).any
      (fun p => p.1 ≠ p.2 ∧ ¬ p.2.Nodup) = false := by
    simp only [List.any_map, List.any_eq_false, Function.comp, decide_eq_true_eq, not_and, not_not]
    exact fun l hl _ => hd l hl
  simp only [conformCmidx, hl, hc, Bool.false_eq_true, if_false]
  generalize (m.levels.map fun level => (level, level.map Val.toStr)).any (fun p => decide (p.1 ≠ p.2)) = b
  cases b <;> exact ⟨_, rfl⟩

example : conformCmidx ⟨[some "a", none], [[.str "x", .obj 0 "1"], [.obj 1 "2.5"]], [[some 0, some 0], [some 1, some 0]]⟩ =
    (⟨[some "a", some ""], [[.str "x", .str "1"], [.str "2.5"]], [[some 0, some 0], [some 1, some 0]]⟩, none) := by decide

/-- **C26** fails for column names 1 and '1' in the same level: an exception is raised. -/
theorem C26_collision_fails :
    (conformCmidx ⟨[some "a"], [[.obj 0 "1", .str "1"]], [[some 0], [some 1]]⟩).2 = some .valueError := by decide

/-- **C26** Exactly when it fails (values of a level being distinct): two values of a level have the same text. It is then with
`ValueError`, the missing names of levels being already replaced, and columns being as they were. -/
theorem C26_fails_iff {m : MIdx} (hd : ∀ level ∈ m.levels, level.Nodup) :
    ((conformCmidx m).2 ≠ none ↔ ∃ level ∈ m.levels, ∃ v ∈ level, ∃ w ∈ level, v ≠ w ∧ v.toStr = w.toStr) ∧
    ((conformCmidx m).2 ≠ none → (conformCmidx m).2 = some .valueError ∧ (conformCmidx m).1.columns = m.columns ∧
      (conformCmidx m).1.names = m.names.map (fun n => match n with | some s => some s | none => some "")) := by
  have hno : (∀ level ∈ m.levels, (level.map Val.toStr).Nodup) ∨ ¬ ∀ level ∈ m.levels, (level.map Val.toStr).Nodup :=
    Classical.em _
  rcases hno with h | h
  · obtain ⟨m', hm⟩ := C26_succeeds h
    rw [hm]
    refine ⟨⟨fun h => absurd rfl h, ?_⟩, fun h => absurd rfl h⟩
    rintro ⟨l, hl, v, hv, w, hw, hne, he⟩
    exact absurd (List.inj_on_of_nodup_map (h l hl) hv hw he) hne
  · push Not at h
    obtain ⟨l, hl, hn⟩ := h
    have hm : ∃ v ∈ l, ∃ w ∈ l, v ≠ w ∧ v.toStr = w.toStr := by
      by_contra hc
      push Not at hc
      refine hn ((List.nodup_map_iff_inj_on (hd l hl)).2 fun v hv w hw he => ?_)
      by_contra hne
      exact hc v hv w hw hne he
    have hlv : (if none ∈ m.names then { m with names := m.names.map fun n => some (n.getD "") } else m : MIdx).levels =
        m.levels := by split <;> rfl
    have hlne : l ≠ l.map Val.toStr := fun e => hn (e ▸ hd l hl)
    have hc1 : (m.levels.map fun level => (level, level.map Val.toStr)).any (fun p => p.1 ≠ p.2) = true :=
      List.any_eq_true.2 ⟨_, List.mem_map.2 ⟨l, hl, rfl⟩, by simpa using hlne⟩
    have hc2 : (m.levels.map fun level => (level, level.map Val.toStr)).any (fun p => p.1 ≠ p.2 ∧ ¬ p.2.Nodup) = true :=
      List.any_eq_true.2 ⟨_, List.mem_map.2 ⟨l, hl, rfl⟩, by simpa using ⟨hlne, hn⟩⟩
    simp only [conformCmidx, hlv, hc1, hc2, if_true]
    refine ⟨⟨fun _ => ⟨l, hl, hm⟩, fun _ => by simp⟩, fun _ => ⟨trivial, ?_, ?_⟩⟩
    · split <;> rfl
    · split
      · exact List.map_congr_left fun n _ => by cases n <;> rfl
      · rename_i hno
        conv_lhs => rw [← List.map_id m.names]
        refine List.map_congr_left fun n hn => ?_
        cases n with
        | none => exact absurd hn hno
        | some s => rfl

example : conformCmidx ⟨[some "a", none], [[.obj 0 "1", .str "1"], [.str "x"]], [[some 0, some 0], [some 1, some 0]]⟩ =
    (⟨[some "a", some ""], [[.obj 0 "1", .str "1"], [.str "x"]], [[some 0, some 0], [some 1, some 0]]⟩, some .valueError) := by decide

/-! ### C57 -/

theorem evalNames_ok {eval : String → Eval} {idx : List String} {tup : String → List Val}
    (h : ∀ s ∈ idx, eval s = .seq (tup s)) (mx : Nat) :
    evalNames eval idx mx = .ok (idx.map tup, max (maxLen (idx.map tup)) mx) := by
  induction idx generalizing mx with
  | nil => simp [evalNames, maxLen]
  | cons s idx ih =>
    simp only [evalNames, h s (by simp), ih (fun t ht => h t (by simp [ht]))]
    simp only [List.map_cons, maxLen, List.foldr_cons, Except.ok.injEq, Prod.mk.injEq, true_and]
    omega

theorem le_maxLen {ts : List (List Val)} {t : List Val} (h : t ∈ ts) : t.length ≤ maxLen ts := by
  induction ts with
  | nil => simp at h
  | cons a ts ih =>
    simp only [maxLen, List.map_cons, List.foldr_cons]
    rcases List.mem_cons.1 h with rfl | h
    · exact le_max_left _ _
    · exact le_trans (ih h) (le_max_right _ _)

theorem maxLen_const {ts : List (List Val)} {n : Nat} (h : ∀ t ∈ ts, t.length = n) (hne : ts ≠ []) : maxLen ts = n := by
  induction ts with
  | nil => exact absurd rfl hne
  | cons a ts ih =>
    simp only [maxLen, List.map_cons, List.foldr_cons]
    have ha := h a (by simp)
    by_cases hts : ts = []
    · subst hts; simp [ha]
    · have := ih (fun t ht => h t (by simp [ht])) hts
      rw [maxLen] at this
      rw [this, ha, Nat.max_self]

/-- **C57** When every column name is the text of a tuple, the columns are these tuples, shorter ones being
completed with empty strings; level names are the given ones followed by generic ones. Names given in excess
are refused. -/
theorem C57_tuples {eval : String → Eval} {idx : List String} {tup : String → List Val} {levels : Option (List String)}
    (h : ∀ s ∈ idx, eval s = .seq (tup s)) (hne : idx ≠ []) (n : Nat)
    (hn : ∀ s ∈ idx, (tup s).length ≤ n) (hn' : ∃ s ∈ idx, (tup s).length = n) :
    (((levels.getD []).length ≤ n →
      (toMidx eval idx levels).1 =
        .ok (levels.getD [] ++ (List.range' (levels.getD []).length (n - (levels.getD []).length)).map
              (fun i => "l" ++ toString i),
          idx.map fun s => (tup s ++ List.replicate (n - (tup s).length) (Val.str "")).map some))) ∧
    (n < (levels.getD []).length → (toMidx eval idx levels).1 = .error .valueError) := by
  have hmx : maxLen (idx.map tup) = n := by
    obtain ⟨s, hs, hl⟩ := hn'
    refine le_antisymm ?_ (hl ▸ le_maxLen (List.mem_map.2 ⟨s, hs, rfl⟩))
    clear hl hs h hne
    induction idx with
    | nil => simp [maxLen]
    | cons a idx ih =>
      simp only [maxLen, List.map_cons, List.foldr_cons]
      exact max_le (hn a (by simp)) (ih (fun t ht => hn t (by simp [ht])))
  have hts : (idx.map tup).map (fun t => if n - t.length ≠ 0 then t ++ List.replicate (n - t.length) (Val.str "") else t) =
      idx.map fun s => tup s ++ List.replicate (n - (tup s).length) (.str "") := by
    rw [List.map_map]
    refine List.map_congr_left fun s hs => ?_
    simp only [Function.comp]
    split
    · rfl
    · rename_i h0; push Not at h0; rw [h0]; simp
  have hml : maxLen (idx.map fun s => tup s ++ List.replicate (n - (tup s).length) (.str "")) = n := by
    refine maxLen_const ?_ (by simpa using hne)
    intro t ht
    obtain ⟨s, hs, rfl⟩ := List.mem_map.1 ht
    have := hn s hs
    simp; omega
  have hnn : (idx.map fun s => tup s ++ List.replicate (n - (tup s).length) (Val.str "")) ≠ [] := by simpa using hne
  constructor
  · intro hle
    simp only [toMidx, evalNames_ok h, hmx, Nat.max_zero, hts, fromTuples, hml]
    rw [if_neg]
    · simp only [Except.ok.injEq, Prod.mk.injEq, true_and, List.map_map]
      refine List.map_congr_left fun s hs => ?_
      have := hn s hs
      simp only [Function.comp]
      rw [show n - (tup s ++ List.replicate (n - (tup s).length) (Val.str "")).length = 0 by simp; omega]
      simp
    · rintro ⟨_, hc⟩
      apply hc
      simp; omega
  · intro hlt
    simp only [toMidx, evalNames_ok h, hmx, Nat.max_zero, hts, fromTuples, hml]
    rw [if_pos]
    refine ⟨hnn, ?_⟩
    simp; omega

/-- **C57** Round trip: a column multi-index of `n` levels turned into texts, then back, is the same. -/
theorem C57_round_trip {eval : String → Eval} {repr : List Val → String} {cols : List (List Val)} {n : Nat}
    {names : List String} (hr : ∀ t ∈ cols, eval (repr t) = .seq t) (hne : cols ≠ []) (hn : ∀ t ∈ cols, t.length = n)
    (hl : names.length = n) :
    (toMidx eval (cols.map repr) (some names)).1 = .ok (names, cols.map (·.map some)) := by
  let tup : String → List Val := fun s => match eval s with | .seq t => t | _ => []
  have ht : ∀ t ∈ cols, tup (repr t) = t := fun t h => by simp only [tup, hr t h]
  have h : ∀ s ∈ cols.map repr, eval s = .seq (tup s) := by
    intro s hs
    obtain ⟨t, ht', rfl⟩ := List.mem_map.1 hs
    rw [ht t ht', hr t ht']
  obtain ⟨t0, ht0⟩ := List.exists_mem_of_ne_nil _ hne
  have := (C57_tuples (levels := some names) h (by simpa using hne) n
    (by intro s hs; obtain ⟨t, ht', rfl⟩ := List.mem_map.1 hs; rw [ht t ht']; exact (hn t ht').le)
    ⟨repr t0, List.mem_map.2 ⟨t0, ht0, rfl⟩, by rw [ht t0 ht0, hn t0 ht0]⟩).1 (by simp [hl])
  rw [this]
  simp only [Option.getD_some, hl, Nat.sub_self, List.range'_zero, List.map_nil, List.append_nil, Except.ok.injEq,
    Prod.mk.injEq, true_and, List.map_map]
  refine List.map_congr_left fun t ht' => ?_
  simp [ht t ht', hn t ht']

/-- `literal_eval` on the names of the examples. -/
def exEval (s : String) : Eval :=
  if s = "('a', 'b')" then .seq [.str "a", .str "b"]
  else if s = "('c',)" then .seq [.str "c"]
  else .valueError

example : (toMidx exEval ["('a', 'b')", "('c',)"] none).1 =
    .ok (["l0", "l1"], [[some (.str "a"), some (.str "b")], [some (.str "c"), some (.str "")]]) := by rfl

/-- **C57** fails for a column with a plain name, although it is meant to be kept 'as string, enclosed in a tuple':
the name is cut into its characters... -/
theorem C57_plain_name_split_fails : (toMidx exEval ["('a', 'b')", "ts"] none).1 =
    .ok (["l0", "l1"], [[some (.str "a"), some (.str "b")], [some (.str "t"), some (.str "s")]]) := by rfl

/-- **C57** ... or an exception is raised, if it has more characters than there are levels. -/
theorem C57_plain_name_error_fails : (toMidx exEval ["('a', 'b')", "timestamp"] none).1 = .error .valueError := by rfl

/-- Tuple that `to_midx` makes of a name. -/
def Eval.tuple (e : Eval) (s : String) : List Val :=
  match e with
  | .seq t => t
  | _ => charTuple s

theorem evalNames_mixed {eval : String → Eval} {idx : List String} (h : ∀ s ∈ idx, ∀ e, eval s ≠ .raises e) (mx : Nat) :
    ∃ m, evalNames eval idx mx = .ok (idx.map fun s => (eval s).tuple s, m) ∧ mx ≤ m ∧
      (∀ s ∈ idx, ∀ t, eval s = .seq t → t.length ≤ m) ∧ (m = mx ∨ ∃ s ∈ idx, ∃ t, eval s = .seq t ∧ t.length = m) := by
  induction idx generalizing mx with
  | nil => exact ⟨mx, rfl, le_refl _, by simp, Or.inl rfl⟩
  | cons s idx ih =>
    cases hs : eval s with
    | raises e => exact absurd hs (h s (by simp) e)
    | seq t =>
      obtain ⟨m, e, h1, h2, h3⟩ := ih (fun s' hs' => h s' (by simp [hs'])) (max t.length mx)
      refine ⟨m, by simp only [evalNames, hs, e, List.map_cons, Eval.tuple], by omega, ?_, ?_⟩
      · intro s' hs' t' ht'
        rcases List.mem_cons.1 hs' with rfl | hs'
        · rw [hs] at ht'
          cases ht'
          omega
        · exact h2 s' hs' t' ht'
      · rcases h3 with h3 | ⟨s', hs', t', ht', hl⟩
        · rcases Nat.le_total t.length mx with hle | hle
          · exact Or.inl (by omega)
          · exact Or.inr ⟨s, by simp, t, hs, by omega⟩
        · exact Or.inr ⟨s', by simp [hs'], t', ht', hl⟩
    | valueError =>
      obtain ⟨m, e, h1, h2, h3⟩ := ih (fun s' hs' => h s' (by simp [hs'])) mx
      refine ⟨m, by simp only [evalNames, hs, e, List.map_cons, Eval.tuple], h1, ?_, ?_⟩
      · intro s' hs' t' ht'
        rcases List.mem_cons.1 hs' with rfl | hs'
        · rw [hs] at ht'
          cases ht'
        · exact h2 s' hs' t' ht'
      · rcases h3 with h3 | ⟨s', hs', t', ht', hl⟩
        · exact Or.inl h3
        · exact Or.inr ⟨s', by simp [hs'], t', ht', hl⟩

theorem maxLen_le {ts : List (List Val)} {n : Nat} (h : ∀ t ∈ ts, t.length ≤ n) : maxLen ts ≤ n := by
  induction ts with
  | nil => simp [maxLen]
  | cons a ts ih =>
    simp only [maxLen, List.map_cons, List.foldr_cons]
    exact max_le (h a (by simp)) (ih fun t ht => h t (by simp [ht]))

/-- **C57** Names of which some are not texts of tuples (for example a plain name), exactly: these are cut into their characters, if they
have no more characters than there are levels in the longest tuple; otherwise the call raises `ValueError`. -/
theorem C57_plain_names {eval : String → Eval} {idx : List String} {levels : Option (List String)} {n : Nat}
    (h : ∀ s ∈ idx, ∀ e, eval s ≠ .raises e) (hn : ∀ s ∈ idx, ∀ t, eval s = .seq t → t.length ≤ n)
    (hn' : ∃ s ∈ idx, ∃ t, eval s = .seq t ∧ t.length = n) (hl : (levels.getD []).length ≤ n) :
    ((∀ s ∈ idx, eval s = .valueError → s.toList.length ≤ n) →
      (toMidx eval idx levels).1 =
        .ok (levels.getD [] ++ (List.range' (levels.getD []).length (n - (levels.getD []).length)).map (fun i => "l" ++ toString i),
          idx.map fun s => ((eval s).tuple s ++ List.replicate (n - ((eval s).tuple s).length) (Val.str "")).map some)) ∧
    ((∃ s ∈ idx, eval s = .valueError ∧ n < s.toList.length) → (toMidx eval idx levels).1 = .error .valueError) := by
  obtain ⟨m, he, _, h2, h3⟩ := evalNames_mixed h 0
  obtain ⟨s0, hs0, t0, ht0, hlen⟩ := hn'
  have hm : m = n := by
    have := h2 s0 hs0 t0 ht0
    rcases h3 with h3 | ⟨s, hs, t, ht, hl'⟩
    · omega
    · have := hn s hs t ht
      omega
  subst hm
  have hidx : idx ≠ [] := List.ne_nil_of_mem hs0
  have hpad : ∀ t : List Val, (if m - t.length ≠ 0 then t ++ List.replicate (m - t.length) (Val.str "") else t) =
      t ++ List.replicate (m - t.length) (.str "") := by
    intro t
    split
    · rfl
    · rename_i h0; push Not at h0; rw [h0]; simp
  have hts : (idx.map fun s => (eval s).tuple s).map
      (fun t => if m - t.length ≠ 0 then t ++ List.replicate (m - t.length) (Val.str "") else t) =
      idx.map fun s => (eval s).tuple s ++ List.replicate (m - ((eval s).tuple s).length) (.str "") := by
    rw [List.map_map]
    exact List.map_congr_left fun s _ => hpad _
  have hlev : (levels.getD [] ++ (List.range' (levels.getD []).length (m - (levels.getD []).length)).map
      (fun i => "l" ++ toString i)).length = m := by simp; omega
  have hne : (idx.map fun s => (eval s).tuple s ++ List.replicate (m - ((eval s).tuple s).length) (Val.str "")) ≠ [] := by
    simpa using hidx
  constructor
  · intro hp
    have htl : ∀ s ∈ idx, ((eval s).tuple s).length ≤ m := by
      intro s hs
      cases hev : eval s with
      | raises e => exact absurd hev (h s hs e)
      | seq t => exact hn s hs t hev
      | valueError => simpa [Eval.tuple, charTuple] using hp s hs hev
    have hml : maxLen (idx.map fun s => (eval s).tuple s ++ List.replicate (m - ((eval s).tuple s).length) (.str "")) = m := by
      refine maxLen_const ?_ hne
      intro t ht
      obtain ⟨s, hs, rfl⟩ := List.mem_map.1 ht
      have := htl s hs
      simp; omega
    simp only [toMidx, he, hts, fromTuples, hml]
    rw [if_neg (fun hc => hc.2 hlev)]
    simp only [Except.ok.injEq, Prod.mk.injEq, true_and, List.map_map]
    refine List.map_congr_left fun s hs => ?_
    have := htl s hs
    simp only [Function.comp]
    rw [show m - ((eval s).tuple s ++ List.replicate (m - ((eval s).tuple s).length) (Val.str "")).length = 0 by simp; omega]
    simp
  · rintro ⟨s, hs, hev, hlt⟩
    simp only [toMidx, he, hts, fromTuples]
    rw [if_pos]
    refine ⟨hne, ?_⟩
    rw [hlev]
    have hin := le_maxLen (List.mem_map.2 ⟨s, hs, rfl⟩ : (eval s).tuple s ++ List.replicate (m - ((eval s).tuple s).length) (Val.str "") ∈
      idx.map fun s => (eval s).tuple s ++ List.replicate (m - ((eval s).tuple s).length) (Val.str ""))
    have : ((eval s).tuple s).length = s.toList.length := by rw [hev]; simp [Eval.tuple, charTuple]
    simp only [List.length_append] at hin
    omega

/-- **C57** Names none of which is the text of a tuple are refused, unless `levels` has as many names as the longest one has
characters. -/
theorem C57_only_plain {eval : String → Eval} {idx : List String} {levels : Option (List String)} (hne : idx ≠ [])
    (h : ∀ s ∈ idx, eval s = .valueError) :
    (toMidx eval idx levels).1 =
      if (levels.getD []).length ≠ maxLen (idx.map charTuple) then .error .valueError
      else .ok (levels.getD [], idx.map fun s =>
        (charTuple s).map some ++ List.replicate ((levels.getD []).length - (charTuple s).length) none) := by
  obtain ⟨m, he, _, h2, h3⟩ := evalNames_mixed (eval := eval) (idx := idx) (fun s hs e h' => by rw [h s hs] at h'; cases h') 0
  have hm : m = 0 := by
    rcases h3 with h3 | ⟨s, hs, t, ht, _⟩
    · exact h3
    · rw [h s hs] at ht
      cases ht
  subst hm
  have htup : (idx.map fun s => (eval s).tuple s) = idx.map charTuple :=
    List.map_congr_left fun s hs => by rw [h s hs]; rfl
  rw [htup] at he
  simp only [toMidx, he, Nat.zero_sub, ne_eq, not_true_eq_false, if_false, List.map_id', List.range'_zero, List.map_nil, List.append_nil,
    fromTuples]
  by_cases hc : (levels.getD []).length = maxLen (idx.map charTuple)
  · rw [if_neg (by simp [hc]), if_neg (by simp [hc])]
    simp only [Except.ok.injEq, Prod.mk.injEq, true_and, List.map_map, ← hc]
    rfl
  · rw [if_pos ⟨by simpa using hne, hc⟩, if_pos hc]

example : (toMidx exEval ["x", "('a', 'b')", "", "ts"] (some ["one"])).1 =
    .ok (["one", "l1"], [[some (.str "x"), some (.str "")], [some (.str "a"), some (.str "b")], [some (.str ""), some (.str "")],
      [some (.str "t"), some (.str "s")]]) ∧ (toMidx exEval ["x", "ts"] none).1 = .error .valueError := ⟨rfl, rfl⟩

/-- **C57** A name on which `literal_eval` raises something else than `ValueError` (`SyntaxError` for "my col"), or that it reads as an
object without length (`TypeError` for "1"), makes the call raise, and `levels` is then left as it is. -/
theorem C57_raises {eval : String → Eval} {pre post : List String} {s : String} {e : Err} {levels : Option (List String)}
    (h : ∀ x ∈ pre, ∀ e', eval x ≠ .raises e') (hs : eval s = .raises e) :
    toMidx eval (pre ++ s :: post) levels = (.error e, levels) := by
  have : ∀ mx, evalNames eval (pre ++ s :: post) mx = .error e := by
    induction pre with
    | nil => intro mx; simp only [List.nil_append, evalNames, hs]
    | cons x pre ih =>
      intro mx
      have ih := ih fun y hy => h y (by simp [hy])
      cases hx : eval x with
      | raises e' => exact absurd hx (h x (by simp) e')
      | seq t => simp only [List.cons_append, evalNames, hx, ih]
      | valueError => simp only [List.cons_append, evalNames, hx, ih]
  simp only [toMidx, this]

example : toMidx (fun s => if s = "my col" then .raises .other else exEval s) ["('a', 'b')", "ts", "my col"] (some ["x"]) =
    (.error .other, some ["x"]) := rfl

/-- **C57** The list of level names given by the caller is completed in place. -/
theorem C57_levels_mutated_fails : (toMidx exEval ["('a', 'b')"] (some ["x"])).2 = some ["x", "l1"] := by rfl

end Oups.ColumnIndex
