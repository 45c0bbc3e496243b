import Verif.Model.CollectionItems
import Verif.Props.Collection
/-! # C83: assignments, number and listing of the datasets of a `ParquetSet` -/
namespace Oups.Collection
open Oups.Indexer (Str FVal Schema join split)

section
variable {K C P F : Type} [DecidableEq K] {E : Env K C (P × F)} {comps : K → List Str}

/-- **C83** `ps[key] = df` is `ps.set(key, df)`, `ps[key] = (parameters, df)` is `ps.set(key, df, **parameters)`. -/
theorem C83_setitem (p0 : P) (ps : PS K C) (key : Option K) (p : P) (f : F) :
    ps.setItem E p0 key (.value (.frame f)) = ((ps.set E key true (p0, f)).1, (ps.set E key true (p0, f)).2.map .set) ∧
    ps.setItem E p0 key (.tuple [.dict p, .frame f]) = ((ps.set E key true (p, f)).1, (ps.set E key true (p, f)).2.map .set) :=
  ⟨rfl, rfl⟩

/-- **C83** Anything else is refused, and nothing is changed. -/
theorem C83_setitem_refused (p0 : P) (ps : PS K C) (key : Option K) (item : Item P F)
    (h1 : ∀ f, item ≠ .value (.frame f)) (h2 : ∀ p f, item ≠ .tuple [.dict p, .frame f]) :
    (ps.setItem E p0 key item).1 = ps ∧ ∃ e, (ps.setItem E p0 key item).2 = some e ∧
      (e = .unpack ↔ ∃ l, item = .tuple l ∧ l.length ≠ 2) ∧ (e ≠ .unpack → e = .set .typeError) := by
  cases item with
  | value v =>
    cases v with
    | frame f => exact absurd rfl (h1 f)
    | dict p => exact ⟨rfl, _, rfl, by simp, fun _ => rfl⟩
    | other => exact ⟨rfl, _, rfl, by simp, fun _ => rfl⟩
  | tuple l =>
    match l with
    | [] => exact ⟨rfl, _, rfl, by simp, by simp⟩
    | [a] => cases a <;> exact ⟨rfl, _, rfl, by simp, by simp⟩
    | [a, b] =>
      cases a with
      | frame f => exact ⟨rfl, _, rfl, by simp, fun _ => rfl⟩
      | other => exact ⟨rfl, _, rfl, by simp, fun _ => rfl⟩
      | dict p =>
        cases b with
        | frame f => exact absurd rfl (h2 p f)
        | dict q => exact ⟨rfl, _, rfl, by simp, fun _ => rfl⟩
        | other => exact ⟨rfl, _, rfl, by simp, fun _ => rfl⟩
    | a :: b :: c :: l => cases a <;> exact ⟨rfl, _, rfl, by simp, by simp⟩

/-- **C83** An assignment that raises changes nothing in memory or on disk, whatever is assigned. -/
theorem C83_failed_setitem (p0 : P) (ps : PS K C) (key : Option K) (item : Item P F) (h : (ps.setItem E p0 key item).2 ≠ none) :
    (ps.setItem E p0 key item).1 = ps := by
  by_cases h1 : ∃ f, item = .value (.frame f)
  · obtain ⟨f, rfl⟩ := h1
    exact C10_failed_set ps key true (p0, f) (fun e => h (by rw [(C83_setitem p0 ps key p0 f).1, e]; rfl))
  · by_cases h2 : ∃ p f, item = .tuple [.dict p, .frame f]
    · obtain ⟨p, f, rfl⟩ := h2
      exact C10_failed_set ps key true (p, f) (fun e => h (by rw [(C83_setitem p0 ps key p f).2, e]; rfl))
    · exact (C83_setitem_refused p0 ps key item (fun f e => h1 ⟨f, e⟩) (fun p f e => h2 ⟨p, f, e⟩)).1

/-- **C83** After any operations, the number of datasets and the tests of presence are those of the dictionary. -/
theorem C83_len (hE : Lawful E comps) {base : Str} {fs : FS C} (hb : PlainBase base) (hwf : fs.WF)
    (hcan : Canonical E comps (resolve base) fs) (hns : NoStray E comps (resolve base) fs) (ops : List (Op K (P × F)))
    (l : List K) (hl : l.Nodup)
    (hm : ∀ k, k ∈ l ↔ (Dict.run E.writer E.empty (storedDict E comps (resolve base) fs) ops k).isSome) :
    ((PS.openAt E base fs).run E ops).len = l.length ∧ ∀ k, ((PS.openAt E base fs).run E ops).has k = decide (k ∈ l) := by
  obtain ⟨h1, h2, _⟩ := C07_dictionary hE hb hwf hcan hns ops
  have h : ∀ k, k ∈ ((PS.openAt E base fs).run E ops).keys ↔ k ∈ l := fun k => (h1 k).trans (hm k).symm
  refine ⟨?_, fun k => by rw [PS.has]; exact decide_eq_decide.2 (h k)⟩
  exact ((List.perm_ext_iff_of_nodup h2 hl).2 h).length_eq

end

/-! ### `repr` -/

theorem split_plain_of (c : Char) (s : Str) (h : c ∉ s) : split (· == c) s = [s] := by
  induction s with
  | nil => rfl
  | cons d s ih =>
    rw [List.mem_cons, not_or] at h
    have : (d == c) = false := by simpa using fun e => h.1 e.symm
    simp only [split, this, ih h.2, Bool.false_eq_true, if_false]

theorem split_join_of (c : Char) (ls : List Str) (hne : ls ≠ []) (h : ∀ s ∈ ls, c ∉ s) : split (· == c) (join c ls) = ls := by
  induction ls with
  | nil => exact absurd rfl hne
  | cons a ls ih =>
    cases ls with
    | nil => rw [join, split_plain_of c a (h a (by simp))]
    | cons b ls =>
      rw [join, split_append_sep _ _ _ _ (by simp), split_plain_of c a (h a (by simp)), ih (by simp) (fun s hs => h s (by simp [hs]))]
      rfl

section
variable {sep : Char} {sch : Schema}

theorem strOf_back (hw : sch.WF) (k : Key sep sch) : Indexer.fromStr sep sch (strOf sep k.1) = some (.dc k.1) := by
  obtain ⟨s, h1, h2⟩ := Indexer.C02_str_roundtrip hw k.2.conf k.2.valid (NoEmpty.not_exceptional k.2.noEmpty)
  simp only [strOf, h1, h2]

theorem strOf_ne_nil (hsep : sep ≠ '/') (hw : sch.WF) (k : Key sep sch) : strOf sep k.1 ≠ [] := by
  have h := Indexer.toStr_eq (sep := sep) false k.2.conf hw
  have h1 := Indexer.levelStrs_contained hsep hw k.2.conf k.2.valid k.2.noEmpty
  simp only [strOf, h, Bool.false_eq_true, if_false]
  have hpos : 0 < sch.depth := by cases sch <;> simp [Schema.depth]
  cases hl : Indexer.levelStrs sep k.1 with
  | nil => rw [hl] at h1; simp at h1; omega
  | cons a l =>
    have ha := (h1.2 a (by rw [hl]; simp)).1
    cases l with
    | nil => exact ha
    | cons b l => simp [join]

/-- **C83** `repr` has one line per key, in the order of keys, each of them being read as the key by `from_str`; as long as no field has
a line break. -/
theorem C83_repr_lines (hw : sch.WF) (keys : List (Key sep sch)) (hne : keys ≠ []) (h : ∀ k ∈ keys, '\n' ∉ strOf sep k.1) :
    (split (· == '\n') (reprOf sep (keys.map Subtype.val))).map (Indexer.fromStr sep sch) = keys.map fun k => some (.dc k.1) := by
  rw [reprOf, split_join_of]
  · simp only [List.map_map]
    exact List.map_congr_left fun k _ => strOf_back hw k
  · intro e
    exact hne (List.map_eq_nil_iff.1 (List.map_eq_nil_iff.1 e))
  · intro s hs
    simp only [List.map_map, List.mem_map] at hs
    obtain ⟨k, hk, rfl⟩ := hs
    exact h k hk

/-- **C83** Hence two sets listed the same have the same keys. -/
theorem C83_repr_same (hsep : sep ≠ '/') (hw : sch.WF) (keys keys' : List (Key sep sch)) (h : ∀ k ∈ keys, '\n' ∉ strOf sep k.1)
    (h' : ∀ k ∈ keys', '\n' ∉ strOf sep k.1) (he : reprOf sep (keys.map Subtype.val) = reprOf sep (keys'.map Subtype.val)) :
    keys = keys' := by
  have hempty : ∀ l : List (Key sep sch), reprOf sep (l.map Subtype.val) = [] → l = [] := by
    intro l hl
    cases l with
    | nil => rfl
    | cons k l =>
      exfalso
      have := strOf_ne_nil hsep hw k
      cases l with
      | nil => exact this hl
      | cons k' l => simp [reprOf, join] at hl
  by_cases h1 : keys = []
  · subst h1; exact (hempty keys' he.symm).symm
  · by_cases h2 : keys' = []
    · subst h2; exact hempty keys he
    · have e1 := C83_repr_lines hw keys h1 h
      rw [he, C83_repr_lines hw keys' h2 h'] at e1
      have hinj : Function.Injective (fun k : Key sep sch => some (FVal.dc k.1)) := fun a b e => Subtype.ext (by simpa using e)
      exact ((List.map_injective_iff.2 hinj) e1).symm

end

/-- **C83** With a line break in a field, or an empty field, the listing does not tell the keys: the key `"a\nb"` and the keys `"a"`, `"b"`;
the key `""` and no key. All are accepted by the validation. -/
theorem C83_repr_fails : (∀ s ∈ ["a\nb".toList, "a".toList, "b".toList, []], Indexer.validate '-' [.str s] = .ok ()) ∧
    reprOf '-' [[.str "a\nb".toList]] = reprOf '-' [[.str "a".toList], [.str "b".toList]] ∧ reprOf '-' [[.str []]] = reprOf '-' [] := by
  refine ⟨by decide +kernel, by decide +kernel, by decide +kernel⟩

example : reprOf '-' [[.str "a".toList, .int 1], [.str "a".toList, .int 2]] = "a-1\na-2".toList := by decide +kernel

/-- Assignments to a set of datasets that are numbers: the parameter is the number of times the number is added to what is recorded. -/
example :
    let E : Env Nat Nat (Nat × Nat) :=
      { toPath := fun k => Indexer.natStr k
        fromPath := fun _ => none
        depth := 1
        lt := fun a b => decide (a < b)
        names := fun _ => []
        empty := 0
        writer := fun w c => if w.2 = 0 then none else some (c + w.1 * w.2) }
    let ps : PS Nat Nat := ⟨"s".toList, [], []⟩
    ((ps.setItem E 1 (some 7) (.value (.frame 5))).1.get E 7 = some 5) ∧
    ((ps.setItem E 1 (some 7) (.tuple [.dict 3, .frame 5])).1.get E 7 = some 15) ∧
    (ps.setItem E 1 (some 7) (.tuple [.frame 5, .dict 3])).2 = some (.set .typeError) ∧
    (ps.setItem E 1 (some 7) (.tuple [.dict 3])).2 = some .unpack ∧
    (ps.setItem E 1 (some 7) (.tuple [.dict 3, .frame 0])).2 = some (.set .writer) := by decide +kernel

end Oups.Collection
