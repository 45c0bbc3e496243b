import Verif.Spec.Collection
import Mathlib.Data.List.Basic
import Mathlib.Data.List.Induction
import Mathlib.Tactic.Common
set_option linter.unusedSimpArgs false
namespace Oups.Collection
open Oups.Indexer (Str split join)

/-! ### Paths -/

theorem split_append_sep (p : Char → Bool) (a b : Str) (c : Char) (hc : p c = true) :
    split p (a ++ c :: b) = split p a ++ split p b := by
  induction a with
  | nil => simp [split, hc]
  | cons x a ih =>
    simp only [List.cons_append, split, ih]
    by_cases hx : p x = true
    · simp [hx]
    · simp only [hx, Bool.false_eq_true, if_false]
      cases h : split p a with
      | nil =>
        exfalso
        cases a with
        | nil => simp [split] at h
        | cons y a =>
          simp only [split] at h
          by_cases hy : p y = true
          · simp [hy] at h
          · simp only [hy, Bool.false_eq_true, if_false] at h
            cases h2 : split p a <;> simp [h2] at h
      | cons w ws => simp

theorem split_plain (s : Str) (h : '/' ∉ s) : split (· == '/') s = [s] := by
  induction s with
  | nil => rfl
  | cons c s ih =>
    rw [List.mem_cons, not_or] at h
    have hc : (c == '/') = false := by simpa using fun e => h.1 e.symm
    simp [split, hc, ih h.2]

theorem split_join (ls : List Str) (hne : ls ≠ []) (h : ∀ s ∈ ls, '/' ∉ s) : split (· == '/') (join '/' ls) = ls := by
  induction ls with
  | nil => exact absurd rfl hne
  | cons a ls ih =>
    cases ls with
    | nil => exact split_plain a (h a (by simp))
    | cons b ls =>
      rw [join, split_append_sep _ _ _ _ (by simp), split_plain a (h a (by simp)), ih (by simp) (fun s hs => h s (by simp [hs]))]
      rfl

theorem join_head? (ls : List Str) (h : ∀ s ∈ ls, s ≠ [] ∧ '/' ∉ s) : (join '/' ls).head? ≠ some '/' := by
  cases ls with
  | nil => simp [join]
  | cons a ls =>
    obtain ⟨h1, h2⟩ := h a (by simp)
    cases a with
    | nil => exact absurd rfl h1
    | cons c a =>
      have hc : c ≠ '/' := fun e => h2 (by simp [e])
      cases ls <;> simpa [join] using hc

theorem osJoin_eq {base : Str} (hb : PlainBase base) {ls : List Str} (h : ∀ s ∈ ls, s ≠ [] ∧ '/' ∉ s) :
    osJoin base (join '/' ls) = base ++ '/' :: join '/' ls := by
  rw [osJoin, if_neg (join_head? ls h), if_neg]
  rintro (e | e)
  · exact hb.1 e
  · exact hb.2 e

theorem resolve_append {base : Str} {ls : List Str} (hne : ls ≠ []) (h : ∀ s ∈ ls, s ≠ [] ∧ '/' ∉ s) :
    resolve (base ++ '/' :: join '/' ls) = resolve base ++ ls := by
  rw [resolve, split_append_sep _ _ _ _ (by simp), List.filter_append, split_join ls hne (fun s hs => (h s hs).2)]
  congr 1
  rw [List.filter_eq_self]
  intro s hs
  simpa using (h s hs).1

theorem dropWhile_plain {s t : Str} (h : '/' ∉ s) :
    (s ++ '/' :: t).dropWhile (fun c => decide (c ≠ '/')) = '/' :: t := by
  induction s with
  | nil => simp
  | cons c s ih =>
    rw [List.mem_cons, not_or] at h
    rw [List.cons_append, List.dropWhile_cons_of_pos (by simpa using fun e => h.1 e.symm), ih h.2]

theorem stripPathTail_append {a s : Str} (h : '/' ∉ s) : stripPathTail (a ++ '/' :: s) = some a := by
  rw [stripPathTail, if_pos (by simp)]
  have : (a ++ '/' :: s).reverse = s.reverse ++ '/' :: a.reverse := by simp
  rw [this, dropWhile_plain (by simpa using h)]
  simp

theorem join_snoc {ls : List Str} (hne : ls ≠ []) (s : Str) : join '/' (ls ++ [s]) = join '/' ls ++ '/' :: s := by
  induction ls with
  | nil => exact absurd rfl hne
  | cons a ls ih =>
    cases ls with
    | nil => rfl
    | cons b ls =>
      rw [List.cons_append, List.cons_append, join, ← List.cons_append, ih (by simp), join]
      simp

/-! ### Look-ups -/

section
variable {C : Type}

theorem lookup_append (a b : FS C) (q : Path) : FS.lookup (a ++ b) q = (FS.lookup a q).or (FS.lookup b q) := by
  simp only [FS.lookup, List.find?_append]
  cases List.find? (fun e => decide (e.1 = q)) a <;> simp

theorem lookup_filter (fs : FS C) (P : Path → Bool) (q : Path) :
    FS.lookup (fs.filter fun e => P e.1) q = if P q = true then fs.lookup q else none := by
  induction fs with
  | nil => simp [FS.lookup]
  | cons e fs ih =>
    simp only [FS.lookup] at ih ⊢
    by_cases he : P e.1 = true
    · rw [List.filter_cons_of_pos (by simpa using he), List.find?_cons, List.find?_cons]
      by_cases hq : e.1 = q
      · subst hq; simp [he]
      · rw [decide_eq_false hq]; exact ih
    · rw [List.filter_cons_of_neg (by simpa using he), ih]
      by_cases hq : e.1 = q
      · subst hq; simp [he]
      · rw [List.find?_cons]; simp [hq]

theorem lookup_put (fs : FS C) (p q : Path) (c : C) :
    (fs.put p c).lookup q = if q = p then some c else fs.lookup q := by
  rw [FS.put, lookup_append]
  have h1 := lookup_filter fs (fun x => decide (x ≠ p)) q
  rw [h1]
  by_cases h : q = p
  · subst h; simp [FS.lookup]
  · have h' : ¬ p = q := fun e => h e.symm
    simp [h, FS.lookup, h']

theorem lookup_rmdir (fs : FS C) (p q : Path) : (fs.rmdir p).lookup q = if q = p then none else fs.lookup q := by
  rw [FS.rmdir]
  have h1 := lookup_filter fs (fun x => decide (x ≠ p)) q
  rw [h1]
  by_cases h : q = p <;> simp [h]

theorem lookup_rmtree (fs : FS C) (p q : Path) : (fs.rmtree p).lookup q = if p <+: q then none else fs.lookup q := by
  rw [FS.rmtree]
  have h1 := lookup_filter fs (fun x => !p.isPrefixOf x) q
  rw [h1]
  by_cases h : p <+: q
  · have : p.isPrefixOf q = true := List.isPrefixOf_iff_prefix.2 h
    simp [h, this]
  · have : p.isPrefixOf q = false := by
      rw [Bool.eq_false_iff]; simpa using h
    simp [h, this]

theorem lookup_isSome_iff (fs : FS C) (q : Path) : (fs.lookup q).isSome ↔ q ∈ fs.map Prod.fst := by
  simp only [FS.lookup, Option.isSome_map, List.find?_isSome, List.mem_map, decide_eq_true_eq]

theorem lookup_mkdirs_aux (empty : C) (qs : List Path) (fs : FS C) (q : Path) :
    FS.lookup (qs.foldl (fun fs q => if (FS.lookup fs q).isSome then fs else FS.put fs q empty) fs) q =
      if (fs.lookup q).isSome then fs.lookup q else if q ∈ qs then some empty else none := by
  induction qs generalizing fs with
  | nil => cases h : fs.lookup q <;> simp [h]
  | cons a qs ih =>
    rw [List.foldl_cons, ih]
    by_cases ha : (FS.lookup fs a).isSome
    · simp only [ha, if_true]
      by_cases hq : (fs.lookup q).isSome
      · simp [hq]
      · have : q ≠ a := fun e => hq (e ▸ ha)
        simp [hq, this]
    · simp only [ha, Bool.false_eq_true, if_false, lookup_put]
      by_cases hqa : q = a
      · subst hqa; simp [ha]
      · simp [hqa]

theorem take_mem_iff (p q : Path) : q ∈ (List.range (p.length + 1)).map p.take ↔ q <+: p := by
  rw [List.mem_map]
  constructor
  · rintro ⟨i, _, rfl⟩; exact List.take_prefix i p
  · intro h
    exact ⟨q.length, by have := h.length_le; simp; omega, (List.prefix_iff_eq_take.1 h).symm⟩

theorem lookup_mkdirs (empty : C) (fs : FS C) (p q : Path) :
    (fs.mkdirs empty p).lookup q =
      if (fs.lookup q).isSome then fs.lookup q else if q <+: p then some empty else none := by
  rw [FS.mkdirs, lookup_mkdirs_aux]
  simp only [take_mem_iff]

/-! ### Well-formedness -/

theorem nodup_put {fs : FS C} (h : (fs.map Prod.fst).Nodup) (p : Path) (c : C) : ((fs.put p c).map Prod.fst).Nodup := by
  rw [FS.put, List.map_append, List.nodup_append]
  refine ⟨(List.filter_sublist.map _).nodup h, by simp, ?_⟩
  rintro a ha b hb rfl
  simp only [List.map_cons, List.map_nil, List.mem_singleton] at hb
  subst hb
  simp at ha

theorem FS.WF.filter {fs : FS C} (h : fs.WF) (P : Path → Bool) (hP : ∀ p x, P (p ++ [x]) = true → P p = true) :
    FS.WF (fs.filter fun e => P e.1) := by
  refine ⟨(List.filter_sublist.map _).nodup h.1, fun p x => ?_⟩
  rw [lookup_filter, lookup_filter]
  split
  · rename_i hx
    rw [if_pos (hP p x hx)]
    exact h.2 p x
  · simp

theorem FS.WF.rmtree {fs : FS C} (h : fs.WF) (p : Path) : (fs.rmtree p).WF := by
  refine h.filter (fun x => !p.isPrefixOf x) fun q x hq => ?_
  simp only [Bool.not_eq_true'] at hq ⊢
  rw [Bool.eq_false_iff] at hq ⊢
  intro hc
  apply hq
  rw [List.isPrefixOf_iff_prefix] at hc ⊢
  exact hc.trans (List.prefix_append _ _)

theorem isEmpty_children {fs : FS C} {p : Path} : fs.children p = [] ↔ ∀ x, fs.lookup (p ++ [x]) = none := by
  rw [FS.children, List.filter_eq_nil_iff]
  constructor
  · intro h x
    cases hl : fs.lookup (p ++ [x]) with
    | none => rfl
    | some c =>
      exfalso
      have := h (p ++ [x]) ((lookup_isSome_iff _ _).1 (by simp [hl]))
      simp at this
  · intro h q hq hc
    simp only [decide_eq_true_eq] at hc
    have := h (q.getLast hc.1)
    have e : p ++ [q.getLast hc.1] = q := by
      obtain ⟨h1, h2⟩ := hc
      subst h2; exact List.dropLast_append_getLast h1
    rw [e] at this
    have h2 := (lookup_isSome_iff fs q).2 hq
    rw [this] at h2
    simp at h2

theorem FS.WF.rmdir {fs : FS C} (h : fs.WF) {p : Path} (hp : fs.children p = []) : (fs.rmdir p).WF := by
  refine ⟨(List.filter_sublist.map _).nodup h.1, fun q x => ?_⟩
  rw [lookup_rmdir, lookup_rmdir]
  by_cases hq : q = p
  · subst hq
    rw [isEmpty_children.1 hp x]
    simp
  · split
    · simp
    · exact h.2 q x

theorem nodup_mkdirs (empty : C) {fs : FS C} (h : (fs.map Prod.fst).Nodup) (p : Path) :
    ((fs.mkdirs empty p).map Prod.fst).Nodup := by
  rw [FS.mkdirs]
  generalize (List.range (p.length + 1)).map p.take = qs
  induction qs generalizing fs with
  | nil => exact h
  | cons a qs ih =>
    rw [List.foldl_cons]
    apply ih
    split
    · exact h
    · exact nodup_put h _ _

theorem FS.WF.mkdirs_put {fs : FS C} (h : fs.WF) (empty c : C) (p : Path) : ((fs.mkdirs empty p).put p c).WF := by
  refine ⟨nodup_put (nodup_mkdirs empty h.1 p) _ _, fun q x => ?_⟩
  rw [lookup_put, lookup_put, lookup_mkdirs, lookup_mkdirs]
  by_cases hq : q = p
  · simp [hq]
  rw [if_neg hq]
  by_cases hx : q ++ [x] = p
  · rw [if_pos hx]
    have : q <+: p := hx ▸ List.prefix_append _ _
    simp only [this, if_true]
    split <;> simp_all
  · rw [if_neg hx]
    by_cases hl : (fs.lookup (q ++ [x])).isSome
    · have := h.2 q x hl
      simp [this]
    · simp only [hl, Bool.false_eq_true, if_false]
      split
      · rename_i hp
        have : q <+: p := (List.prefix_append _ _).trans hp
        intro _
        simp only [this, if_true]
        split <;> simp_all
      · simp

theorem lookup_mkdirs_put (empty c : C) (fs : FS C) (p q : Path) :
    ((fs.mkdirs empty p).put p c).lookup q =
      if q = p then some c else if (fs.lookup q).isSome then fs.lookup q else if q <+: p then some empty else none := by
  rw [lookup_put, lookup_mkdirs]

/-! ### Scan -/

theorem mem_children {fs : FS C} {p q : Path} : q ∈ fs.children p ↔ (∃ x, q = p ++ [x]) ∧ (fs.lookup q).isSome := by
  rw [FS.children, List.mem_filter, lookup_isSome_iff, and_comm]
  simp only [decide_eq_true_eq]
  refine and_congr_left fun _ => ?_
  constructor
  · rintro ⟨h1, h2⟩
    exact ⟨q.getLast h1, by rw [← h2, List.dropLast_append_getLast h1]⟩
  · rintro ⟨x, rfl⟩; simp

theorem mem_filesAtDepth {names : C → List Str} {fs : FS C} (hwf : fs.WF) {d : Nat} {base p : Path} {l : List Str} :
    (p, l) ∈ fs.filesAtDepth names d base ↔
      ∃ rel c, p = base ++ rel ∧ rel.length = d ∧ fs.lookup p = some c ∧ names c ≠ [] ∧ l = names c := by
  induction d generalizing base with
  | zero =>
    simp only [FS.filesAtDepth]
    constructor
    · intro h
      cases hl : fs.lookup base with
      | none => simp [hl] at h
      | some c =>
        simp only [hl] at h
        split at h
        · rename_i hn
          simp only [List.mem_singleton, Prod.mk.injEq] at h
          obtain ⟨rfl, rfl⟩ := h
          exact ⟨[], c, by simp, rfl, hl, hn, rfl⟩
        · simp at h
    · rintro ⟨rel, c, rfl, hr, hl, hn, rfl⟩
      obtain rfl : rel = [] := List.length_eq_zero_iff.1 hr
      rw [List.append_nil] at hl ⊢
      simp [hl, hn]
  | succ d ih =>
    simp only [FS.filesAtDepth, List.mem_flatMap, ih, mem_children]
    constructor
    · rintro ⟨q, ⟨⟨x, rfl⟩, _⟩, rel, c, rfl, hr, hl, hn, rfl⟩
      exact ⟨x :: rel, c, by simp, by simp [hr], hl, hn, rfl⟩
    · rintro ⟨rel, c, rfl, hr, hl, hn, rfl⟩
      cases rel with
      | nil => simp at hr
      | cons x rel =>
        refine ⟨base ++ [x], ⟨⟨x, rfl⟩, ?_⟩, rel, c, by simp, by simpa using hr, hl, hn, rfl⟩
        have key : ∀ (r : Path) (b : Path), (fs.lookup (b ++ r)).isSome → (fs.lookup b).isSome := by
          intro r
          induction r using List.reverseRecOn with
          | nil => intro b h; simpa using h
          | append_singleton r y ihr =>
            intro b h
            rw [← List.append_assoc] at h
            exact ihr b (hwf.2 _ _ h)
        refine key rel (base ++ [x]) ?_
        rw [List.append_assoc, List.singleton_append, hl]; rfl

theorem FS.WF.prefix {fs : FS C} (hwf : fs.WF) {b p : Path} (hp : b <+: p) (h : (fs.lookup p).isSome) :
    (fs.lookup b).isSome := by
  obtain ⟨r, rfl⟩ := hp
  induction r using List.reverseRecOn with
  | nil => simpa using h
  | append_singleton r y ihr =>
    rw [← List.append_assoc] at h
    exact ihr (hwf.2 _ _ h)

end

/-! ### Sorted sets -/

section
variable {K C W : Type} [DecidableEq K] {E : Env K C W} {comps : K → List Str}

theorem mem_sortedAdd (lt : K → K → Bool) (k x : K) (l : List K) : x ∈ sortedAdd lt k l ↔ x = k ∨ x ∈ l := by
  induction l with
  | nil => simp [sortedAdd]
  | cons a l ih =>
    simp only [sortedAdd]
    split
    · rename_i h; subst h; simp
    · split
      · simp
      · simp only [List.mem_cons, ih]; tauto

theorem sortedAdd_sorted (hE : Lawful E comps) (k : K) (l : List K) (h : l.Pairwise (fun a b => E.lt a b = true)) :
    (sortedAdd E.lt k l).Pairwise (fun a b => E.lt a b = true) := by
  induction l with
  | nil => simp [sortedAdd]
  | cons a l ih =>
    rw [List.pairwise_cons] at h
    simp only [sortedAdd]
    split
    · exact List.pairwise_cons.2 h
    · split
      · rename_i hka hlt
        refine List.pairwise_cons.2 ⟨?_, List.pairwise_cons.2 h⟩
        intro b hb
        rcases List.mem_cons.1 hb with rfl | hb
        · exact hlt
        · exact hE.lt_trans _ _ _ hlt (h.1 b hb)
      · rename_i hka hlt
        refine List.pairwise_cons.2 ⟨?_, ih h.2⟩
        intro b hb
        rw [mem_sortedAdd] at hb
        rcases hb with rfl | hb
        · rcases hE.lt_total _ _ hka with h' | h'
          · exact absurd h' hlt
          · exact h'
        · exact h.1 b hb

theorem foldl_sortedAdd (hE : Lawful E comps) (ks l : List K) (h : l.Pairwise (fun a b => E.lt a b = true)) :
    (ks.foldl (fun l k => sortedAdd E.lt k l) l).Pairwise (fun a b => E.lt a b = true) ∧
    ∀ x, x ∈ ks.foldl (fun l k => sortedAdd E.lt k l) l ↔ x ∈ l ∨ x ∈ ks := by
  induction ks generalizing l with
  | nil => exact ⟨h, by simp⟩
  | cons k ks ih =>
    obtain ⟨h1, h2⟩ := ih _ (sortedAdd_sorted hE k l h)
    refine ⟨h1, fun x => ?_⟩
    rw [List.foldl_cons, h2 x, mem_sortedAdd]
    simp only [List.mem_cons]; tauto

theorem sorted_ext (hE : Lawful E comps) {a b : List K} (ha : a.Pairwise (fun x y => E.lt x y = true))
    (hb : b.Pairwise (fun x y => E.lt x y = true)) (h : ∀ x, x ∈ a ↔ x ∈ b) : a = b := by
  have nd : ∀ l : List K, l.Pairwise (fun x y => E.lt x y = true) → l.Nodup := by
    intro l hl
    refine hl.imp ?_
    rintro x y hxy rfl
    rw [hE.lt_irrefl] at hxy; cases hxy
  have hp := (List.perm_ext_iff_of_nodup (nd a ha) (nd b hb)).2 h
  refine hp.eq_of_pairwise ?_ ha hb
  intro x y _ _ h1 h2
  have := hE.lt_trans _ _ _ h1 h2
  rw [hE.lt_irrefl] at this; cases this

theorem getKeys_sorted (hE : Lawful E comps) (fs : FS C) (base : Str) :
    (getKeys E fs base).Pairwise (fun a b => E.lt a b = true) :=
  (foldl_sortedAdd hE _ [] List.Pairwise.nil).1

theorem mem_getKeys (hE : Lawful E comps) {fs : FS C} (hwf : fs.WF) {base : Str}
    (hcan : Canonical E comps (resolve base) fs) (k : K) :
    k ∈ getKeys E fs base ↔
      ∃ c, fs.lookup (resolve base ++ comps k) = some c ∧ (E.names c).any isParquetFile = true := by
  have hdrop : ∀ rel : Path, rel.length = E.depth →
      (resolve base ++ rel).drop ((resolve base ++ rel).length - E.depth) = rel := by
    intro rel hr
    rw [List.length_append, hr, Nat.add_sub_cancel, List.drop_left']
    rfl
  rw [getKeys, (foldl_sortedAdd hE _ [] List.Pairwise.nil).2]
  simp only [List.not_mem_nil, false_or, List.mem_filterMap]
  constructor
  · rintro ⟨⟨p, l⟩, hp, hk⟩
    obtain ⟨rel, c, rfl, hr, hl, _, rfl⟩ := (mem_filesAtDepth hwf).1 hp
    simp only at hk
    split at hk
    · rename_i hpq
      rw [hdrop rel hr] at hk
      have := hcan rel c k hl hr hpq hk
      subst this
      exact ⟨c, hl, hpq⟩
    · cases hk
  · rintro ⟨c, hl, hpq⟩
    refine ⟨(resolve base ++ comps k, E.names c), (mem_filesAtDepth hwf).2 ⟨comps k, c, rfl, hE.length k, hl, ?_, rfl⟩, ?_⟩
    · intro e; rw [e] at hpq; simp at hpq
    · simp only [hpq, if_true, hdrop _ (hE.length k)]
      exact hE.back k

/-! ### Paths of datasets -/

/-- Path reached by the removal of parents when `i` names are left below the basepath. -/
def upath (base : Str) (ls : List Str) (i : Nat) : Str :=
  if i = 0 then base else base ++ '/' :: join '/' (ls.take i)

theorem upath_strip {base : Str} {ls : List Str} (h : ∀ s ∈ ls, s ≠ [] ∧ '/' ∉ s) {i : Nat} (hi : i < ls.length) :
    stripPathTail (upath base ls (i + 1)) = some (upath base ls i) := by
  have hlast : '/' ∉ ls[i] := (h _ (List.getElem_mem hi)).2
  rw [upath, if_neg (by omega), List.take_succ_eq_append_getElem hi]
  by_cases h0 : i = 0
  · subst h0
    simp only [List.take_zero, List.nil_append, join, upath, if_true]
    exact stripPathTail_append hlast
  · have hne : ls.take i ≠ [] := by
      intro e
      have := congrArg List.length e
      simp only [List.length_append, List.length_take, List.length_cons, List.length_nil] at this
      omega
    rw [join_snoc hne, upath, if_neg h0, ← List.cons_append, ← List.append_assoc]
    exact stripPathTail_append hlast

theorem resolve_upath {base : Str} {ls : List Str} (h : ∀ s ∈ ls, s ≠ [] ∧ '/' ∉ s) {i : Nat} (hi : i ≤ ls.length) :
    resolve (upath base ls i) = resolve base ++ ls.take i := by
  by_cases h0 : i = 0
  · subst h0; simp [upath]
  · rw [upath, if_neg h0, resolve_append]
    · intro e
      have := congrArg List.length e
      simp only [List.length_append, List.length_take, List.length_cons, List.length_nil] at this
      omega
    · exact fun s hs => h s (List.mem_of_mem_take hs)

theorem dir_eq (hE : Lawful E comps) {base : Str} (hb : PlainBase base) (k : K) :
    osJoin base (E.toPath k) = upath base (comps k) E.depth := by
  have hd : E.depth ≠ 0 := Nat.pos_iff_ne_zero.1 hE.pos
  rw [hE.path, osJoin_eq hb (hE.plain k), upath, if_neg hd, ← hE.length k, List.take_length]

theorem resolve_dir (hE : Lawful E comps) {base : Str} (hb : PlainBase base) (k : K) :
    resolve (osJoin base (E.toPath k)) = resolve base ++ comps k := by
  rw [dir_eq hE hb, resolve_upath (hE.plain k) (by rw [hE.length]; exact Nat.le_refl _), ← hE.length k, List.take_length]

theorem comps_inj (hE : Lawful E comps) {a b : K} (h : comps a = comps b) : a = b := by
  have h1 := hE.back a
  rw [h, hE.back b] at h1
  exact (Option.some.inj h1).symm

theorem comps_prefix (hE : Lawful E comps) {a b : K} {base : Path} (h : base ++ comps a <+: base ++ comps b) : a = b := by
  rw [List.prefix_append_right_inj] at h
  exact comps_inj hE (h.eq_of_length (by rw [hE.length, hE.length]))

/-! ### Removal of empty parents -/

/-- `q` is strictly below `B`, is `p` or a parent of `p`, and all what exists below `q` are directories without files
among `p` and its parents. -/
def Prunable (names : C → List Str) (fs : FS C) (B p q : Path) : Prop :=
  B <+: q ∧ q ≠ B ∧ q <+: p ∧ ∀ q' c, q <+: q' → fs.lookup q' = some c → q' <+: p ∧ names c = []

theorem prefix_snoc_iff {α : Type} {q p : List α} {x : α} : q <+: p ++ [x] ↔ q = p ++ [x] ∨ q <+: p := by
  exact List.prefix_concat_iff

open Classical in
theorem pruneLoop_spec {base : Str} (hb : PlainBase base) {ls : List Str} (hls : ∀ s ∈ ls, s ≠ [] ∧ '/' ∉ s)
    (i : Nat) (hi : i ≤ ls.length) (fuel : Nat) (hf : i < fuel) (fs : FS C) (hwf : fs.WF)
    (hex : (fs.lookup (resolve base ++ ls.take i)).isSome) :
    (pruneLoop E base fuel fs (some (upath base ls i))).2 = none ∧
    (pruneLoop E base fuel fs (some (upath base ls i))).1.WF ∧
    ∀ q, (pruneLoop E base fuel fs (some (upath base ls i))).1.lookup q =
      if Prunable E.names fs (resolve base) (resolve base ++ ls.take i) q then none else fs.lookup q := by
  induction i generalizing fuel fs with
  | zero =>
    cases fuel with
    | zero => omega
    | succ fuel =>
      have e : pruneLoop E base (fuel + 1) fs (some (upath base ls 0)) = (fs, none) := by
        simp [pruneLoop, upath]
      rw [e]
      refine ⟨rfl, hwf, fun q => ?_⟩
      rw [if_neg]
      rintro ⟨h1, h2, h3, _⟩
      simp only [List.take_zero, List.append_nil] at h3
      exact h2 (h3.eq_of_length_le h1.length_le)
  | succ i ih =>
    cases fuel with
    | zero => omega
    | succ fuel =>
      have hlen : base.length < (upath base ls (i + 1)).length := by
        rw [upath, if_neg (by omega)]; simp
      have hne : upath base ls (i + 1) ≠ base := fun e => by rw [e] at hlen; omega
      have hnn : upath base ls (i + 1) ≠ [] := fun e => by rw [e] at hlen; simp at hlen
      have hres := resolve_upath (base := base) hls hi
      have hsnoc : resolve base ++ ls.take (i + 1) = (resolve base ++ ls.take i) ++ [ls[i]] := by
        rw [List.take_succ_eq_append_getElem (show i < ls.length by omega), List.append_assoc]
      obtain ⟨c, hc⟩ := Option.isSome_iff_exists.1 hex
      have hstep : pruneLoop E base (fuel + 1) fs (some (upath base ls (i + 1))) =
          if ((E.names c).isEmpty && (fs.children (resolve base ++ ls.take (i + 1))).isEmpty) = true then
            pruneLoop E base fuel (fs.rmdir (resolve base ++ ls.take (i + 1))) (some (upath base ls i))
          else (fs, none) := by
        simp only [pruneLoop, if_neg hne, if_neg hnn, FS.isEmptyDir, hres, hc, Option.map_some,
          upath_strip hls (show i < ls.length by omega)]
        cases ((E.names c).isEmpty && (fs.children (resolve base ++ ls.take (i + 1))).isEmpty) <;> simp
      rw [hstep]
      by_cases hempty : ((E.names c).isEmpty && (fs.children (resolve base ++ ls.take (i + 1))).isEmpty) = true
      · rw [if_pos hempty]
        rw [Bool.and_eq_true, List.isEmpty_iff, List.isEmpty_iff] at hempty
        obtain ⟨hn, hch⟩ := hempty
        have hpe : resolve base ++ ls.take i ≠ resolve base ++ ls.take (i + 1) := by
          intro e
          have := congrArg List.length e
          rw [hsnoc] at this; simp only [List.length_append, List.length_take, List.length_cons, List.length_nil] at this; omega
        obtain ⟨h1, h2, h3⟩ := ih (by omega) fuel (by omega) _ (hwf.rmdir hch) (by
          rw [lookup_rmdir, if_neg hpe]
          refine hwf.prefix ?_ hex
          rw [hsnoc]; exact List.prefix_append _ _)
        refine ⟨h1, h2, fun q => ?_⟩
        rw [h3 q]
        have hbelow : ∀ q' c', resolve base ++ ls.take (i + 1) <+: q' → fs.lookup q' = some c' →
            q' = resolve base ++ ls.take (i + 1) := by
          rintro q' c' ⟨r, rfl⟩ hq'
          cases r with
          | nil => simp
          | cons x r =>
            exfalso
            have := hwf.prefix (b := resolve base ++ ls.take (i + 1) ++ [x]) (p := resolve base ++ ls.take (i + 1) ++ x :: r)
              ⟨r, by simp⟩ (by rw [hq']; rfl)
            rw [isEmpty_children.1 hch x] at this
            cases this
        by_cases hq : q = resolve base ++ ls.take (i + 1)
        · subst hq
          rw [lookup_rmdir, if_pos rfl, ite_self, if_pos]
          refine ⟨List.prefix_append _ _, ?_, List.prefix_rfl, ?_⟩
          · intro e
            have h := congrArg List.length e
            rw [hsnoc] at h; simp only [List.length_append, List.length_take, List.length_cons, List.length_nil] at h; omega
          · intro q' c' hq' hl
            have := hbelow q' c' hq' hl
            subst this
            rw [hc] at hl
            cases hl
            exact ⟨List.prefix_rfl, hn⟩
        · have hiff : Prunable E.names (fs.rmdir (resolve base ++ ls.take (i + 1))) (resolve base)
              (resolve base ++ ls.take i) q ↔
              Prunable E.names fs (resolve base) (resolve base ++ ls.take (i + 1)) q := by
            constructor
            · rintro ⟨a1, a2, a3, a4⟩
              refine ⟨a1, a2, hsnoc ▸ a3.trans (List.prefix_append _ _), fun q' c' hq' hl => ?_⟩
              by_cases e : q' = resolve base ++ ls.take (i + 1)
              · subst e
                rw [hc] at hl; cases hl
                exact ⟨List.prefix_rfl, hn⟩
              · have := a4 q' c' hq' (by rw [lookup_rmdir, if_neg e]; exact hl)
                exact ⟨hsnoc ▸ this.1.trans (List.prefix_append _ _), this.2⟩
            · rintro ⟨a1, a2, a3, a4⟩
              have up : ∀ x, x <+: resolve base ++ ls.take (i + 1) → x ≠ resolve base ++ ls.take (i + 1) →
                  x <+: resolve base ++ ls.take i := by
                intro x hx hxe
                rw [hsnoc] at hx hxe
                exact (prefix_snoc_iff.1 hx).resolve_left hxe
              refine ⟨a1, a2, up q a3 hq, fun q' c' hq' hl => ?_⟩
              rw [lookup_rmdir] at hl
              by_cases e : q' = resolve base ++ ls.take (i + 1)
              · rw [if_pos e] at hl; cases hl
              · rw [if_neg e] at hl
                have := a4 q' c' hq' hl
                exact ⟨up q' this.1 e, this.2⟩
          simp only [hiff, lookup_rmdir, if_neg hq]
      · rw [if_neg hempty]
        refine ⟨rfl, hwf, fun q => ?_⟩
        rw [if_neg]
        rintro ⟨a1, a2, a3, a4⟩
        apply hempty
        rw [Bool.and_eq_true, List.isEmpty_iff, List.isEmpty_iff]
        refine ⟨(a4 _ c a3 hc).2, isEmpty_children.2 fun x => ?_⟩
        cases hl : fs.lookup (resolve base ++ ls.take (i + 1) ++ [x]) with
        | none => rfl
        | some c' =>
          exfalso
          have := (a4 _ c' (a3.trans (List.prefix_append _ _)) hl).1.length_le
          simp only [List.length_append, List.length_take, List.length_cons, List.length_nil] at this; omega

theorem length_upath {base : Str} {ls : List Str} (h : ∀ s ∈ ls, s ≠ [] ∧ '/' ∉ s) : ls.length ≤ (upath base ls ls.length).length := by
  by_cases h0 : ls.length = 0
  · omega
  · rw [upath, if_neg h0, List.take_length]
    have : ∀ ls : List Str, (∀ s ∈ ls, s ≠ [] ∧ '/' ∉ s) → ls.length ≤ (join '/' ls).length := by
      intro ls h
      induction ls with
      | nil => simp
      | cons a ls ih =>
        have ha : 1 ≤ a.length := List.length_pos_iff.2 (h a (by simp)).1
        have := ih fun s hs => h s (by simp [hs])
        cases ls with
        | nil => simpa [join] using ha
        | cons b ls => rw [join]; simp at this ⊢; omega
    have := this ls h
    simp; omega

/-! ### Effects of the operations -/

open Classical in
/-- `del` of a known key: no error; exactly the directories below the one of the dataset, and its parents below the
basepath left with nothing, are removed. -/
theorem del_spec (hE : Lawful E comps) {ps : PS K C} (hb : PlainBase ps.basepath) (hwf : ps.fs.WF) {k : K}
    (hk : k ∈ ps.keys) (hdir : (ps.fs.lookup (resolve ps.basepath ++ comps k)).isSome) :
    (ps.del E k).2 = none ∧ (ps.del E k).1.fs.WF ∧ (ps.del E k).1.keys = ps.keys.filter (· ≠ k) ∧
    (ps.del E k).1.basepath = ps.basepath ∧
    ∀ q, (ps.del E k).1.fs.lookup q =
      if resolve ps.basepath ++ comps k <+: q ∨ Prunable E.names (ps.fs.rmtree (resolve ps.basepath ++ comps k))
        (resolve ps.basepath) (resolve ps.basepath ++ (comps k).take (E.depth - 1)) q then none else ps.fs.lookup q := by
  have hd := hE.pos
  have hl := hE.length k
  have hres := resolve_dir hE hb k
  have hstrip : stripPathTail (osJoin ps.basepath (E.toPath k)) = some (upath ps.basepath (comps k) (E.depth - 1)) := by
    rw [dir_eq hE hb]
    have := upath_strip (base := ps.basepath) (hE.plain k) (i := E.depth - 1) (by omega)
    rwa [show E.depth - 1 + 1 = E.depth by omega] at this
  have hfuel : E.depth - 1 < (osJoin ps.basepath (E.toPath k)).length + 1 := by
    have := length_upath (base := ps.basepath) (hE.plain k)
    rw [hl, ← dir_eq hE hb] at this
    omega
  have hex : ((ps.fs.rmtree (resolve ps.basepath ++ comps k)).lookup
      (resolve ps.basepath ++ (comps k).take (E.depth - 1))).isSome := by
    rw [lookup_rmtree, if_neg]
    · refine hwf.prefix ?_ hdir
      rw [List.prefix_append_right_inj]
      exact List.take_prefix _ _
    · intro h
      have := h.length_le
      simp only [List.length_append, List.length_take] at this
      omega
  obtain ⟨h1, h2, h3⟩ := pruneLoop_spec (E := E) hb (hE.plain k) (E.depth - 1) (by omega) _ hfuel _
    (hwf.rmtree (resolve ps.basepath ++ comps k)) hex
  have e : ps.del E k = ({ ps with
      fs := (pruneLoop E ps.basepath ((osJoin ps.basepath (E.toPath k)).length + 1)
        (ps.fs.rmtree (resolve ps.basepath ++ comps k)) (some (upath ps.basepath (comps k) (E.depth - 1)))).1,
      keys := ps.keys.filter (· ≠ k) }, (pruneLoop E ps.basepath ((osJoin ps.basepath (E.toPath k)).length + 1)
        (ps.fs.rmtree (resolve ps.basepath ++ comps k)) (some (upath ps.basepath (comps k) (E.depth - 1)))).2) := by
    have hn : (ps.fs.lookup (resolve ps.basepath ++ comps k)).isNone = false := by
      rw [← Option.not_isSome, hdir]; rfl
    simp only [PS.del, if_pos hk, hres, hn, hstrip, Bool.false_eq_true, if_false]
  rw [e]
  refine ⟨h1, h2, rfl, rfl, fun q => ?_⟩
  simp only
  rw [h3 q, lookup_rmtree]
  by_cases hq : resolve ps.basepath ++ comps k <+: q
  · simp [hq]
  · simp [hq]

/-- `set` of a key and a dataframe when the write succeeds. -/
theorem set_spec (hE : Lawful E comps) {ps : PS K C} (hb : PlainBase ps.basepath) {k : K} {w : W} {c : C}
    (hw : E.writer w ((ps.fs.lookup (resolve ps.basepath ++ comps k)).getD E.empty) = some c) :
    ps.set E (some k) true w = ({ ps with
      fs := (ps.fs.mkdirs E.empty (resolve ps.basepath ++ comps k)).put (resolve ps.basepath ++ comps k) c,
      keys := if k ∈ ps.keys then ps.keys else sortedAdd E.lt k ps.keys }, none) := by
  simp only [PS.set, resolve_dir hE hb, hw]
  rfl

theorem set_fail (hE : Lawful E comps) {ps : PS K C} (hb : PlainBase ps.basepath) {k : K} {w : W}
    (hw : E.writer w ((ps.fs.lookup (resolve ps.basepath ++ comps k)).getD E.empty) = none) :
    ps.set E (some k) true w = (ps, some .writer) := by
  simp only [PS.set, resolve_dir hE hb, hw]
  rfl

/-- A dataset is stored for `k`. -/
def Stored (E : Env K C W) (comps : K → List Str) (base : Path) (fs : FS C) (k : K) : Prop :=
  ∃ c, fs.lookup (base ++ comps k) = some c ∧ (E.names c).any isParquetFile = true

/-- Invariant of a collection. -/
structure Inv (E : Env K C W) (comps : K → List Str) (ps : PS K C) : Prop where
  base : PlainBase ps.basepath
  wf : ps.fs.WF
  canonical : Canonical E comps (resolve ps.basepath) ps.fs
  noStray : NoStray E comps (resolve ps.basepath) ps.fs
  sorted : ps.keys.Pairwise fun a b => E.lt a b = true
  mem : ∀ k, k ∈ ps.keys ↔ Stored E comps (resolve ps.basepath) ps.fs k

theorem Inv.openAt (hE : Lawful E comps) {base : Str} {fs : FS C} (hb : PlainBase base) (hwf : fs.WF)
    (hcan : Canonical E comps (resolve base) fs) (hns : NoStray E comps (resolve base) fs) :
    Inv E comps (PS.openAt E base fs) :=
  ⟨hb, hwf, hcan, hns, getKeys_sorted hE fs base, mem_getKeys hE hwf hcan⟩

theorem Inv.dirExists {ps : PS K C} (h : Inv E comps ps) {k : K} (hk : k ∈ ps.keys) :
    (ps.fs.lookup (resolve ps.basepath ++ comps k)).isSome := by
  obtain ⟨c, hc, _⟩ := (h.mem k).1 hk
  simp [hc]

theorem Inv.del_unknown {ps : PS K C} {k : K} (hk : k ∉ ps.keys) : ps.del E k = (ps, none) := by
  simp [PS.del, hk]

theorem Inv.lookup_del (hE : Lawful E comps) {ps : PS K C} (h : Inv E comps ps) {k : K} (hk : k ∈ ps.keys) (k' : K) :
    (ps.del E k).1.fs.lookup (resolve ps.basepath ++ comps k') =
      if k' = k then none else ps.fs.lookup (resolve ps.basepath ++ comps k') := by
  classical
  obtain ⟨_, _, _, _, h5⟩ := del_spec hE h.base h.wf hk (h.dirExists hk)
  rw [h5]
  by_cases e : k' = k
  · subst e; simp
  · rw [if_neg e, if_neg]
    rintro (h1 | h1)
    · exact e (comps_prefix hE h1).symm
    · have := h1.2.2.1.length_le
      have hd := hE.pos
      have hl := hE.length k
      have hl' := hE.length k'
      simp only [List.length_append, List.length_take] at this
      omega

theorem Inv.del (hE : Lawful E comps) {ps : PS K C} (h : Inv E comps ps) (k : K) :
    (ps.del E k).2 = none ∧ Inv E comps (ps.del E k).1 ∧ (ps.del E k).1.basepath = ps.basepath := by
  classical
  by_cases hk : k ∈ ps.keys
  · obtain ⟨h1, h2, h3, h4, h5⟩ := del_spec hE h.base h.wf hk (h.dirExists hk)
    have sub : ∀ q c, (ps.del E k).1.fs.lookup q = some c → ps.fs.lookup q = some c := by
      intro q c hq
      rw [h5] at hq
      split at hq
      · cases hq
      · exact hq
    refine ⟨h1, ⟨by rw [h4]; exact h.base, h2, ?_, ?_, ?_, ?_⟩, h4⟩
    · rw [h4]; exact fun rel c k' hl => h.canonical rel c k' (sub _ _ hl)
    · rw [h4]; exact fun k' c hl => h.noStray k' c (sub _ _ hl)
    · rw [h3]; exact h.sorted.filter _
    · intro k'
      rw [h3, h4, List.mem_filter, h.mem k', Stored, Stored, h.lookup_del hE hk]
      by_cases e : k' = k <;> simp [e]
  · rw [Inv.del_unknown hk]; exact ⟨rfl, h, rfl⟩

theorem mkdirs_comps (hE : Lawful E comps) (fs : FS C) (base : Path) (k k' : K) (c : C) :
    ((fs.mkdirs E.empty (base ++ comps k)).put (base ++ comps k) c).lookup (base ++ comps k') =
      if k' = k then some c else fs.lookup (base ++ comps k') := by
  rw [lookup_mkdirs_put]
  by_cases e : k' = k
  · subst e; simp
  · have h1 : base ++ comps k' ≠ base ++ comps k := fun h => e (comps_inj hE (List.append_cancel_left h))
    have h2 : ¬ base ++ comps k' <+: base ++ comps k := fun h => e (comps_prefix hE h)
    rw [if_neg h1, if_neg e, if_neg h2]
    cases fs.lookup (base ++ comps k') <;> simp

theorem Inv.set (hE : Lawful E comps) {ps : PS K C} (h : Inv E comps ps) (key : Option K) (isDf : Bool) (w : W) :
    Inv E comps (ps.set E key isDf w).1 ∧ (ps.set E key isDf w).1.basepath = ps.basepath := by
  cases key with
  | none => exact ⟨h, rfl⟩
  | some k =>
    cases isDf with
    | false => exact ⟨h, rfl⟩
    | true =>
      cases hw : E.writer w ((ps.fs.lookup (resolve ps.basepath ++ comps k)).getD E.empty) with
      | none => rw [set_fail hE h.base hw]; exact ⟨h, rfl⟩
      | some c =>
        have hpq := hE.writes _ _ _ hw
        rw [set_spec hE h.base hw]
        refine ⟨⟨h.base, h.wf.mkdirs_put _ _ _, ?_, ?_, ?_, ?_⟩, rfl⟩
        · intro rel c' k' hl hr hp hk'
          simp only at hl
          rw [lookup_mkdirs_put] at hl
          by_cases e : rel = comps k
          · subst e
            rw [hE.back] at hk'
            cases hk'; rfl
          · rw [if_neg (fun h => e (List.append_cancel_left h))] at hl
            split at hl
            · exact h.canonical rel c' k' hl hr hp hk'
            · split at hl
              · cases hl
                rw [hE.noFile] at hp; simp at hp
              · cases hl
        · intro k' c' hl
          simp only at hl
          rw [mkdirs_comps hE] at hl
          split at hl
          · cases hl; exact Or.inl hpq
          · exact h.noStray k' c' hl
        · simp only
          split
          · exact h.sorted
          · exact sortedAdd_sorted hE _ _ h.sorted
        · intro k'
          simp only [Stored]
          rw [mkdirs_comps hE]
          have hm : (k' ∈ if k ∈ ps.keys then ps.keys else sortedAdd E.lt k ps.keys) ↔ k' = k ∨ k' ∈ ps.keys := by
            split
            · rename_i hk
              constructor
              · exact Or.inr
              · rintro (rfl | h)
                · exact hk
                · exact h
            · exact mem_sortedAdd _ _ _ _
          rw [hm, h.mem k', Stored]
          by_cases e : k' = k
          · simp [e]; simpa using hpq
          · simp [e]

theorem Inv.step (hE : Lawful E comps) {ps : PS K C} (h : Inv E comps ps) (op : Op K W) :
    Inv E comps (ps.step E op).1 ∧ (ps.step E op).1.basepath = ps.basepath := by
  cases op with
  | set k d w => exact h.set hE k d w
  | del k => exact (h.del hE k).2

theorem Inv.run (hE : Lawful E comps) {ps : PS K C} (h : Inv E comps ps) (ops : List (Op K W)) :
    Inv E comps (ps.run E ops) ∧ (ps.run E ops).basepath = ps.basepath := by
  induction ops generalizing ps with
  | nil => exact ⟨h, rfl⟩
  | cons op ops ih =>
    obtain ⟨h1, h2⟩ := h.step hE op
    obtain ⟨h3, h4⟩ := ih h1
    exact ⟨h3, h4.trans h2⟩

end
end Oups.Collection
