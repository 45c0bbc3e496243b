import Verif.Model.SubClass
import Verif.Spec.SubClass
import Verif.Props.KeySet
/-! C81: keys of classes derived from the indexer class. -/
set_option linter.unusedSimpArgs false
namespace Oups.KeySet
open Oups.Indexer (Str FVal Schema)
open Oups.Collection (Env FS Op resolve osJoin pruneLoop stripPathTail getKeys sortedAdd)

section
variable {K C W : Type} [DecidableEq K] {E : Env K C W} {path : Nat → K → Str} {lt : K → K → Except Err Bool} {t : Nat}

theorem tag_inj {t : Nat} {a b : K} : ((t, a) = (t, b)) ↔ a = b := by simp

theorem tag_mem {t : Nat} {a : K} {l : List K} : (t, a) ∈ l.map (fun k => (t, k)) ↔ a ∈ l := by simp

theorem tag_bisectRight (x : K) (l : List K) : ∀ (n lo hi : Nat), hi - lo = n →
    bisectRight (tagLt lt) (t, x) (l.map fun k => (t, k)) lo hi = bisectRight lt x l lo hi := by
  intro n
  induction n using Nat.strong_induction_on with
  | _ n ih =>
    intro lo hi hn
    rw [bisectRight, bisectRight.eq_def lt]
    by_cases hlo : lo < hi
    · rw [if_pos hlo, if_pos hlo, List.getElem?_map]
      cases hy : l[(lo + hi) / 2]? with
      | none => rfl
      | some y =>
        simp only [Option.map_some, tagLt, if_true]
        cases lt x y with
        | error e => rfl
        | ok b =>
          cases b with
          | true => exact ih _ (by omega) _ _ rfl
          | false => exact ih _ (by omega) _ _ rfl
    · rw [if_neg hlo, if_neg hlo]

theorem tag_bisectLeft (x : K) (l : List K) : ∀ (n lo hi : Nat), hi - lo = n →
    bisectLeft (tagLt lt) (t, x) (l.map fun k => (t, k)) lo hi = bisectLeft lt x l lo hi := by
  intro n
  induction n using Nat.strong_induction_on with
  | _ n ih =>
    intro lo hi hn
    rw [bisectLeft, bisectLeft.eq_def lt]
    by_cases hlo : lo < hi
    · rw [if_pos hlo, if_pos hlo, List.getElem?_map]
      cases hy : l[(lo + hi) / 2]? with
      | none => rfl
      | some y =>
        simp only [Option.map_some, tagLt, if_true]
        cases lt y x with
        | error e => rfl
        | ok b =>
          cases b with
          | true => exact ih _ (by omega) _ _ rfl
          | false => exact ih _ (by omega) _ _ rfl
    · rw [if_neg hlo, if_neg hlo]

theorem tag_listAdd (x : K) (l : List K) : listAdd (tagLt lt) (t, x) (l.map fun k => (t, k)) =
    (listAdd lt x l).map fun r => r.map fun k => (t, k) := by
  unfold listAdd
  rw [List.getLast?_map]
  cases l.getLast? with
  | none => rfl
  | some m =>
    simp only [Option.map_some, tagLt, if_true]
    cases lt x m with
    | error e => rfl
    | ok b =>
      cases b with
      | false => simp [Except.map]
      | true =>
        simp only [List.length_map, tag_bisectRight x l _ 0 l.length rfl]
        cases bisectRight lt x l 0 l.length with
        | error e => rfl
        | ok i => simp [Except.map, List.map_take, List.map_drop]

theorem tag_listRemove (x : K) (l : List K) : listRemove (tagLt lt) (t, x) (l.map fun k => (t, k)) =
    (listRemove lt x l).map fun r => r.map fun k => (t, k) := by
  unfold listRemove
  rw [List.getLast?_map]
  cases l.getLast? with
  | none => rfl
  | some m =>
    simp only [Option.map_some, tagLt, if_true]
    cases lt m x with
    | error e => rfl
    | ok b =>
      cases b with
      | true => rfl
      | false =>
        simp only [List.length_map, tag_bisectLeft x l _ 0 l.length rfl]
        cases bisectLeft lt x l 0 l.length with
        | error e => rfl
        | ok i =>
          simp only [List.getElem?_map]
          by_cases h : l[i]? = some x
          · simp [h, Except.map, List.map_take, List.map_drop]
          · have : ¬ (l[i]?.map fun k => (t, k)) = some (t, x) := by
              cases hl : l[i]? with
              | none => simp
              | some y => rw [hl] at h; simpa using h
            simp [h, this, Except.map]

theorem tag_filter (x : K) (l : List K) : (l.map fun k => (t, k)).filter (· ≠ (t, x)) = (l.filter (· ≠ x)).map fun k => (t, k) := by
  rw [List.filter_map]
  congr 1
  apply List.filter_congr
  intro a _
  simp

theorem tag_pruneLoop (base : Str) : ∀ (n : Nat) (fs : FS C) (u : Option Str),
    pruneLoop (tagEnv E path) base n fs u = pruneLoop E base n fs u := by
  intro n
  induction n with
  | zero => intros; rfl
  | succ n ih =>
    intro fs u
    cases u with
    | none => rfl
    | some u =>
      simp only [pruneLoop, show (tagEnv E path).names = E.names from rfl, ih]

theorem tag_step (hp : ∀ k, path t k = E.toPath k) (s : Coll K C) (op : Op K W) :
    (s.asClass t).step (tagEnv E path) (tagLt lt) (asClass t op) = (((s.step E lt op).1).asClass t, (s.step E lt op).2) := by
  cases op with
  | set key isDf w =>
    cases key with
    | none => rfl
    | some k =>
      simp only [asClass, Option.map_some, Coll.step, Coll.set]
      cases isDf with
      | false => rfl
      | true =>
        simp only [Bool.not_true, Bool.false_eq_true, if_false, show (tagEnv E path).toPath (t, k) = E.toPath k from hp k,
          show (tagEnv E path).writer = E.writer from rfl, show (tagEnv E path).empty = E.empty from rfl, Coll.asClass]
        cases E.writer w ((s.fs.lookup (resolve (osJoin s.basepath (E.toPath k)))).getD E.empty) with
        | none => rfl
        | some c =>
          simp only [tag_mem]
          by_cases hk : k ∈ s.keys.set
          · simp only [if_pos hk]
          · simp only [if_neg hk, SSet.add, tag_mem, tag_listAdd]
            cases listAdd lt k s.keys.list with
            | error e => rfl
            | ok l => rfl
  | del k =>
    simp only [asClass, Coll.step, Coll.del]
    simp only [show (tagEnv E path).toPath (t, k) = E.toPath k from hp k, Coll.asClass, tag_mem]
    by_cases hk : k ∈ s.keys.set
    · simp only [if_pos hk]
      by_cases hl : (s.fs.lookup (resolve (osJoin s.basepath (E.toPath k)))).isNone
      · simp only [if_pos hl]
      · simp only [if_neg hl, SSet.remove, tag_listRemove, tag_filter]
        cases listRemove lt k s.keys.list with
        | error e => rfl
        | ok l => simp only [Except.map, tag_pruneLoop]
    · simp only [if_neg hk]

theorem tag_run (hp : ∀ k, path t k = E.toPath k) (s : Coll K C) (ops : List (Op K W)) :
    (s.asClass t).run (tagEnv E path) (tagLt lt) (ops.map (asClass t)) = (s.run E lt ops).asClass t := by
  induction ops generalizing s with
  | nil => rfl
  | cons op ops ih =>
    simp only [Coll.run, List.map_cons, List.foldl_cons, tag_step hp] at ih ⊢
    exact ih _

theorem tag_sortedAdd (k : K) (l : List K) :
    sortedAdd (fun a b : Nat × K => E.lt a.2 b.2) (t, k) (l.map fun k => (t, k)) = (sortedAdd E.lt k l).map fun k => (t, k) := by
  induction l with
  | nil => rfl
  | cons a l ih =>
    simp only [List.map_cons, sortedAdd, tag_inj]
    by_cases h : k = a
    · simp only [if_pos h, List.map_cons]
    · simp only [if_neg h]
      by_cases h2 : E.lt k a = true
      · simp only [if_pos h2, List.map_cons]
      · simp only [if_neg h2, List.map_cons, ih]

/-- **C81** A collection opened has keys of the indexer class only, whatever the class of those written. -/
theorem C81_reopened (E : Env K C W) (path : Nat → K → Str) (base : Str) (fs : FS C) :
    Coll.openAt (tagEnv E path) base fs = (Coll.openAt E base fs).asClass 0 := by
  have hk : getKeys (tagEnv E path) fs base = (getKeys E fs base).map fun k => (0, k) := by
    simp only [getKeys]
    have h1 : ∀ (l : List K) (acc : List K), (l.map fun k => (0, k)).foldl (fun l k => sortedAdd (tagEnv E path).lt k l)
        (acc.map fun k => (0, k)) = (l.foldl (fun l k => sortedAdd E.lt k l) acc).map fun k => (0, k) := by
      intro l
      induction l with
      | nil => intro acc; rfl
      | cons a l ih =>
        intro acc
        rw [List.map_cons, List.foldl_cons, List.foldl_cons, ← ih]
        congr 1
        exact tag_sortedAdd a acc
    rw [← List.map_nil (f := fun k : K => ((0 : Nat), k)), ← h1 _ []]
    congr 1
    rw [List.map_filterMap]
    apply congrArg (fun f => List.filterMap f _)
    funext pf
    by_cases h : pf.2.any Collection.isParquetFile = true
    · simp only [if_pos h]; rfl
    · simp only [if_neg h]; rfl
  simp only [Coll.openAt, Coll.asClass, hk]

/-- **C81** Keys of one class only, with the fields and separator of the indexer class: the indexer class itself, or a derived one in a
directory without dataset. The collection is the one with keys of the indexer class: same files, same exceptions, same keys up to
their class, as long as it is in use. Opened again, it has the same keys, of the indexer class. -/
theorem C81_alone (hp : ∀ k, path t k = E.toPath k) {base : Str} {fs : FS C} (h : t = 0 ∨ getKeys E fs base = [])
    (ops : List (Op K W)) (op : Op K W) :
    let s' := (Coll.openAt (tagEnv E path) base fs).run (tagEnv E path) (tagLt lt) (ops.map (asClass t))
    let s := (Coll.openAt E base fs).run E lt ops
    s' = s.asClass t ∧ (s'.step (tagEnv E path) (tagLt lt) (asClass t op)).2 = (s.step E lt op).2 ∧
    Coll.openAt (tagEnv E path) base s'.fs = (Coll.openAt E base s.fs).asClass 0 := by
  have h0 : Coll.openAt (tagEnv E path) base fs = (Coll.openAt E base fs).asClass t := by
    rw [C81_reopened]
    rcases h with rfl | h
    · rfl
    · simp [Coll.openAt, Coll.asClass, h]
  have h1 := tag_run (lt := lt) hp (Coll.openAt E base fs) ops
  rw [← h0] at h1
  refine ⟨h1, ?_, ?_⟩
  · rw [h1, tag_step hp]
  · rw [h1, C81_reopened]; rfl

/-- **C81** fails for two classes: once there are keys of other classes, as after opening a directory with datasets, writing at a key of
class `t` raises `TypeError`, but the data is written, and the key is `in` the collection and not iterated. Deleting it then raises
too, the data being removed. -/
theorem C81_two_classes_fails {s : Coll (Nat × K) C} {k : K} {w : W} {c : C} (hne : s.keys.list ≠ [])
    (hs : ∀ a ∈ s.keys.list, a.1 ≠ t) (hk : (t, k) ∉ s.keys.set) :
    let E' := tagEnv E path
    let dir := resolve (osJoin s.basepath (path t k))
    E.writer w ((s.fs.lookup dir).getD E.empty) = some c →
    let s' := (s.set E' (tagLt lt) (some (t, k)) true w).1
    (s.set E' (tagLt lt) (some (t, k)) true w).2 = some .notOrdered ∧ s'.fs.lookup dir = some c ∧ (t, k) ∈ s'.keys.set ∧
      (t, k) ∉ s'.keys.list ∧ s'.keys.list = s.keys.list ∧ s'.basepath = s.basepath ∧
    (s'.del E' (tagLt lt) (t, k)).2 = some .notOrdered ∧
    (s'.del E' (tagLt lt) (t, k)).1 =
      ⟨s.basepath, ⟨s'.keys.set.filter (· ≠ (t, k)), s.keys.list⟩, s'.fs.rmtree dir⟩ := by
  intro E' dir hw s'
  obtain ⟨m, hm⟩ : ∃ m, s.keys.list.getLast? = some m := by
    cases h : s.keys.list.getLast? with
    | none => exact absurd (List.getLast?_eq_none_iff.1 h) hne
    | some m => exact ⟨m, rfl⟩
  have hmm := hs m (List.mem_of_getLast? hm)
  have hadd : listAdd (tagLt lt) (t, k) s.keys.list = .error .notOrdered := by
    simp only [listAdd, hm, tagLt, if_neg (Ne.symm hmm)]
  have hset : s.set E' (tagLt lt) (some (t, k)) true w =
      ({ s with fs := (s.fs.mkdirs E.empty dir).put dir c, keys := ⟨(t, k) :: s.keys.set, s.keys.list⟩ }, some .notOrdered) := by
    have hw' : E'.writer w ((s.fs.lookup (resolve (osJoin s.basepath (E'.toPath (t, k))))).getD E'.empty) = some c := hw
    simp only [Coll.set, Bool.not_true, Bool.false_eq_true, if_false, hw', if_neg hk, SSet.add, hadd]
    rfl
  have hs' : s' = { s with fs := (s.fs.mkdirs E.empty dir).put dir c, keys := ⟨(t, k) :: s.keys.set, s.keys.list⟩ } := by
    show (s.set E' (tagLt lt) (some (t, k)) true w).1 = _
    rw [hset]
  have hlook : s'.fs.lookup dir = some c := by
    rw [hs']
    simp only [Collection.lookup_put, if_true]
  have hset' : s'.keys.set = (t, k) :: s.keys.set := by rw [hs']
  have hlist' : s'.keys.list = s.keys.list := by rw [hs']
  have hbase' : s'.basepath = s.basepath := by rw [hs']
  have hnl : (t, k) ∉ s.keys.list := fun h => hs _ h rfl
  clear_value s'
  have hrem : listRemove (tagLt lt) (t, k) s'.keys.list = .error .notOrdered := by
    simp only [hlist', listRemove, hm, tagLt, if_neg hmm]
  have hmem : (t, k) ∈ s'.keys.set := by rw [hset']; exact List.mem_cons_self
  have hl2 : (s'.fs.lookup (resolve (osJoin s'.basepath (E'.toPath (t, k))))).isNone = false := by
    rw [hbase', show s'.fs.lookup (resolve (osJoin s.basepath (E'.toPath (t, k)))) = some c from hlook]
    rfl
  have hdel : s'.del E' (tagLt lt) (t, k) =
      (⟨s.basepath, ⟨s'.keys.set.filter (· ≠ (t, k)), s.keys.list⟩, s'.fs.rmtree dir⟩, some .notOrdered) := by
    rw [hbase'] at hl2
    rw [hlist'] at hrem
    simp only [Coll.del, if_pos hmem, hbase', hl2, Bool.false_eq_true, if_false, SSet.remove, hlist', hrem]
    rfl
  exact ⟨by rw [hset], hlook, hmem, by rw [hlist']; exact hnl, hlist', hbase', by rw [hdel], by rw [hdel]⟩

/-- **C81** fails: two keys, one of each class, with the same values have the same directory. Writing at one changes the dataset at the
other, and deleting one deletes both: the other is still in the collection, has no data, and cannot be deleted. -/
theorem C81_same_directory_fails {s : Coll (Nat × K) C} {k : K} {w : W} {c : C} (ht : t ≠ 0) (hp : path t k = path 0 k)
    (h0 : (0, k) ∈ s.keys.set) (hne : s.keys.list ≠ []) (hs : ∀ a ∈ s.keys.list, a.1 = 0) (hk : (t, k) ∉ s.keys.set) :
    let E' := tagEnv E path
    let dir := resolve (osJoin s.basepath (path 0 k))
    E.writer w ((s.fs.lookup dir).getD E.empty) = some c →
    let s' := (s.set E' (tagLt lt) (some (t, k)) true w).1
    let s'' := (s'.del E' (tagLt lt) (t, k)).1
    s'.fs.lookup dir = some c ∧ s''.fs.lookup dir = none ∧ (0, k) ∈ s''.keys.set ∧
    s''.del E' (tagLt lt) (0, k) = (s'', some (.base .fileNotFound)) := by
  intro E' dir hw s' s''
  have hdir : resolve (osJoin s.basepath (path t k)) = dir := by rw [hp]
  obtain ⟨-, g2, -, -, -, -, -, g8⟩ := C81_two_classes_fails (E := E) (path := path) (lt := lt) (t := t) (s := s) (k := k) (w := w) (c := c)
    hne (fun a ha => by rw [hs a ha]; exact Ne.symm ht) hk (by rw [hdir]; exact hw)
  have g8 : s'' = ⟨s.basepath, ⟨s'.keys.set.filter (· ≠ (t, k)), s.keys.list⟩, s'.fs.rmtree (resolve (osJoin s.basepath (path t k)))⟩ := g8
  rw [hdir] at g2 g8
  have hset : (0, k) ∈ s'.keys.set := by
    show (0, k) ∈ (s.set E' (tagLt lt) (some (t, k)) true w).1.keys.set
    have hw' : E'.writer w ((s.fs.lookup (resolve (osJoin s.basepath (E'.toPath (t, k))))).getD E'.empty) = some c := by
      rw [show E'.toPath (t, k) = path 0 k from hp]; exact hw
    simp only [Coll.set, Bool.not_true, Bool.false_eq_true, if_false, hw', if_neg hk, SSet.add]
    split
    · exact List.mem_cons_of_mem _ h0
    · exact List.mem_cons_of_mem _ h0
  have hmem : (0, k) ∈ s''.keys.set := by
    rw [g8]
    simp only [List.mem_filter]
    exact ⟨hset, by simpa using fun h : (0 : Nat) = t => absurd h.symm ht⟩
  have hnone : s''.fs.lookup dir = none := by
    rw [g8, Collection.lookup_rmtree, if_pos List.prefix_rfl]
  have hbase : s''.basepath = s.basepath := by rw [g8]
  clear_value s''
  refine ⟨g2, hnone, hmem, ?_⟩
  have hl : (s''.fs.lookup (resolve (osJoin s''.basepath (E'.toPath (0, k))))).isNone = true := by
    rw [hbase, show s''.fs.lookup (resolve (osJoin s.basepath (E'.toPath (0, k)))) = none from hnone]; rfl
  simp only [Coll.del, if_pos hmem, hl, if_true]

/-- **C81** fails: after opening the directory again, a key of a derived class is not in the collection, and deleting it does nothing,
without an exception. -/
theorem C81_forgotten_fails (ht : t ≠ 0) (base : Str) (fs : FS C) (k : K) :
    let s := Coll.openAt (tagEnv E path) base fs
    (t, k) ∉ s.keys.set ∧ (t, k) ∉ s.keys.list ∧ s.del (tagEnv E path) (tagLt lt) (t, k) = (s, none) := by
  have h : ∀ l : List K, (t, k) ∉ l.map fun k => (0, k) := by
    intro l hl
    obtain ⟨a, _, ha⟩ := List.mem_map.1 hl
    cases ha
    exact ht rfl
  simp only [C81_reopened]
  have h1 : (t, k) ∉ ((Coll.openAt E base fs).asClass 0).keys.set := h _
  exact ⟨h1, h _, by simp only [Coll.del, if_neg h1]⟩

end
/-! ### Examples -/

/-- The collection of C64 with the keys `'a'` and `'c'`, and a derived class. -/
def subColl : Coll (Nat × List FVal) (List Nat) := exColl.asClass 0

def subEnv : Env (Nat × List FVal) (List Nat) Nat := tagEnv exEnv fun _ => exEnv.toPath

-- `'a'` of the derived class: a row is added to the dataset of `'a'`, then both are lost
example : let s' := (subColl.set subEnv (tagLt ltFields) (some (1, [.str ['a']])) true 5).1
    let s'' := (s'.del subEnv (tagLt ltFields) (1, [.str ['a']])).1
    s'.fs.lookup [['d'], ['a']] = some [1, 5] ∧ s''.fs.lookup [['d'], ['a']] = none ∧ (0, [FVal.str ['a']]) ∈ s''.keys.set ∧
    (s''.del subEnv (tagLt ltFields) (0, [.str ['a']])).2 = some (.base .fileNotFound) := by
  have h := C81_same_directory_fails (E := exEnv) (path := fun _ => exEnv.toPath) (lt := ltFields) (t := 1) (s := subColl)
    (k := [.str ['a']]) (w := 5) (c := [1, 5]) (by decide) rfl (by simp [subColl, Coll.asClass, exColl])
    (by simp [subColl, Coll.asClass, exColl]) (by simp [subColl, Coll.asClass, exColl]) (by simp [subColl, Coll.asClass, exColl])
    (by rw [ex_pathA]; rfl)
  rw [ex_pathA] at h
  exact ⟨h.1, h.2.1, h.2.2.1, congrArg Prod.snd h.2.2.2⟩

-- a derived class alone, in an empty directory
example : let s' := (Coll.openAt subEnv ['d'] [([['d']], [])]).run subEnv (tagLt ltFields) [.set (some (1, [.str ['a']])) true 5]
    s'.keys.list = [(1, [.str ['a']])] ∧ s'.fs.lookup [['d'], ['a']] = some [5] := by
  have h := (C81_alone (E := exEnv) (path := fun _ => exEnv.toPath) (lt := ltFields) (t := 1) (fun _ => rfl) (base := ['d'])
    (fs := [([['d']], [])]) (Or.inr (by rfl)) [.set (some [.str ['a']]) true 5] (.del [])).1
  have h : (Coll.openAt subEnv ['d'] [([['d']], [])]).run subEnv (tagLt ltFields) [.set (some (1, [.str ['a']])) true 5] =
    ((Coll.openAt exEnv ['d'] [([['d']], [])]).run exEnv ltFields [.set (some [.str ['a']]) true 5]).asClass 1 := h
  simp only [h]
  have h2 : (Coll.openAt exEnv ['d'] [([['d']], [])]).run exEnv ltFields [.set (some [.str ['a']]) true 5] =
      ⟨['d'], ⟨[[.str ['a']]], [[.str ['a']]]⟩, [([['d']], []), ([], []), ([['d'], ['a']], [5])]⟩ := by
    simp only [Coll.run, List.foldl_cons, List.foldl_nil, Coll.step, Coll.set, Bool.not_true, Bool.false_eq_true, if_false, ex_pathA]
    rfl
  rw [h2]
  exact ⟨rfl, rfl⟩

end Oups.KeySet
