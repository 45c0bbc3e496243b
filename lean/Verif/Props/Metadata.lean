import Verif.Proofs.Metadata
/-! Properties C21 and C22: metadata written along with the data. -/
set_option linter.unusedSimpArgs false
namespace Oups.Metadata
variable {U S K V M : Type} [DecidableEq U] [DecidableEq K] [DecidableEq M]

/-! ### C21 -/

theorem ofItems_mem {new : List (K × Option V)} (hn : (new.map Prod.fst).Nodup) {k : K} {v : Option V}
    (h : (k, v) ∈ new) : ofItems new k = some v := by
  induction new with
  | nil => simp at h
  | cons i new ih =>
    obtain ⟨a, b⟩ := i
    rw [List.map_cons, List.nodup_cons] at hn
    rcases List.mem_cons.1 h with he | h
    · cases he; simp [ofItems, Dict.set]
    · have hne : k ≠ a := fun e => hn.1 (List.mem_map.2 ⟨(k, v), h, e⟩)
      simp [ofItems, Dict.set, hne, ih hn.2 h]

theorem ofItems_other {new : List (K × Option V)} {k : K} (h : k ∉ new.map Prod.fst) : ofItems new k = none := by
  induction new with
  | nil => rfl
  | cons i new ih =>
    obtain ⟨a, b⟩ := i
    rw [List.map_cons, List.mem_cons, not_or] at h
    simp only at h
    simp [ofItems, Dict.set, h.1, ih h.2]

/-- **C21** Registered oups metadata merged with those of the dataset: an item with value `None` is removed, an
item already there is replaced, a new item is added (if its value is not 'falsy'), others are left as they are. -/
theorem C21_merge {truthy : V → Bool} {tk : M → Bool} {file : FileMd U S K V}
    {pending : M → Option (List (K × Option V))} {metadata : Option (UserDict U S K V)} {key : M} {ex : Dict K V}
    {new : List (K × Option V)} (hk : tk key = true) (hp : pending key = some new)
    (hn : (new.map Prod.fst).Nodup) (hex : file.oups = some ex) :
    ∃ res, (writeMetadata truthy tk file pending metadata (some key)).file.oups = some res ∧
      (∀ k, (k, none) ∈ new → res k = none) ∧
      (∀ k v, (k, some v) ∈ new → ex k ≠ none ∨ truthy v = true → res k = some (some v)) ∧
      (∀ k v, (k, some v) ∈ new → ex k = none → truthy v = false → res k = none) ∧
      (∀ k, k ∉ new.map Prod.fst → res k = ex k) := by
  refine ⟨new.foldl (mergeItem truthy) ex, ?_, ?_, ?_, ?_, ?_⟩
  · simp only [writeMetadata, hk, hp, hex, newOups]
    cases metadata with
    | none => rfl
    | some d => simp only; split <;> rfl
  · intro k h
    rw [fold_mem _ _ _ hn h, mergeItem]
    simp only
    cases hx : ex k with
    | none => simp only; exact hx
    | some _ => simp [Dict.set]
  · intro k v h hc
    rw [fold_mem _ _ _ hn h, mergeItem]
    simp only
    cases hx : ex k with
    | none =>
      rcases hc with hc | hc
      · exact absurd hx hc
      · simp [hc, Dict.set]
    | some _ => simp [Dict.set]
  · intro k v h hx ht
    rw [fold_mem _ _ _ hn h, mergeItem]
    simp [hx, ht]
  · intro k h
    exact fold_other _ _ _ h

/-- **C21** First registered oups metadata of a dataset: all items are recorded, including those with value `None`. -/
theorem C21_first {truthy : V → Bool} {tk : M → Bool} {file : FileMd U S K V}
    {pending : M → Option (List (K × Option V))} {metadata : Option (UserDict U S K V)} {key : M}
    {new : List (K × Option V)} (hk : tk key = true) (hp : pending key = some new)
    (hn : (new.map Prod.fst).Nodup) (hex : file.oups = none) :
    ∃ res, (writeMetadata truthy tk file pending metadata (some key)).file.oups = some res ∧
      (∀ k v, (k, v) ∈ new → res k = some v) ∧ (∀ k, k ∉ new.map Prod.fst → res k = none) := by
  refine ⟨ofItems new, ?_, fun k v h => ofItems_mem hn h, fun k h => ofItems_other h⟩
  simp only [writeMetadata, hk, hp, hex, newOups]
  cases metadata with
  | none => rfl
  | some d => simp only; split <;> rfl

theorem foldUser_other {user : U → Option S} {items : List (U × Option S)} {u : U} (h : u ∉ items.map Prod.fst) :
    items.foldl (fun f p => fun u => if u = p.1 then p.2 else f u) user u = user u := by
  induction items generalizing user with
  | nil => rfl
  | cons i items ih =>
    rw [List.map_cons, List.mem_cons, not_or] at h
    rw [List.foldl_cons, ih h.2, if_neg h.1]

theorem foldUser_mem {user : U → Option S} {items : List (U × Option S)} (hn : (items.map Prod.fst).Nodup) {u : U}
    {v : Option S} (h : (u, v) ∈ items) :
    items.foldl (fun f p => fun u => if u = p.1 then p.2 else f u) user u = v := by
  induction items generalizing user with
  | nil => simp at h
  | cons i items ih =>
    rw [List.map_cons, List.nodup_cons] at hn
    rw [List.foldl_cons]
    rcases List.mem_cons.1 h with rfl | h
    · rw [foldUser_other hn.1, if_pos rfl]
    · exact ih hn.2 h

/-- **C21** The user's own metadata: items given are set, or removed if `None`; others are left. Metadata not
asked to be written leave oups metadata as they are. -/
theorem C21_user {truthy : V → Bool} {tk : M → Bool} {file : FileMd U S K V}
    {pending : M → Option (List (K × Option V))} {items : List (U × Option S)} {mdKey : Option M}
    (hn : (items.map Prod.fst).Nodup) :
    let res := (writeMetadata truthy tk file pending (some ⟨items, none⟩) mdKey).file
    (∀ u v, (u, v) ∈ items → res.user u = v) ∧ (∀ u, u ∉ items.map Prod.fst → res.user u = file.user u) ∧
    (mdKey = none → res.oups = file.oups) := by
  have key : (writeMetadata truthy tk file pending (some ⟨items, none⟩) mdKey).file.user =
      items.foldl (fun f p => fun u => if u = p.1 then p.2 else f u) file.user := by
    cases items with
    | nil =>
      simp only [writeMetadata, UserDict.nonEmpty]
      cases mdKey with
      | none => rfl
      | some k => simp only; split <;> rfl
    | cons i items =>
      simp only [writeMetadata, UserDict.nonEmpty]
      cases mdKey with
      | none => rfl
      | some k => simp only; split <;> rfl
  refine ⟨fun u v h => ?_, fun u h => ?_, fun h => ?_⟩
  · rw [key]; exact foldUser_mem hn h
  · rw [key]; exact foldUser_other h
  · subst h
    simp only [writeMetadata, updateCustom]
    split <;> rfl

/-- Keys 0 and 1 recorded; 0 removed, 1 replaced, 2 added, 3 not added. -/
example : ∃ res : Dict Nat Nat,
    (writeMetadata (U := Nat) (S := Nat) (M := Nat) (fun v => v ≠ 0) (fun _ => true)
      ⟨fun _ => none, some (ofItems [(0, some 5), (1, some 6), (4, some 9)])⟩
      (fun k => if k = 7 then some [(0, none), (1, some 8), (2, some 3), (3, none)] else none) none (some 7)).file.oups
      = some res ∧ [0, 1, 2, 3, 4].map res = [none, some (some 8), some (some 3), none, some (some 9)] :=
  ⟨_, rfl, rfl⟩

/-- **C21** fails on the first write: an item with value `None` is recorded as such, instead of not being added. -/
theorem C21_first_none_fails :
    ∃ res : Dict Nat Nat, (writeMetadata (U := Nat) (S := Nat) (M := Nat) (fun v => v ≠ 0) (fun _ => true)
      ⟨fun _ => none, none⟩ (fun k => if k = 7 then some [(0, none)] else none) none (some 7)).file.oups = some res ∧
      res 0 = some none := ⟨_, rfl, rfl⟩

/-- **C21** fails for a falsy value (for example 0): it is dropped if the item is not already there. -/
theorem C21_falsy_fails :
    ∃ res : Dict Nat Nat, (writeMetadata (U := Nat) (S := Nat) (M := Nat) (fun v => v ≠ 0) (fun _ => true)
      ⟨fun _ => none, some (ofItems [])⟩ (fun k => if k = 7 then some [(1, some 0)] else none) none
      (some 7)).file.oups = some res ∧ res 1 = none := ⟨_, rfl, rfl⟩

/-! ### C22 -/

/-- **C22** Whatever the interleaving of registrations and writes over several datasets, the metadata of a
dataset, and those registered for it, only depend on the operations on this dataset. -/
theorem C22_isolation (truthy : V → Bool) (tk : M → Bool) (s : Store U S K V M) (ops : List (Op U S K V M)) (k : M) :
    (runOps truthy tk s ops).files k =
      (runOps truthy tk s (ops.filter fun o => o.key = k)).files k ∧
    (runOps truthy tk s ops).pending k =
      (runOps truthy tk s (ops.filter fun o => o.key = k)).pending k := by
  have gen : ∀ (ops : List (Op U S K V M)) (s s' : Store U S K V M), s.files k = s'.files k → s.pending k = s'.pending k →
      (runOps truthy tk s ops).files k = (runOps truthy tk s' (ops.filter fun o => o.key = k)).files k ∧
      (runOps truthy tk s ops).pending k = (runOps truthy tk s' (ops.filter fun o => o.key = k)).pending k := by
    intro ops
    induction ops with
    | nil => intro s s' h1 h2; exact ⟨h1, h2⟩
    | cons o ops ih =>
      intro s s' h1 h2
      by_cases ho : o.key = k
      · rw [List.filter_cons_of_pos (by simpa using ho)]
        have := stepOp_same truthy tk s s' o ho h1 h2
        exact ih _ _ this.1 this.2
      · rw [List.filter_cons_of_neg (by simpa using ho)]
        have := stepOp_other truthy tk s o ho
        exact ih _ _ (this.1.trans h1) (this.2.trans h2)
  exact gen ops s s rfl rfl

/-- **C22** Metadata registered for a dataset are recorded by the next write for this key, once: they are not
pending any longer. Those of other keys still are. -/
theorem C22_consumed {truthy : V → Bool} {tk : M → Bool} {file : FileMd U S K V}
    {pending : M → Option (List (K × Option V))} {metadata : Option (UserDict U S K V)} {key : M} (hk : tk key = true) :
    let res := writeMetadata truthy tk file pending metadata (some key)
    res.pending key = none ∧ ∀ k, k ≠ key → res.pending k = pending k := by
  simp only [writeMetadata, hk]
  cases hp : pending key with
  | none => simp [hp]
  | some new =>
    simp only
    cases metadata with
    | none => simp +contextual
    | some d => simp only; split <;> simp +contextual

/-- **C22** Without `md_key`, no registered metadata is consumed, nor written. -/
theorem C22_no_key {truthy : V → Bool} {tk : M → Bool} {file : FileMd U S K V}
    {pending : M → Option (List (K × Option V))} {items : Option (List (U × Option S))} :
    let res := writeMetadata truthy tk file pending (items.map fun i => ⟨i, none⟩) none
    res.pending = pending ∧ res.file.oups = file.oups := by
  refine ⟨rfl, ?_⟩
  cases items with
  | none => rfl
  | some i =>
    simp only [writeMetadata, Option.map_some]
    split <;> rfl

/-- **C22** The dict given by the caller: left as it is when nothing is registered for the key, oups metadata in it being then
recorded; else the metadata recorded are added to it, unless it is empty. -/
theorem C22_caller_dict {truthy : V → Bool} {tk : M → Bool} {file : FileMd U S K V}
    {pending : M → Option (List (K × Option V))} {d : UserDict U S K V} {mdKey : Option M} :
    let res := writeMetadata truthy tk file pending (some d) mdKey
    ((∀ k, mdKey = some k → tk k = false ∨ pending k = none) → res.userDict = some d ∧ res.file.oups = d.oups.or file.oups) ∧
    ∀ k new, mdKey = some k → tk k = true → pending k = some new →
      res.file.oups = some (newOups truthy file.oups new) ∧
      (d.items = [] ∧ d.oups = none → res.userDict = some d) ∧
      (d.items ≠ [] ∨ d.oups ≠ none → res.userDict = some { d with oups := res.file.oups }) := by
  obtain ⟨items, o⟩ := d
  have plain : ∀ f : FileMd U S K V, (if UserDict.nonEmpty ⟨items, o⟩ then updateCustom f ⟨items, o⟩ else f).oups = o.or f.oups := by
    intro f
    cases o with
    | none => simp only [updateCustom]; split <;> rfl
    | some x => simp [UserDict.nonEmpty, updateCustom]
  constructor
  · intro h
    cases mdKey with
    | none => exact ⟨rfl, plain file⟩
    | some k =>
      simp only [writeMetadata]
      rcases h k rfl with h | h
      · simp only [h]; exact ⟨trivial, plain file⟩
      · cases tk k <;> simp only [h] <;> exact ⟨trivial, plain file⟩
  · rintro k new rfl hk hp
    simp only [writeMetadata, hk, hp]
    by_cases hd : items = [] ∧ o = none
    · obtain ⟨rfl, rfl⟩ := hd
      simp [UserDict.nonEmpty, updateCustom]
    · have : UserDict.nonEmpty (⟨items, o⟩ : UserDict U S K V) = true := by
        cases items <;> cases o <;> simp_all [UserDict.nonEmpty]
      simp only [this, if_true, updateCustom]
      exact ⟨trivial, fun h => absurd h hd, fun _ => trivial⟩

/-- Two datasets 0 and 1, interleaved. -/
example : ∃ d0 d1 : Dict Nat Nat,
    let s := runOps (U := Nat) (S := Nat) (fun v => v ≠ 0) (fun _ => true) ⟨fun _ => ⟨fun _ => none, none⟩, fun _ => none⟩
      [.register 0 [(5, some 1)], .register 1 [(5, some 2)], .write 1 none true, .write 0 (some [(3, some 4)]) true]
    (s.files 0).oups = some d0 ∧ (s.files 1).oups = some d1 ∧ d0 5 = some (some 1) ∧ d1 5 = some (some 2) ∧
      (s.files 0).user 3 = some 4 ∧ (s.files 1).user 3 = none := ⟨_, _, rfl, rfl, rfl, rfl, rfl, rfl⟩

/-- **C22** fails when the same (non-empty) `metadata` dict object is given to two writes: the first write adds
the oups metadata of the first dataset to the caller's dict, and the second write then records them in the other
dataset. -/
theorem C22_shared_dict_fails :
    ∃ (d : UserDict Nat Nat Nat Nat) (leak : Dict Nat Nat),
      let r := writeMetadata (M := Nat) (fun v => v ≠ 0) (fun _ => true) ⟨fun _ => none, none⟩
        (fun k => if k = 7 then some [(0, some 5)] else none) (some ⟨[(1, some 1)], none⟩) (some 7)
      r.userDict = some d ∧
      (writeMetadata (M := Nat) (fun v => v ≠ 0) (fun _ => true) ⟨fun _ => none, none⟩ r.pending (some d)
        (some 8)).file.oups = some leak ∧ leak 0 = some (some 5) := ⟨_, _, rfl, rfl, rfl⟩

end Oups.Metadata
