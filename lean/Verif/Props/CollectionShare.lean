import Verif.Proofs.CollectionShare
/-! C79: several collections in use on the same files. -/
namespace Oups.Collection
open Oups.Indexer (Str join)

section
variable {K C W : Type} [DecidableEq K] {E : Env K C W} {comps : K → List Str}

/-- **C79** Any number of instances on one directory, opened at any time, used in any order: the datasets are those of one
dictionary on which all the operations apply one after the other, the keys of each instance are those it knows of, sorted,
and each action raises what is expected. -/
theorem C79_shared (hE : Lawful E comps) {base : Str} {fs : FS C} (hb : PlainBase base) (hwf : fs.WF)
    (hcan : Canonical E comps (resolve base) fs) (ht : Tidy E comps (resolve base) fs) (as : List (Act K W)) :
    let r := Share.run E base ⟨[], fs⟩ as
    let v := View.run E.writer E.empty ⟨storedDict E comps (resolve base) fs, []⟩ as
    storedDict E comps (resolve base) r.1.fs = v.1.dict ∧ r.2 = v.2 ∧ r.1.insts.length = v.1.known.length ∧
    ∀ (i : Nat) ps, r.1.inst base i = some ps → ∃ f, v.1.known[i]? = some f ∧ (∀ k, k ∈ ps.keys ↔ f k = true) ∧
      ps.keys.Pairwise (fun a b => E.lt a b = true) := by
  obtain ⟨h1, h2⟩ := (Rel.start (E := E) (comps := comps) ⟨hb, hwf, hcan, ht⟩).run hE as
  refine ⟨h1.dict.symm, h2, h1.known.length_eq, fun i ps hi => ?_⟩
  simp only [Share.inst, Option.map_eq_some_iff] at hi
  obtain ⟨ks, hk, rfl⟩ := hi
  rcases forall₂_get h1.known i with ⟨h3, _⟩ | ⟨x, f, h3, h4, h5⟩
  · rw [h3] at hk; cases hk
  · rw [h3] at hk; cases hk
    exact ⟨f, h4, h5.2, h5.1⟩

/-- **C79** Reading through any of the instances gives the dataset there is, whether the instance knows of the key or
not. -/
theorem C79_read (hE : Lawful E comps) {base : Str} {fs : FS C} (hb : PlainBase base) (hwf : fs.WF)
    (hcan : Canonical E comps (resolve base) fs) (ht : Tidy E comps (resolve base) fs) (as : List (Act K W)) {i : Nat}
    {ps : PS K C} (hi : (Share.run E base ⟨[], fs⟩ as).1.inst base i = some ps) (k : K) :
    ps.get E k = (View.run E.writer E.empty ⟨storedDict E comps (resolve base) fs, []⟩ as).1.dict k := by
  obtain ⟨h1, _⟩ := (Rel.start (E := E) (comps := comps) ⟨hb, hwf, hcan, ht⟩).run hE as
  simp only [Share.inst, Option.map_eq_some_iff] at hi
  obtain ⟨ks, _, rfl⟩ := hi
  rw [h1.dict, h1.files.stored, PS.get, resolve_dir hE hb]

/-- **C79** An instance opened now has the keys there are, whatever was done through others. -/
theorem C79_reopen (hE : Lawful E comps) {base : Str} {fs : FS C} (hb : PlainBase base) (hwf : fs.WF)
    (hcan : Canonical E comps (resolve base) fs) (ht : Tidy E comps (resolve base) fs) (as : List (Act K W)) (k : K) :
    let s := (Share.run E base ⟨[], fs⟩ as).1
    let v := (View.run E.writer E.empty ⟨storedDict E comps (resolve base) fs, []⟩ as).1
    ∃ ks, (s.act E base .opening).1.insts = s.insts ++ [ks] ∧ (s.act E base .opening).1.fs = s.fs ∧
      (k ∈ ks ↔ (v.dict k).isSome) := by
  obtain ⟨h1, _⟩ := (Rel.start (E := E) (comps := comps) ⟨hb, hwf, hcan, ht⟩).run hE as
  refine ⟨_, rfl, rfl, ?_⟩
  rw [(h1.files.inv hE).mem_isSome k, h1.dict]
  exact Iff.rfl

/-- **C79** What is done through an instance does not change the keys of the others. Any state, any class. -/
theorem C79_others (base : Str) (s : Share K C) (i j : Nat) (op : Op K W) (hij : i ≠ j) :
    (s.act E base (.use i op)).1.insts[j]? = s.insts[j]? := by
  simp only [Share.act]
  split
  · rfl
  · simp only [List.getElem?_set, if_neg hij]

/-- **C79** If each key is written and deleted through one instance only, each operation does and raises what it does for
an instance alone: after any such actions, the next operation changes the dictionary as expected, and deletions raise
nothing. -/
theorem C79_owned (hE : Lawful E comps) {base : Str} {fs : FS C} (hb : PlainBase base) (hwf : fs.WF)
    (hcan : Canonical E comps (resolve base) fs) (ht : Tidy E comps (resolve base) fs) (owner : K → Nat)
    (as : List (Act K W)) (has : ∀ a ∈ as, Owned owner a) {i : Nat} {op : Op K W} (hop : Owned owner (.use i op))
    (hi : i < (Share.run E base ⟨[], fs⟩ as).1.insts.length) :
    let s := (Share.run E base ⟨[], fs⟩ as).1
    let m := storedDict E comps (resolve base) s.fs
    storedDict E comps (resolve base) (s.act E base (.use i op)).1.fs = Dict.step E.writer E.empty m op ∧
    (s.act E base (.use i op)).2 = Dict.raises E.writer E.empty m op := by
  obtain ⟨h1, _⟩ := (Rel.start (E := E) (comps := comps) ⟨hb, hwf, hcan, ht⟩).run hE as
  have ha := Aware.run (writer := E.writer) (empty := E.empty) as has
    (v := ⟨storedDict E comps (resolve base) fs, []⟩) (fun i f hf => by simp at hf)
  obtain ⟨h2, h3⟩ := h1.act hE (.use i op)
  obtain ⟨h4, h5⟩ := ha.plain (writer := E.writer) (empty := E.empty) (by rw [← h1.known.length_eq]; exact hi) hop
  simp only
  rw [← h1.dict, ← h2.dict, h3]
  exact ⟨h4, h5⟩

end

section
variable {K₁ K₂ C W₁ W₂ : Type} [DecidableEq K₁] [DecidableEq K₂] {E₁ : Env K₁ C W₁} {E₂ : Env K₂ C W₂}
variable {comps₁ : K₁ → List Str} {comps₂ : K₂ → List Str}

/-- Operations on the first and on the second of two collections. -/
def firsts {α β : Type} (ops : List (α ⊕ β)) : List α := ops.filterMap fun | .inl a => some a | .inr _ => none
def seconds {α β : Type} (ops : List (α ⊕ β)) : List β := ops.filterMap fun | .inl _ => none | .inr b => some b

theorem PS.eta_base {K C : Type} {ps : PS K C} {b : Str} (h : ps.basepath = b) : ps = ⟨b, ps.keys, ps.fs⟩ := by
  subst h; rfl

theorem Duo.inv_run (hE₁ : Lawful E₁ comps₁) (hE₂ : Lawful E₂ comps₂) (hn : E₁.names = E₂.names) {b₁ b₂ : Str}
    (ha : Apart E₁ E₂ comps₁ comps₂ (resolve b₁) (resolve b₂)) (ops : List (Op K₁ W₁ ⊕ Op K₂ W₂)) {s : Duo K₁ K₂ C}
    (h₁ : Inv E₁ comps₁ ⟨b₁, s.keys₁, s.fs⟩) (h₂ : Inv E₂ comps₂ ⟨b₂, s.keys₂, s.fs⟩) :
    let r := s.run E₁ E₂ b₁ b₂ ops
    Inv E₁ comps₁ ⟨b₁, r.keys₁, r.fs⟩ ∧ Inv E₂ comps₂ ⟨b₂, r.keys₂, r.fs⟩ ∧
    storedDict E₁ comps₁ (resolve b₁) r.fs =
      Dict.run E₁.writer E₁.empty (storedDict E₁ comps₁ (resolve b₁) s.fs) (firsts ops) ∧
    storedDict E₂ comps₂ (resolve b₂) r.fs =
      Dict.run E₂.writer E₂.empty (storedDict E₂ comps₂ (resolve b₂) s.fs) (seconds ops) := by
  induction ops generalizing s with
  | nil => exact ⟨h₁, h₂, rfl, rfl⟩
  | cons op ops ih =>
    cases op with
    | inl op =>
      obtain ⟨g1, g2⟩ := h₁.step hE₁ op
      obtain ⟨g3, g4⟩ := Inv.other hE₁ hE₂ hn ha.outside₁ ha.outside₂ ha.unread₂ h₁ h₂ op
      have g5 := (h₁.step_dict hE₁ op).1
      have g6 : Inv E₁ comps₁ ⟨b₁, (PS.step E₁ ⟨b₁, s.keys₁, s.fs⟩ op).1.keys,
          (PS.step E₁ ⟨b₁, s.keys₁, s.fs⟩ op).1.fs⟩ := by
        rw [← PS.eta_base g2]; exact g1
      obtain ⟨i1, i2, i3, i4⟩ := ih (s := (s.act E₁ E₂ b₁ b₂ (.inl op)).1) g6 g3
      refine ⟨i1, i2, ?_, ?_⟩
      · refine i3.trans ?_
        simp only [Duo.act]
        rw [g5]; rfl
      · refine i4.trans ?_
        simp only [Duo.act]
        rw [g4]; rfl
    | inr op =>
      obtain ⟨g1, g2⟩ := h₂.step hE₂ op
      obtain ⟨g3, g4⟩ := Inv.other hE₂ hE₁ hn.symm (fun a b => ha.outside₂ b a) (fun a b => ha.outside₁ b a) ha.unread₁
        h₂ h₁ op
      have g5 := (h₂.step_dict hE₂ op).1
      have g6 : Inv E₂ comps₂ ⟨b₂, (PS.step E₂ ⟨b₂, s.keys₂, s.fs⟩ op).1.keys,
          (PS.step E₂ ⟨b₂, s.keys₂, s.fs⟩ op).1.fs⟩ := by
        rw [← PS.eta_base g2]; exact g1
      obtain ⟨i1, i2, i3, i4⟩ := ih (s := (s.act E₁ E₂ b₁ b₂ (.inr op)).1) g3 g6
      refine ⟨i1, i2, ?_, ?_⟩
      · refine i3.trans ?_
        simp only [Duo.act]
        rw [g4]; rfl
      · refine i4.trans ?_
        simp only [Duo.act]
        rw [g5]; rfl

/-- **C79** Two collections whose datasets have nothing in common, used in any order on the same file system: each is the
dictionary of its own operations, and raises what it raises alone. -/
theorem C79_apart (hE₁ : Lawful E₁ comps₁) (hE₂ : Lawful E₂ comps₂) (hn : E₁.names = E₂.names) {b₁ b₂ : Str}
    (ha : Apart E₁ E₂ comps₁ comps₂ (resolve b₁) (resolve b₂)) {fs : FS C} (hb₁ : PlainBase b₁) (hb₂ : PlainBase b₂)
    (hwf : fs.WF) (hcan₁ : Canonical E₁ comps₁ (resolve b₁) fs) (hns₁ : NoStray E₁ comps₁ (resolve b₁) fs)
    (hcan₂ : Canonical E₂ comps₂ (resolve b₂) fs) (hns₂ : NoStray E₂ comps₂ (resolve b₂) fs)
    (ops : List (Op K₁ W₁ ⊕ Op K₂ W₂)) :
    let r := (Duo.openAt E₁ E₂ b₁ b₂ fs).run E₁ E₂ b₁ b₂ ops
    let m₁ := Dict.run E₁.writer E₁.empty (storedDict E₁ comps₁ (resolve b₁) fs) (firsts ops)
    let m₂ := Dict.run E₂.writer E₂.empty (storedDict E₂ comps₂ (resolve b₂) fs) (seconds ops)
    (∀ k, k ∈ r.keys₁ ↔ (m₁ k).isSome) ∧ (∀ k ∈ r.keys₁, PS.get E₁ ⟨b₁, r.keys₁, r.fs⟩ k = m₁ k) ∧
    (∀ k, k ∈ r.keys₂ ↔ (m₂ k).isSome) ∧ (∀ k ∈ r.keys₂, PS.get E₂ ⟨b₂, r.keys₂, r.fs⟩ k = m₂ k) ∧
    (∀ op, (r.act E₁ E₂ b₁ b₂ (.inl op)).2 = Dict.raises E₁.writer E₁.empty m₁ op) ∧
    ∀ op, (r.act E₁ E₂ b₁ b₂ (.inr op)).2 = Dict.raises E₂.writer E₂.empty m₂ op := by
  obtain ⟨i1, i2, i3, i4⟩ := Duo.inv_run hE₁ hE₂ hn ha ops (s := Duo.openAt E₁ E₂ b₁ b₂ fs)
    (Inv.openAt hE₁ hb₁ hwf hcan₁ hns₁) (Inv.openAt hE₂ hb₂ hwf hcan₂ hns₂)
  simp only
  rw [show (Duo.openAt E₁ E₂ b₁ b₂ fs).fs = fs from rfl] at i3 i4
  rw [← i3, ← i4]
  exact ⟨i1.mem_isSome, fun k hk => i1.get_eq hE₁ hk, i2.mem_isSome, fun k hk => i2.get_eq hE₂ hk,
    fun op => (i1.step_dict hE₁ op).2, fun op => (i2.step_dict hE₂ op).2⟩

/-- **C79** Two collections have nothing in common when no directory of the two given is in the other one. -/
theorem C79_bases {base₁ base₂ : Path} (h₁ : ¬ base₁ <+: base₂) (h₂ : ¬ base₂ <+: base₁) :
    Apart E₁ E₂ comps₁ comps₂ base₁ base₂ := by
  have key : ∀ r₁ r₂ : Path, ¬ base₁ ++ r₁ <+: base₂ ++ r₂ := by
    intro r₁ r₂ h
    rcases List.prefix_or_prefix_of_prefix ((List.prefix_append base₁ r₁).trans h) (List.prefix_append base₂ r₂) with h | h
    · exact h₁ h
    · exact h₂ h
  have key' : ∀ r₁ r₂ : Path, ¬ base₂ ++ r₂ <+: base₁ ++ r₁ := by
    intro r₁ r₂ h
    rcases List.prefix_or_prefix_of_prefix ((List.prefix_append base₂ r₂).trans h) (List.prefix_append base₁ r₁) with h | h
    · exact h₂ h
    · exact h₁ h
  exact ⟨fun _ _ => key _ _, fun _ _ => key' _ _,
    fun k₂ rel h => absurd (h ▸ List.prefix_rfl) (key rel (comps₂ k₂)),
    fun k₁ rel h => absurd (h ▸ List.prefix_rfl) (key' (comps₁ k₁) rel)⟩

/-- **C79** They have nothing in common either in the same directory when the first names of their keys differ. -/
theorem C79_first_names (hE₁ : Lawful E₁ comps₁) (hE₂ : Lawful E₂ comps₂) (base : Path)
    (hh : ∀ k₁ k₂, (comps₁ k₁).head? ≠ (comps₂ k₂).head?) (hd : E₁.depth ≠ E₂.depth) :
    Apart E₁ E₂ comps₁ comps₂ base base := by
  have ne₁ : ∀ k, comps₁ k ≠ [] := fun k e => by have := hE₁.length k; have := hE₁.pos; rw [e] at *; simp at *; omega
  have ne₂ : ∀ k, comps₂ k ≠ [] := fun k e => by have := hE₂.length k; have := hE₂.pos; rw [e] at *; simp at *; omega
  have pre : ∀ a b : List Str, a ≠ [] → a <+: b → a.head? = b.head? := by
    rintro (_ | ⟨x, a⟩) b hne ⟨t, rfl⟩
    · exact absurd rfl hne
    · rfl
  refine ⟨fun k₁ k₂ h => ?_, fun k₁ k₂ h => ?_, fun k₂ rel h hl => ?_, fun k₁ rel h hl => ?_⟩
  · exact hh k₁ k₂ (pre _ _ (ne₁ k₁) ((List.prefix_append_right_inj _).1 h))
  · exact hh k₁ k₂ (pre _ _ (ne₂ k₂) ((List.prefix_append_right_inj _).1 h)).symm
  · have := List.append_cancel_left h; subst this; rw [hE₂.length] at hl; exact absurd hl.symm hd
  · have := List.append_cancel_left h; subst this; rw [hE₁.length] at hl; exact absurd hl hd

end

/-! ### Concrete cases -/

theorem toy_tidy : Tidy toyEnv toyComps (resolve ['/', 'd']) toyFs := by
  intro k c h
  rcases toy_noStray k c h with h1 | h1
  · exact h1
  · subst h1
    cases k
    · rw [show toyFs.lookup (resolve ['/', 'd'] ++ toyComps false) = some [['x', '.', 'p', 'a', 'r', 'q']] from rfl] at h
      cases h
    · rw [show toyFs.lookup (resolve ['/', 'd'] ++ toyComps true) = none from rfl] at h; cases h

/-- Two instances; 'a' is written through the first one, and through the second one 'b' is deleted. -/
def toyActs : List (Act Bool (List Str)) :=
  [.opening, .opening, .use 0 (.set (some true) true [['y', '.', 'p', 'a', 'r', 'q']]), .use 1 (.del false)]

/-- The hypotheses hold for two instances in use; the first one knows of both keys, the second one of none, a third one
knows of the one there is. -/
example :
    let s := (Share.run toyEnv ['/', 'd'] ⟨[], toyFs⟩ (toyActs ++ [.opening])).1
    (storedDict toyEnv toyComps (resolve ['/', 'd']) s.fs =
      (View.run toyEnv.writer toyEnv.empty ⟨storedDict toyEnv toyComps (resolve ['/', 'd']) toyFs, []⟩
        (toyActs ++ [.opening])).1.dict) ∧
    s.insts = [[true, false], [], [true]] :=
  ⟨(C79_shared toy_lawful (by simp [PlainBase]) toy_wf toy_canonical toy_tidy _).1, by decide⟩

/-- **C79** Keys written through another instance are not in the collection, and their deletion does nothing: the dataset
is still there. -/
theorem C79_unseen_fails :
    let s := (Share.run toyEnv ['/', 'd'] ⟨[], toyFs⟩ toyActs).1
    s.insts = [[true, false], []] ∧ (s.act toyEnv ['/', 'd'] (.use 1 (.del true))).2 = none ∧
      (s.act toyEnv ['/', 'd'] (.use 1 (.del true))).1.fs.lookup [['d'], ['a']] =
        some [['y', '.', 'p', 'a', 'r', 'q']] := by decide

/-- **C79** Keys deleted through another instance are still in the collection, and their deletion raises
FileNotFoundError, and will raise it again. -/
theorem C79_stale_fails :
    let r := Share.run toyEnv ['/', 'd'] ⟨[], toyFs⟩ (toyActs ++ [.use 0 (.del false), .use 0 (.del false)])
    r.1.insts[0]? = some [true, false] ∧ r.1.fs.lookup [['d'], ['b']] = none ∧
      r.2 = [none, none, none, none, some .fileNotFound, some .fileNotFound] := by decide

/-- With one instance for 'a' and one for 'b', all is as with one. -/
example : let s := (Share.run toyEnv ['/', 'd'] ⟨[], toyFs⟩ toyActs).1
    (s.act toyEnv ['/', 'd'] (.use 0 (.del true))).2 = none :=
  (C79_owned toy_lawful (by simp [PlainBase]) toy_wf toy_canonical toy_tidy (fun k => if k then 0 else 1) toyActs
    (by simp [toyActs, Owned, Op.key]) (i := 0) (op := .del true) (by simp [Owned, Op.key]) (by decide)).2

/-- A class with one key, of path "x/y". -/
def toyEnv2 (p : Str) : Env Unit (List Str) (List Str) where
  toPath _ := p ++ ['/', 'y']
  fromPath s := if s = p ++ ['/', 'y'] then some () else none
  depth := 2
  lt _ _ := false
  names c := c
  empty := []
  writer w _ := if w.any isParquetFile then some w else none

theorem toy2_lawful : Lawful (toyEnv2 ['x']) (fun _ => [['x'], ['y']]) where
  path _ := rfl
  length _ := rfl
  pos := by decide
  plain k s hs := by simp at hs; rcases hs with rfl | rfl <;> decide
  back _ := rfl
  lt_irrefl _ := rfl
  lt_trans _ _ _ h := by cases h
  lt_total a b h := absurd rfl h
  noFile := rfl
  writes w c c' h := by
    simp only [toyEnv2] at h ⊢
    split at h
    · cases h; assumption
    · cases h

theorem toy2_canonical : Canonical (toyEnv2 ['x']) (fun _ => [['x'], ['y']]) (resolve ['/', 'd']) toyFs := by
  intro rel c k hl hr _ _
  have hm := lookup_mem hl
  rw [toy_base] at hm
  simp only [toyFs, List.mem_cons, Prod.mk.injEq, List.not_mem_nil, or_false] at hm
  rcases hm with ⟨h, _⟩ | ⟨h, _⟩ | ⟨h, _⟩ | ⟨h, _⟩ <;> replace h := congrArg List.length h <;>
    simp [toyEnv2] at h hr
  all_goals first | omega | (rw [h] at hr; simp at hr) | (rw [hr] at h; simp at h)

theorem toy2_noStray : NoStray (toyEnv2 ['x']) (fun _ => [['x'], ['y']]) (resolve ['/', 'd']) toyFs := by
  intro k c h
  rw [show toyFs.lookup (resolve ['/', 'd'] ++ [['x'], ['y']]) = none from rfl] at h
  cases h

/-- Operations on both, in the same directory. -/
def toyDuoOps : List (Op Bool (List Str) ⊕ Op Unit (List Str)) :=
  [.inr (.set (some ()) true [['z', '.', 'p', 'a', 'r', 'q']]), .inl (.del false),
    .inl (.set (some true) true [['y', '.', 'p', 'a', 'r', 'q']])]

/-- Two classes in the same directory, with other first names. -/
example :
    let r := (Duo.openAt toyEnv (toyEnv2 ['x']) ['/', 'd'] ['/', 'd'] toyFs).run toyEnv (toyEnv2 ['x']) ['/', 'd']
      ['/', 'd'] toyDuoOps
    (∀ op, (r.act toyEnv (toyEnv2 ['x']) ['/', 'd'] ['/', 'd'] (.inr op)).2 = Dict.raises (toyEnv2 ['x']).writer []
      (Dict.run (toyEnv2 ['x']).writer [] (storedDict (toyEnv2 ['x']) (fun _ => [['x'], ['y']]) (resolve ['/', 'd']) toyFs)
        (seconds toyDuoOps)) op) ∧ r.keys₁ = [true] ∧ r.keys₂ = [()] :=
  ⟨(C79_apart toy_lawful toy2_lawful rfl
    (C79_first_names toy_lawful toy2_lawful _ (by rintro (_ | _) _ <;> decide) (by decide)) (by simp [PlainBase])
    (by simp [PlainBase]) toy_wf toy_canonical toy_noStray toy2_canonical toy2_noStray toyDuoOps).2.2.2.2.2,
    by decide, by decide⟩

/-- Directories "/d" and "/o". -/
example : Apart toyEnv toyEnv toyComps toyComps [['d']] [['o']] := C79_bases (by decide) (by decide)

/-- **C79** Two classes in the same directory, the path of a key of one being the beginning of that of a key of the other:
deleting the first removes the dataset of the second, which still has its key. -/
theorem C79_inside_fails :
    let b : Str := ['/', 'd']
    let E₂ := toyEnv2 ['b']
    let r := (Duo.openAt toyEnv E₂ b b toyFs).run toyEnv E₂ b b
      [.inr (.set (some ()) true [['z', '.', 'p', 'a', 'r', 'q']]), .inl (.del false)]
    r.keys₂ = [()] ∧ r.fs.lookup [['d'], ['b'], ['y']] = none ∧
      (r.act toyEnv E₂ b b (.inr (.del ()))).2 = some .fileNotFound := by decide

end Oups.Collection
