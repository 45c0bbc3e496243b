import Verif.Proofs.Collection
import Verif.Model.StoreSteps
/-! Calls to the operating system of a collection, one by one. -/
set_option linter.unusedSimpArgs false
namespace Oups.Collection
open Oups.Indexer (Str join)

section
variable {K C W : Type} [DecidableEq K] {E : Env K C W} {comps : K → List Str}

theorem runCalls_append (empty : C) (fs : FS C) (a b : List (Call C)) :
    runCalls empty fs (a ++ b) = runCalls empty (runCalls empty fs a) b := List.foldl_append ..

theorem RmCalls.prefix {names : C → List Str} {F P : Path → Prop} {fs : FS C} {cs : List (Call C)} (h : RmCalls names F P fs cs) :
    ∀ {pre : List (Call C)}, pre <+: cs → RmCalls names F P fs pre := by
  induction h with
  | nil fs => intro pre hp; rw [List.prefix_nil.1 hp]; exact .nil fs
  | files h1 h2 h3 _ ih =>
    intro pre hp
    cases pre with
    | nil => exact .nil _
    | cons a pre =>
      rw [List.cons_prefix_cons] at hp
      rw [hp.1]
      exact .files h1 h2 h3 (ih hp.2)
  | rmdir h1 h2 _ ih =>
    intro pre hp
    cases pre with
    | nil => exact .nil _
    | cons a pre =>
      rw [List.cons_prefix_cons] at hp
      rw [hp.1]
      exact .rmdir h1 h2 (ih hp.2)

theorem WF_put {fs : FS C} (h : fs.WF) {p : Path} (c : C) (hp : (fs.lookup p).isSome) : (fs.put p c).WF := by
  refine ⟨nodup_put h.1 _ _, fun q x hx => ?_⟩
  rw [lookup_put] at hx ⊢
  split
  · rfl
  · split at hx
    · rename_i e; exact h.2 q x (e ▸ hp)
    · exact h.2 q x hx

theorem isEmptyDir_true {names : C → List Str} {fs : FS C} {p : Path} (h : fs.isEmptyDir names p = some true) :
    ∃ c, fs.lookup p = some c ∧ names c = [] ∧ fs.children p = [] := by
  unfold FS.isEmptyDir at h
  cases hl : fs.lookup p with
  | none => rw [hl] at h; cases h
  | some c =>
    rw [hl] at h
    simpa using h

/-- What such calls do: other paths are as before; these are removed or have fewer files; those outside `F` are as before, or removed
if they have no file. -/
theorem RmCalls.facts {names : C → List Str} {F P : Path → Prop} {empty : C} {fs : FS C} {cs : List (Call C)}
    (h : RmCalls names F P fs cs) (hwf : fs.WF) : (runCalls empty fs cs).WF ∧
      (∀ q, ¬ F q → (runCalls empty fs cs).lookup q = fs.lookup q ∨
        (P q ∧ (runCalls empty fs cs).lookup q = none ∧ ∃ c, fs.lookup q = some c ∧ names c = [])) ∧
      ∀ q c', (runCalls empty fs cs).lookup q = some c' → ∃ c, fs.lookup q = some c ∧ (names c').Sublist (names c) := by
  induction h with
  | nil fs => exact ⟨hwf, fun _ _ => Or.inl rfl, fun q c' hq => ⟨c', hq, List.Sublist.refl _⟩⟩
  | @files fs p c c' cs h1 h2 h3 _ ih =>
    obtain ⟨a1, a2, a3⟩ := ih (WF_put hwf c' (by rw [h2]; rfl))
    refine ⟨a1, fun q hq => ?_, fun q d hq => ?_⟩
    · have := a2 q hq
      rw [lookup_put, if_neg (fun e => hq (by rw [e]; exact h1))] at this
      exact this
    · obtain ⟨d1, b1, b2⟩ := a3 q d hq
      rw [lookup_put] at b1
      split at b1
      · rename_i e
        cases b1
        exact ⟨c, by rw [e]; exact h2, b2.trans h3⟩
      · exact ⟨d1, b1, b2⟩
  | @rmdir fs p cs h1 h2 _ ih =>
    obtain ⟨c, hl, hn, hc⟩ := isEmptyDir_true h2
    obtain ⟨a1, a2, a3⟩ := ih (hwf.rmdir hc)
    refine ⟨a1, fun q hq => ?_, fun q d hq => ?_⟩
    · have := a2 q hq
      rw [lookup_rmdir] at this
      by_cases e : q = p
      · rw [if_pos e] at this
        refine Or.inr ⟨e ▸ h1, ?_, c, e ▸ hl, hn⟩
        rcases this with h3 | ⟨_, h3, _⟩ <;> exact h3
      · rw [if_neg e] at this
        exact this
    · obtain ⟨d1, b1, b2⟩ := a3 q d hq
      rw [lookup_rmdir] at b1
      split at b1
      · cases b1
      · exact ⟨d1, b1, b2⟩

theorem RmCalls.mono {names : C → List Str} {F P G Q : Path → Prop} {fs : FS C} {cs : List (Call C)} (h : RmCalls names F P fs cs)
    (hFG : ∀ q, F q → G q) (hPQ : ∀ q, P q → Q q) : RmCalls names G Q fs cs := by
  induction h with
  | nil fs => exact .nil fs
  | files h1 h2 h3 _ ih => exact .files (hFG _ h1) h2 h3 ih
  | rmdir h1 h2 _ ih => exact .rmdir (hPQ _ h1) h2 ih

theorem RmCalls.append {names : C → List Str} {F P : Path → Prop} {empty : C} {fs : FS C} {a b : List (Call C)}
    (h : RmCalls names F P fs a) (h2 : RmCalls names F P (runCalls empty fs a) b) : RmCalls names F P fs (a ++ b) := by
  induction h with
  | nil fs => exact h2
  | files a1 a2 a3 _ ih => exact .files a1 a2 a3 (ih h2)
  | rmdir a1 a2 _ ih => exact .rmdir a1 a2 (ih h2)

/-! ### The loop on parents -/

theorem pruneCalls_run (base : Str) : ∀ (fuel : Nat) (fs : FS C) (u : Option Str),
    runCalls E.empty fs (pruneCalls E base fuel fs u) = (pruneLoop E base fuel fs u).1 := by
  intro fuel
  induction fuel with
  | zero => intro fs u; rfl
  | succ fuel ih =>
    intro fs u
    cases u with
    | none => rfl
    | some upper =>
      simp only [pruneCalls, pruneLoop]
      by_cases h1 : upper = base
      · simp only [h1, if_true]; rfl
      by_cases h2 : upper = []
      · simp only [h1, h2, if_true, if_false]
        split <;> rfl
      simp only [h1, h2, if_false]
      cases h3 : fs.isEmptyDir E.names (resolve upper) with
      | none => rfl
      | some b =>
        cases b with
        | false => rfl
        | true => exact ih _ _

/-- The loop removes directories without files, strictly between basepath and the dataset. -/
theorem pruneCalls_rm {base : Str} {ls : List Str} (hls : ∀ s ∈ ls, s ≠ [] ∧ '/' ∉ s) :
    ∀ (i : Nat), i ≤ ls.length → ∀ (fuel : Nat) (fs : FS C),
    RmCalls E.names (fun _ => False) (fun q => ∃ j, 0 < j ∧ j ≤ i ∧ q = resolve base ++ ls.take j) fs
      (pruneCalls E base fuel fs (some (upath base ls i))) := by
  intro i
  induction i with
  | zero =>
    intro _ fuel fs
    cases fuel with
    | zero => exact .nil fs
    | succ fuel => simp only [pruneCalls, upath, if_true]; exact .nil fs
  | succ i ih =>
    intro hi fuel fs
    cases fuel with
    | zero => exact .nil fs
    | succ fuel =>
      simp only [pruneCalls]
      split
      · exact .nil fs
      split
      · exact .nil fs
      split
      · rename_i h3
        rw [resolve_upath hls hi] at h3 ⊢
        refine .rmdir ⟨i + 1, by omega, Nat.le_refl _, rfl⟩ h3 ?_
        rw [upath_strip hls (by omega)]
        exact (ih (by omega) fuel _).mono (fun _ h => h) fun q ⟨j, h1, h2, h3⟩ => ⟨j, h1, by omega, h3⟩
      · exact .nil fs

/-- Paths that a deletion may touch. -/
def Touched (comps : K → List Str) (base : Path) (k : K) (q : Path) : Prop :=
  base ++ comps k <+: q ∨ ∃ j, 0 < j ∧ j < (comps k).length ∧ q = base ++ (comps k).take j

theorem delCalls_rm (hE : Lawful E comps) {ps : PS K C} (hb : PlainBase ps.basepath) {k : K} {rm : List (Call C)}
    (hrm : Rmtree E (resolve (osJoin ps.basepath (E.toPath k))) ps.fs rm) :
    RmCalls E.names (resolve ps.basepath ++ comps k <+: ·) (Touched comps (resolve ps.basepath) k) ps.fs (delCalls E ps k rm) := by
  rw [resolve_dir hE hb] at hrm
  unfold delCalls
  refine RmCalls.append (empty := E.empty) (hrm.1.mono (fun _ h => h) fun q h => Or.inl h) ?_
  have hd := hE.pos
  have hs : stripPathTail (osJoin ps.basepath (E.toPath k)) = some (upath ps.basepath (comps k) (E.depth - 1)) := by
    rw [dir_eq hE hb, ← upath_strip (hE.plain k) (by rw [hE.length]; omega)]
    congr 2
    omega
  rw [hs]
  refine (pruneCalls_rm (hE.plain k) (E.depth - 1) (by rw [hE.length]; omega) _ _).mono (fun _ h => h.elim) ?_
  rintro q ⟨j, h1, h2, rfl⟩
  exact Or.inr ⟨j, h1, by rw [hE.length]; omega, rfl⟩

theorem touched_other (hE : Lawful E comps) {base : Path} {k : K} {rel : Path} (hl : rel.length = E.depth)
    (h : Touched comps base k (base ++ rel)) : rel = comps k := by
  rcases h with h | ⟨j, h1, h2, h3⟩
  · rw [List.prefix_append_right_inj] at h
    exact (h.eq_of_length (by rw [hE.length, hl])).symm
  · have := List.append_cancel_left h3
    rw [this] at hl
    rw [hE.length] at h2
    simp only [List.length_take, hE.length] at hl
    omega

/-! ### Writes -/

theorem runCalls_mkdir (empty : C) (fs : FS C) (qs : List Path) (q : Path) :
    (runCalls empty fs (qs.map .mkdir)).lookup q = if q ∈ qs then some empty else fs.lookup q := by
  induction qs generalizing fs with
  | nil => rfl
  | cons a qs ih =>
    show (runCalls empty (fs.put a empty) (qs.map .mkdir)).lookup q = _
    rw [ih, lookup_put]
    by_cases h : q ∈ qs
    · simp [h]
    · by_cases h2 : q = a <;> simp [h, h2]

theorem runCalls_files (empty : C) (fs : FS C) (p : Path) (cs : List C) (q : Path) :
    (runCalls empty fs (cs.map (.files p))).lookup q = if q = p then (cs.getLast?.or (fs.lookup p)) else fs.lookup q := by
  induction cs generalizing fs with
  | nil => simp [runCalls]; intro h; rw [h]
  | cons a cs ih =>
    show (runCalls empty (fs.put p a) (cs.map (.files p))).lookup q = _
    rw [ih, lookup_put, lookup_put]
    by_cases h : q = p
    · simp only [h, if_true]
      cases cs with
      | nil => simp
      | cons b cs => simp [List.getLast?_cons_cons]
                     cases h3 : (b :: cs).getLast? with
                     | none => simp at h3
                     | some x => rfl
    · simp [h]

/-- Missing directories of `p`, parents first. -/
def missing (fs : FS C) (p : Path) : List Path := ((List.range (p.length + 1)).map p.take).filter fun q => (fs.lookup q).isNone

theorem mem_missing {fs : FS C} {p q : Path} : q ∈ missing fs p ↔ q <+: p ∧ fs.lookup q = none := by
  rw [missing, List.mem_filter, take_mem_iff]
  simp

theorem missing_sorted (fs : FS C) (p : Path) : (missing fs p).Pairwise fun a b => a.length < b.length := by
  refine List.Pairwise.sublist List.filter_sublist ?_
  rw [List.pairwise_map]
  refine List.pairwise_lt_range.imp_of_mem ?_
  intro a b ha hb hab
  simp only [List.mem_range] at ha hb
  simp only [List.length_take]
  omega

theorem prefix_append_cases {α : Type} {l a b : List α} (h : l <+: a ++ b) : l <+: a ∨ ∃ t, l = a ++ t ∧ t <+: b := by
  rcases List.prefix_or_prefix_of_prefix h (List.prefix_append a b) with h1 | ⟨t, rfl⟩
  · exact Or.inl h1
  · exact Or.inr ⟨t, rfl, (List.prefix_append_right_inj a).1 h⟩

/-- The first calls of a write. -/
theorem setCalls_prefix (hE : Lawful E comps) {ps : PS K C} (hb : PlainBase ps.basepath) {k : K} {mids : List C}
    {pre : List (Call C)} (h : pre <+: setCalls E ps k mids) :
    ∃ qs ms, qs <+: missing ps.fs (resolve ps.basepath ++ comps k) ∧ ms <+: mids ∧
      (ms ≠ [] → qs = missing ps.fs (resolve ps.basepath ++ comps k)) ∧
      pre = qs.map .mkdir ++ ms.map (.files (resolve ps.basepath ++ comps k)) := by
  unfold setCalls mkdirCalls at h
  rw [resolve_dir hE hb] at h
  simp only at h
  rw [show ((List.map (resolve ps.basepath ++ comps k).take (List.range ((resolve ps.basepath ++ comps k).length + 1))).filter
    fun q => (ps.fs.lookup q).isNone) = missing ps.fs (resolve ps.basepath ++ comps k) from rfl] at h
  rcases prefix_append_cases h with h | ⟨t, rfl, h2⟩
  · rw [List.prefix_map_iff] at h
    obtain ⟨l, h1, rfl⟩ := h
    exact ⟨l, [], h1, List.nil_prefix, fun h => absurd rfl h, by simp⟩
  · rw [List.prefix_map_iff] at h2
    obtain ⟨l, h1, rfl⟩ := h2
    exact ⟨_, l, List.prefix_rfl, h1, fun _ => rfl, rfl⟩

theorem mkdirs_wf {fs : FS C} (hwf : fs.WF) (empty : C) {p : Path} {qs : List Path} (h : qs <+: missing fs p) :
    (runCalls empty fs (qs.map .mkdir)).WF := by
  have hn : ∀ (qs : List Path) (fs : FS C), (fs.map Prod.fst).Nodup → ((runCalls empty fs (qs.map .mkdir)).map Prod.fst).Nodup := by
    intro qs
    induction qs with
    | nil => intro fs h; exact h
    | cons a qs ih => intro fs h; exact ih _ (nodup_put h _ _)
  refine ⟨hn qs fs hwf.1, fun q x => ?_⟩
  rw [runCalls_mkdir, runCalls_mkdir]
  intro hx
  by_cases hq : q ∈ qs
  · simp [hq]
  · rw [if_neg hq]
    by_cases h2 : q ++ [x] ∈ qs
    · have h3 := mem_missing.1 (h.subset h2)
      cases h4 : fs.lookup q with
      | some c => rfl
      | none =>
        exfalso
        have h5 : q ∈ missing fs p := mem_missing.2 ⟨(List.prefix_append _ _).trans h3.1, h4⟩
        obtain ⟨r, hr⟩ := h
        rw [← hr] at h5
        rcases List.mem_append.1 h5 with h6 | h6
        · exact hq h6
        · have h7 := missing_sorted fs p
          rw [← hr, List.pairwise_append] at h7
          have := h7.2.2 _ h2 _ h6
          rw [List.length_append, List.length_singleton] at this
          omega
    · rw [if_neg h2] at hx
      exact hwf.2 q x hx

theorem files_wf {fs : FS C} (hwf : fs.WF) (empty : C) {p : Path} (hp : (fs.lookup p).isSome) (ms : List C) :
    (runCalls empty fs (ms.map (.files p))).WF := by
  induction ms generalizing fs with
  | nil => exact hwf
  | cons c ms ih => exact ih (WF_put hwf c hp) (by simp only [Call.run]; rw [lookup_put]; simp)

theorem setCalls_facts (hE : Lawful E comps) {ps : PS K C} (hb : PlainBase ps.basepath) (hwf : ps.fs.WF) {k : K} {mids : List C}
    {pre : List (Call C)} (h : pre <+: setCalls E ps k mids) :
    (runCalls E.empty ps.fs pre).WF ∧ (∀ q, q ≠ resolve ps.basepath ++ comps k →
      (runCalls E.empty ps.fs pre).lookup q = ps.fs.lookup q ∨
        (q <+: resolve ps.basepath ++ comps k ∧ ps.fs.lookup q = none ∧ (runCalls E.empty ps.fs pre).lookup q = some E.empty)) ∧
    ((runCalls E.empty ps.fs pre).lookup (resolve ps.basepath ++ comps k) = ps.fs.lookup (resolve ps.basepath ++ comps k) ∨
      (runCalls E.empty ps.fs pre).lookup (resolve ps.basepath ++ comps k) = some E.empty ∨
      ∃ c ∈ mids, (runCalls E.empty ps.fs pre).lookup (resolve ps.basepath ++ comps k) = some c) := by
  obtain ⟨qs, ms, h1, h2, h3, rfl⟩ := setCalls_prefix hE hb h
  have hw := mkdirs_wf hwf E.empty h1
  have key : ∀ q, (runCalls E.empty ps.fs (qs.map .mkdir)).lookup q = ps.fs.lookup q ∨
        (q <+: resolve ps.basepath ++ comps k ∧ ps.fs.lookup q = none ∧
          (runCalls E.empty ps.fs (qs.map .mkdir)).lookup q = some E.empty) := by
    intro q
    rw [runCalls_mkdir]
    by_cases hq : q ∈ qs
    · have := mem_missing.1 (h1.subset hq)
      exact Or.inr ⟨this.1, this.2, if_pos hq⟩
    · exact Or.inl (if_neg hq)
  rw [runCalls_append]
  refine ⟨?_, fun q hq => ?_, ?_⟩
  · by_cases hm : ms = []
    · rw [hm]; exact hw
    · refine files_wf hw _ ?_ _
      rw [runCalls_mkdir, h3 hm]
      split
      · rfl
      · rename_i h4
        rw [mem_missing] at h4
        cases h5 : ps.fs.lookup (resolve ps.basepath ++ comps k) with
        | some c => rfl
        | none => exact absurd ⟨List.prefix_rfl, h5⟩ h4
  · rw [runCalls_files, if_neg hq]; exact key q
  · rw [runCalls_files, if_pos rfl]
    cases hl : ms.getLast? with
    | none =>
      rcases key (resolve ps.basepath ++ comps k) with h4 | ⟨_, _, h4⟩
      · exact Or.inl h4
      · exact Or.inr (Or.inl h4)
    | some c => exact Or.inr (Or.inr ⟨c, h2.subset (List.mem_of_getLast? hl), rfl⟩)

/-! ### Reopening -/

/-- What a stopped operation on `k` leaves: a well-formed file system, that differs by the directory of `k` and by directories without
files on the way to it, and by what is inside. -/
theorem Stopped.facts (hE : Lawful E comps) {ps : PS K C} (h : Inv E comps ps) {k : K} {fs : FS C} (hst : Stopped E ps k fs) :
    fs.WF ∧ Canonical E comps (resolve ps.basepath) fs ∧
    (∀ k', k' ≠ k → fs.lookup (resolve ps.basepath ++ comps k') = ps.fs.lookup (resolve ps.basepath ++ comps k')) ∧
    ∀ q c, E.names c ≠ [] → ¬ resolve ps.basepath ++ comps k <+: q → (fs.lookup q = some c ↔ ps.fs.lookup q = some c) := by
  have hne : ∀ k', k' ≠ k → resolve ps.basepath ++ comps k' ≠ resolve ps.basepath ++ comps k :=
    fun k' hk' e => hk' (comps_inj hE (List.append_cancel_left e))
  have canon : ∀ rel c k2, rel ≠ comps k → (fs.lookup (resolve ps.basepath ++ rel) = some c →
      ps.fs.lookup (resolve ps.basepath ++ rel) = some c) → fs.lookup (resolve ps.basepath ++ rel) = some c →
      rel.length = E.depth → (E.names c).any isParquetFile = true → E.fromPath (join '/' rel) = some k2 → comps k2 = rel :=
    fun rel c k2 _ h1 h2 => h.canonical rel c k2 (h1 h2)
  have canonk : ∀ k2, E.fromPath (join '/' (comps k)) = some k2 → comps k2 = comps k := by
    intro k2 h2
    rw [hE.back] at h2
    cases h2; rfl
  cases hst with
  | @del rm pre hk hrm hp =>
    have hR := (delCalls_rm hE h.base hrm).prefix hp
    obtain ⟨a1, a2, a3⟩ := hR.facts (empty := E.empty) h.wf
    have other : ∀ rel : Path, rel.length = E.depth → rel ≠ comps k → (runCalls E.empty ps.fs pre).lookup (resolve ps.basepath ++ rel) =
        ps.fs.lookup (resolve ps.basepath ++ rel) := by
      intro rel hl hrel
      rcases a2 _ (fun e => hrel (touched_other hE hl (Or.inl e))) with h6 | ⟨h6, _⟩
      · exact h6
      · exact absurd (touched_other hE hl h6) hrel
    refine ⟨a1, ?_, ?_, ?_⟩
    · intro rel c k2 h1 h2 h3 h4
      by_cases hrel : rel = comps k
      · rw [hrel] at h4 ⊢; exact canonk k2 h4
      · exact canon rel c k2 hrel (fun h5 => by rw [← other rel h2 hrel]; exact h5) h1 h2 h3 h4
    · intro k' hk'
      exact other _ (hE.length k') fun e => hne k' hk' (by rw [e])
    · intro q c hc hq
      rcases a2 q hq with h6 | ⟨_, h6, c1, h7, h8⟩
      · rw [h6]
      · rw [h6, h7]
        constructor
        · intro e; cases e
        · intro e; cases e; exact absurd h8 hc
  | @set mids pre hp =>
    obtain ⟨a1, a2, a3⟩ := setCalls_facts hE h.base h.wf hp
    refine ⟨a1, ?_, ?_, ?_⟩
    · intro rel c k2 h1 h2 h3 h4
      by_cases hrel : rel = comps k
      · rw [hrel] at h4 ⊢; exact canonk k2 h4
      · refine canon rel c k2 hrel (fun h5 => ?_) h1 h2 h3 h4
        rcases a2 _ (fun e => hrel (List.append_cancel_left e)) with h6 | ⟨h6, _, _⟩
        · rw [← h6]; exact h5
        · rw [List.prefix_append_right_inj] at h6
          exact absurd (h6.eq_of_length (by rw [hE.length, h2])) hrel
    · intro k' hk'
      rcases a2 _ (hne k' hk') with h6 | ⟨h6, _, _⟩
      · exact h6
      · exact absurd (comps_prefix hE h6) hk'
    · intro q c hc hq
      rcases a2 q (fun e => hq (e ▸ List.prefix_rfl)) with h6 | ⟨_, h6, h7⟩
      · rw [h6]
      · rw [h6, h7]
        constructor
        · intro e; cases e; exact absurd hE.noFile hc
        · intro e; cases e

end
end Oups.Collection
