import Verif.Proofs.StoreSteps
import Verif.Props.Collection
/-! C78: writes and deletions of a collection that do not come to their end. -/
set_option linter.unusedSimpArgs false
namespace Oups.Collection
open Oups.Indexer (Str)

section
variable {K C W : Type} [DecidableEq K] {E : Env K C W} {comps : K → List Str}

theorem prunable_congr {names : C → List Str} {a b : FS C} (h : ∀ q, a.lookup q = b.lookup q) (B p q : Path) :
    Prunable names a B p q ↔ Prunable names b B p q := by
  simp only [Prunable, h]

/-- A deletion from a file system that differs only by what is in the directory of the key. -/
theorem del_after (hE : Lawful E comps) {ps ps1 : PS K C} (h : Inv E comps ps) {k : K} (hk : k ∈ ps.keys)
    (hb : ps1.basepath = ps.basepath) (hwf : ps1.fs.WF) (hk1 : k ∈ ps1.keys)
    (hdir : (ps1.fs.lookup (resolve ps.basepath ++ comps k)).isSome)
    (hout : ∀ q, ¬ resolve ps.basepath ++ comps k <+: q → ps1.fs.lookup q = ps.fs.lookup q) :
    (ps1.del E k).2 = none ∧ (ps1.del E k).1.keys = ps1.keys.filter (· ≠ k) ∧
    ∀ q, (ps1.del E k).1.fs.lookup q = (ps.del E k).1.fs.lookup q := by
  classical
  obtain ⟨a1, a2, a3, a4, a5⟩ := del_spec hE h.base h.wf hk (h.dirExists hk)
  obtain ⟨b1, b2, b3, b4, b5⟩ := del_spec hE (ps := ps1) (by rw [hb]; exact h.base) hwf hk1 (by rw [hb]; exact hdir)
  refine ⟨b1, b3, fun q => ?_⟩
  rw [a5 q, b5 q, hb]
  have hc : ∀ q, (ps1.fs.rmtree (resolve ps.basepath ++ comps k)).lookup q = (ps.fs.rmtree (resolve ps.basepath ++ comps k)).lookup q := by
    intro q
    rw [lookup_rmtree, lookup_rmtree]
    split
    · rfl
    · rename_i hq; exact hout q hq
  simp only [prunable_congr hc]
  by_cases hq : resolve ps.basepath ++ comps k <+: q
  · simp [hq]
  · rw [hout q hq]

theorem Rmtree.out (hE : Lawful E comps) {ps : PS K C} (h : Inv E comps ps) {k : K} {rm pre : List (Call C)}
    (hrm : Rmtree E (resolve (osJoin ps.basepath (E.toPath k))) ps.fs rm) (hp : pre <+: rm) :
    (runCalls E.empty ps.fs pre).WF ∧
    ∀ q, ¬ resolve ps.basepath ++ comps k <+: q → (runCalls E.empty ps.fs pre).lookup q = ps.fs.lookup q := by
  rw [resolve_dir hE h.base] at hrm
  obtain ⟨a1, a2, _⟩ := (hrm.1.prefix hp).facts (empty := E.empty) h.wf
  refine ⟨a1, fun q hq => ?_⟩
  rcases a2 q hq with h1 | ⟨h1, _⟩
  · exact h1
  · exact absurd h1 hq

/-- Nothing is left to be removed once the directory does not exist any more. -/
theorem rmCalls_none {names : C → List Str} {dir : Path} {fs : FS C} (hwf : fs.WF) (hd : fs.lookup dir = none)
    {cs : List (Call C)} (h : RmCalls names (dir <+: ·) (dir <+: ·) fs cs) : cs = [] := by
  have no : ∀ p c, dir <+: p → fs.lookup p ≠ some c := by
    intro p c hp hl
    have := hwf.prefix hp (by rw [hl]; rfl)
    rw [hd] at this; cases this
  cases h with
  | nil => rfl
  | files h1 h2 => exact absurd h2 (no _ _ h1)
  | rmdir h1 h2 => obtain ⟨c, hl, _⟩ := isEmptyDir_true h2; exact absurd hl (no _ _ h1)

theorem RmCalls.suffix {names : C → List Str} {F P : Path → Prop} {empty : C} {a : List (Call C)} : ∀ {fs : FS C} {b : List (Call C)},
    RmCalls names F P fs (a ++ b) → RmCalls names F P (runCalls empty fs a) b := by
  induction a with
  | nil => intro fs b h; exact h
  | cons x a ih =>
    intro fs b h
    rw [List.cons_append] at h
    cases h with
    | files _ _ _ h4 => exact ih h4
    | rmdir _ _ h3 => exact ih h3

/-- Stopped within `rmtree`: the directory of the key is still there. -/
theorem Rmtree.dirStays (hE : Lawful E comps) {ps : PS K C} (h : Inv E comps ps) {k : K} {rm pre : List (Call C)}
    (hrm : Rmtree E (resolve (osJoin ps.basepath (E.toPath k))) ps.fs rm) (hp : pre <+: rm) (hlt : pre.length < rm.length) :
    ((runCalls E.empty ps.fs pre).lookup (resolve ps.basepath ++ comps k)).isSome := by
  cases hl : (runCalls E.empty ps.fs pre).lookup (resolve ps.basepath ++ comps k) with
  | some c => rfl
  | none =>
    exfalso
    have hw := (hrm.out hE h hp).1
    rw [resolve_dir hE h.base] at hrm
    obtain ⟨t, rfl⟩ := hp
    have := rmCalls_none hw hl (hrm.1.suffix (empty := E.empty))
    rw [this] at hlt
    simp at hlt

/-- Stopped after `rmtree`: it is not. -/
theorem delCalls_after (hE : Lawful E comps) {ps : PS K C} (h : Inv E comps ps) {k : K} {rm pre : List (Call C)}
    (hrm : Rmtree E (resolve (osJoin ps.basepath (E.toPath k))) ps.fs rm) (hp : pre <+: delCalls E ps k rm)
    (hle : rm.length ≤ pre.length) : (runCalls E.empty ps.fs pre).lookup (resolve ps.basepath ++ comps k) = none := by
  have hrm' := hrm
  rw [resolve_dir hE h.base] at hrm'
  have hpre : rm <+: pre := List.prefix_of_prefix_length_le (List.prefix_append _ _) hp hle
  obtain ⟨t, rfl⟩ := hpre
  have hR := ((delCalls_rm hE h.base hrm).prefix hp).suffix (empty := E.empty)
  have hw := (hrm.out hE h List.prefix_rfl).1
  obtain ⟨_, _, a3⟩ := hR.facts (empty := E.empty) hw
  rw [runCalls_append]
  cases hl : (runCalls E.empty (runCalls E.empty ps.fs rm) t).lookup (resolve ps.basepath ++ comps k) with
  | none => rfl
  | some c =>
    obtain ⟨c1, h1, _⟩ := a3 _ _ hl
    rw [hrm'.2] at h1; cases h1

theorem del_within {ps : PS K C} {k : K} {rm pre : List (Call C)} (hp : pre <+: delCalls E ps k rm)
    (hlt : pre.length < rm.length) : pre <+: rm :=
  List.prefix_of_prefix_length_le hp (List.prefix_append _ _) (by omega)

/-! ### Steps and whole operations -/

/-- **C78** When all calls are made, a deletion leaves the directories and files of `del`, in whatever order `rmtree` works. -/
theorem C78_whole_del (hE : Lawful E comps) {base : Str} {fs : FS C} (hb : PlainBase base) (hwf : fs.WF)
    (hcan : Canonical E comps (resolve base) fs) (hns : NoStray E comps (resolve base) fs) (ops : List (Op K W)) {k : K}
    {rm : List (Call C)} :
    let ps := (PS.openAt E base fs).run E ops
    k ∈ ps.keys → Rmtree E (resolve (osJoin ps.basepath (E.toPath k))) ps.fs rm →
    ∀ q, (runCalls E.empty ps.fs (delCalls E ps k rm)).lookup q = (ps.del E k).1.fs.lookup q := by
  obtain ⟨h, _⟩ := (Inv.openAt hE hb hwf hcan hns).run hE ops
  intro ps
  change Inv E comps ps at h
  intro hk hrm q
  classical
  obtain ⟨a1, a2, a3, a4, a5⟩ := del_spec hE h.base h.wf hk (h.dirExists hk)
  obtain ⟨b1, b2⟩ := hrm.out hE h List.prefix_rfl
  have hd := hE.pos
  have hs : stripPathTail (osJoin ps.basepath (E.toPath k)) = some (upath ps.basepath (comps k) (E.depth - 1)) := by
    rw [dir_eq hE h.base, ← upath_strip (hE.plain k) (by rw [hE.length]; omega)]
    congr 2
    omega
  have hc : ∀ q, (runCalls E.empty ps.fs rm).lookup q = (ps.fs.rmtree (resolve ps.basepath ++ comps k)).lookup q := by
    intro q
    rw [lookup_rmtree]
    split
    · rename_i hq
      rw [resolve_dir hE h.base] at hrm
      cases hl : (runCalls E.empty ps.fs rm).lookup q with
      | none => rfl
      | some c =>
        have := b1.prefix hq (by rw [hl]; rfl)
        rw [hrm.2] at this; cases this
    · rename_i hq; exact b2 q hq
  have hnp : ¬ resolve ps.basepath ++ comps k <+: resolve ps.basepath ++ (comps k).take (E.depth - 1) := by
    intro hx
    have := hx.length_le
    simp only [List.length_append, List.length_take, hE.length] at this
    omega
  have hex : ((runCalls E.empty ps.fs rm).lookup (resolve ps.basepath ++ (comps k).take (E.depth - 1))).isSome := by
    rw [b2 _ hnp]
    exact h.wf.prefix ((List.prefix_append_right_inj _).2 (List.take_prefix _ _)) (h.dirExists hk)
  have hlen : E.depth - 1 < (osJoin ps.basepath (E.toPath k)).length + 1 := by
    have h1 := length_upath (base := ps.basepath) (hE.plain k)
    rw [hE.length, ← dir_eq hE h.base] at h1
    omega
  obtain ⟨_, _, c3⟩ := pruneLoop_spec (E := E) h.base (hE.plain k) (E.depth - 1) (by rw [hE.length]; omega) _ hlen _ b1 hex
  rw [delCalls, runCalls_append]
  rw [hs, pruneCalls_run, c3 q, a5 q]
  simp only [prunable_congr hc, hc]
  rw [lookup_rmtree]
  by_cases hq : resolve ps.basepath ++ comps k <+: q
  · simp [hq]
  · simp [hq]

/-- **C78** When all calls are made, a write leaves the directories and files of `set`, whatever the contents in between. -/
theorem C78_whole_set (hE : Lawful E comps) {ps : PS K C} (hb : PlainBase ps.basepath) {k : K} {w : W} {c : C}
    (hw : E.writer w ((ps.get E k).getD E.empty) = some c) (mids : List C) (q : Path) :
    (runCalls E.empty ps.fs (setCalls E ps k (mids ++ [c]))).lookup q = (ps.set E (some k) true w).1.fs.lookup q := by
  rw [PS.get, resolve_dir hE hb] at hw
  rw [set_spec hE hb hw]
  simp only
  rw [lookup_mkdirs_put, setCalls, runCalls_append, resolve_dir hE hb, runCalls_files, mkdirCalls, runCalls_mkdir, runCalls_mkdir]
  simp only [List.getLast?_concat, Option.some_or]
  by_cases hq : q = resolve ps.basepath ++ comps k
  · simp [hq]
  simp only [hq, if_false, List.mem_filter, take_mem_iff]
  cases hl : ps.fs.lookup q with
  | some d => simp
  | none => simp

/-! ### The process stops -/

/-- **C78** The process stops anywhere in a deletion or a write, after any operations, and the store is opened again: other keys are
there as before, with the same content; the key of the operation is there if a parquet file is in its directory. No other file of the
file system is changed. -/
theorem C78_reopen (hE : Lawful E comps) {base : Str} {fs : FS C} (hb : PlainBase base) (hwf : fs.WF)
    (hcan : Canonical E comps (resolve base) fs) (hns : NoStray E comps (resolve base) fs) (ops : List (Op K W)) {k : K} {fs' : FS C} :
    let ps := (PS.openAt E base fs).run E ops
    let ps' := PS.openAt E base fs'
    Stopped E ps k fs' →
    (∀ k', k' ≠ k → ((k' ∈ ps'.keys ↔ k' ∈ ps.keys) ∧ ps'.get E k' = ps.get E k')) ∧
    (k ∈ ps'.keys ↔ ∃ c, fs'.lookup (resolve base ++ comps k) = some c ∧ (E.names c).any isParquetFile = true) ∧
    ∀ q c, E.names c ≠ [] → ¬ resolve base ++ comps k <+: q → (fs'.lookup q = some c ↔ ps.fs.lookup q = some c) := by
  obtain ⟨h, h2⟩ := (Inv.openAt hE hb hwf hcan hns).run hE ops
  intro ps ps' hst
  change Inv E comps ps at h
  change ps.basepath = base at h2
  obtain ⟨a1, a2, a3, a4⟩ := hst.facts hE h
  rw [h2] at a2 a3 a4
  refine ⟨fun k' hk' => ⟨?_, ?_⟩, mem_getKeys hE a1 a2 k, a4⟩
  · rw [h.mem, Stored, h2, ← a3 k' hk']
    exact mem_getKeys hE a1 a2 k'
  · rw [PS.get, PS.get, h2]
    change fs'.lookup (resolve (osJoin base (E.toPath k'))) = _
    rw [resolve_dir hE hb]
    exact a3 k' hk'

/-- **C78** The store opened again goes on as a dictionary, of what was there for the other keys and of what is found for this one,
provided what is found is a dataset or no file. -/
theorem C78_goes_on (hE : Lawful E comps) {base : Str} {fs : FS C} (hb : PlainBase base) (hwf : fs.WF)
    (hcan : Canonical E comps (resolve base) fs) (hns : NoStray E comps (resolve base) fs) (ops : List (Op K W)) {k : K} {fs' : FS C} :
    let ps := (PS.openAt E base fs).run E ops
    let m := Dict.run E.writer E.empty (storedDict E comps (resolve base) fs) ops
    Stopped E ps k fs' →
    (∀ c, fs'.lookup (resolve base ++ comps k) = some c → (E.names c).any isParquetFile = true ∨ c = E.empty) →
    ∀ ops', let ps' := (PS.openAt E base fs').run E ops'
      let m' := Dict.run E.writer E.empty (fun k' => if k' = k then storedDict E comps (resolve base) fs' k else m k') ops'
      (∀ k', k' ∈ ps'.keys ↔ (m' k').isSome) ∧ ps'.keys.Nodup ∧ ∀ k' ∈ ps'.keys, ps'.get E k' = m' k' := by
  have h0 := Inv.openAt hE hb hwf hcan hns
  obtain ⟨h, h2⟩ := h0.run hE ops
  have h3 := h0.run_dict hE ops
  intro ps m hst hk ops'
  change Inv E comps ps at h
  change ps.basepath = base at h2
  change storedDict E comps (resolve base) ps.fs = m at h3
  obtain ⟨a1, a2, a3, a4⟩ := hst.facts hE h
  rw [h2] at a2 a3 a4
  have hn : NoStray E comps (resolve base) fs' := by
    intro k' c hc
    by_cases e : k' = k
    · subst e; exact hk c hc
    · rw [a3 k' e] at hc
      have := h.noStray k' c
      rw [h2] at this
      exact this hc
  have e : (fun k' => if k' = k then storedDict E comps (resolve base) fs' k else m k') = storedDict E comps (resolve base) fs' := by
    funext k'
    by_cases e : k' = k
    · rw [if_pos e, e]
    · rw [if_neg e, ← h3, storedDict, storedDict, a3 k' e]
  rw [e]
  exact C07_dictionary hE hb a1 a2 hn ops'

/-- **C78** A deletion is stopped and the store is opened again. If the key is there, deleting it again ends the deletion. -/
theorem C78_del_again (hE : Lawful E comps) {base : Str} {fs : FS C} (hb : PlainBase base) (hwf : fs.WF)
    (hcan : Canonical E comps (resolve base) fs) (hns : NoStray E comps (resolve base) fs) (ops : List (Op K W)) {k : K}
    {rm pre : List (Call C)} :
    let ps := (PS.openAt E base fs).run E ops
    let ps' := PS.openAt E base (runCalls E.empty ps.fs pre)
    k ∈ ps.keys → Rmtree E (resolve (osJoin ps.basepath (E.toPath k))) ps.fs rm → pre <+: delCalls E ps k rm →
    k ∈ ps'.keys → (ps'.del E k).2 = none ∧ k ∉ (ps'.del E k).1.keys ∧
      ∀ q, (ps'.del E k).1.fs.lookup q = (ps.del E k).1.fs.lookup q := by
  obtain ⟨h, h2⟩ := (Inv.openAt hE hb hwf hcan hns).run hE ops
  intro ps ps' hk hrm hp hk'
  change Inv E comps ps at h
  change ps.basepath = base at h2
  obtain ⟨a1, a2, a3, _⟩ := Stopped.facts hE h (.del hk hrm hp)
  rw [h2] at a2
  obtain ⟨c, hc, _⟩ := (mem_getKeys hE a1 a2 k).1 hk'
  rw [← h2] at hc
  have hlt : pre.length < rm.length := by
    by_contra hle
    rw [delCalls_after hE h hrm hp (by omega)] at hc
    cases hc
  have hw := del_within hp hlt
  obtain ⟨b1, b2, b3⟩ := del_after hE (ps1 := ps') h hk h2.symm a1 hk' (by
    change ((runCalls E.empty ps.fs pre).lookup _).isSome
    rw [hc]; rfl) (hrm.out hE h hw).2
  exact ⟨b1, by rw [b2]; simp, b3⟩

/-- **C78** If the key is not there, files of the dataset being parquet files in its directory: what is left compared to the complete
deletion are directories without files. -/
theorem C78_del_left (hE : Lawful E comps) {base : Str} {fs : FS C} (hb : PlainBase base) (hwf : fs.WF)
    (hcan : Canonical E comps (resolve base) fs) (hns : NoStray E comps (resolve base) fs) (ops : List (Op K W)) {k : K}
    {rm pre : List (Call C)} :
    let ps := (PS.openAt E base fs).run E ops
    let ps' := PS.openAt E base (runCalls E.empty ps.fs pre)
    k ∈ ps.keys → Rmtree E (resolve (osJoin ps.basepath (E.toPath k))) ps.fs rm → pre <+: delCalls E ps k rm →
    (∀ q c, resolve base ++ comps k <+: q → ps.fs.lookup q = some c →
      q = resolve base ++ comps k ∧ ∀ f ∈ E.names c, isParquetFile f = true) →
    k ∉ ps'.keys → ∀ q c, ps'.fs.lookup q = some c → (ps.del E k).1.fs.lookup q = none → E.names c = [] := by
  obtain ⟨h, h2⟩ := (Inv.openAt hE hb hwf hcan hns).run hE ops
  intro ps ps' hk hrm hp hflat hk' q c hq hn
  change Inv E comps ps at h
  change ps.basepath = base at h2
  obtain ⟨a1, a2, a3, _⟩ := Stopped.facts hE h (.del hk hrm hp)
  obtain ⟨f1, f2, f3⟩ := ((delCalls_rm hE h.base hrm).prefix hp).facts (empty := E.empty) h.wf
  rw [h2] at a2
  change (runCalls E.empty ps.fs pre).lookup q = some c at hq
  by_cases hd : resolve base ++ comps k <+: q
  · obtain ⟨c1, h3, h4⟩ := f3 q c hq
    obtain ⟨rfl, h5⟩ := hflat q c1 hd h3
    cases hc : E.names c with
    | nil => rfl
    | cons f l =>
      exfalso
      apply hk'
      refine (mem_getKeys hE a1 a2 k).2 ⟨c, hq, ?_⟩
      rw [List.any_eq_true]
      exact ⟨f, by rw [hc]; simp, h5 f (h4.subset (by rw [hc]; simp))⟩
  · rw [← h2] at hd
    rcases f2 q hd with h3 | ⟨_, h3, _⟩
    · classical
      obtain ⟨_, _, _, _, b5⟩ := del_spec hE h.base h.wf hk (h.dirExists hk)
      rw [h3] at hq
      rw [b5 q, hq] at hn
      split at hn
      · rename_i h6
        rcases h6 with h6 | ⟨_, _, _, h7⟩
        · exact absurd h6 hd
        · exact (h7 q c List.prefix_rfl (by rw [lookup_rmtree, if_neg hd]; exact hq)).2
      · cases hn
    · rw [h3] at hq; cases hq

/-! ### A call raises -/

/-- **C78** A call of a deletion raises. As long as `rmtree` is not done the key stays in the instance in use, and deleting again ends the
deletion; afterwards, the key is not in it, and it has the keys found by opening the store again. -/
theorem C78_del_raised (hE : Lawful E comps) {base : Str} {fs : FS C} (hb : PlainBase base) (hwf : fs.WF)
    (hcan : Canonical E comps (resolve base) fs) (hns : NoStray E comps (resolve base) fs) (ops : List (Op K W)) {k : K}
    {rm pre : List (Call C)} :
    let ps := (PS.openAt E base fs).run E ops
    let ps' := ps.delRaised E k rm pre
    k ∈ ps.keys → Rmtree E (resolve (osJoin ps.basepath (E.toPath k))) ps.fs rm → pre <+: delCalls E ps k rm →
    (pre.length < rm.length → k ∈ ps'.keys ∧ (ps'.del E k).2 = none ∧ (ps'.del E k).1.keys = (ps.del E k).1.keys ∧
      ∀ q, (ps'.del E k).1.fs.lookup q = (ps.del E k).1.fs.lookup q) ∧
    (rm.length ≤ pre.length → k ∉ ps'.keys ∧ (PS.openAt E base ps'.fs).keys = ps'.keys) := by
  obtain ⟨h, h2⟩ := (Inv.openAt hE hb hwf hcan hns).run hE ops
  intro ps ps' hk hrm hp
  change Inv E comps ps at h
  change ps.basepath = base at h2
  obtain ⟨a1, a2, a3, _⟩ := Stopped.facts hE h (.del hk hrm hp)
  constructor
  · intro hlt
    have hkeys : ps'.keys = ps.keys := by
      change (if rm.length ≤ pre.length then _ else ps.keys) = ps.keys
      rw [if_neg (by omega)]
    have hw := del_within hp hlt
    obtain ⟨b1, b2, b3⟩ := del_after hE (ps1 := ps') h hk rfl a1 (by rw [hkeys]; exact hk) (hrm.dirStays hE h hw hlt)
      (hrm.out hE h hw).2
    classical
    obtain ⟨_, _, c3, _⟩ := del_spec hE h.base h.wf hk (h.dirExists hk)
    exact ⟨by rw [hkeys]; exact hk, b1, by rw [b2, c3, hkeys], b3⟩
  · intro hle
    have hkeys : ps'.keys = ps.keys.filter (· ≠ k) := by
      change (if rm.length ≤ pre.length then _ else ps.keys) = _
      rw [if_pos hle]
    refine ⟨by rw [hkeys]; simp, ?_⟩
    rw [hkeys]
    rw [h2] at a2 a3
    refine sorted_ext hE (getKeys_sorted hE _ _) (h.sorted.sublist List.filter_sublist) fun x => ?_
    refine (mem_getKeys hE a1 a2 x).trans ?_
    rw [List.mem_filter]
    by_cases e : x = k
    · subst e
      have := delCalls_after hE h hrm hp hle
      rw [h2] at this
      change (∃ c, (runCalls E.empty ps.fs pre).lookup _ = some c ∧ _) ↔ _
      simp [this]
    · change (∃ c, (runCalls E.empty ps.fs pre).lookup _ = some c ∧ _) ↔ _
      rw [a3 x e, h.mem, Stored, h2]
      simp [e]

/-- **C78** A call of a write raises: the instance in use has the keys of before; others are as before. Once a write on that key
returns, the instance has again the keys found by opening the store. -/
theorem C78_set_raised (hE : Lawful E comps) {base : Str} {fs : FS C} (hb : PlainBase base) (hwf : fs.WF)
    (hcan : Canonical E comps (resolve base) fs) (hns : NoStray E comps (resolve base) fs) (ops : List (Op K W)) {k : K}
    {mids : List C} {pre : List (Call C)} :
    let ps := (PS.openAt E base fs).run E ops
    let ps' := ps.setRaised E pre
    pre <+: setCalls E ps k mids →
    ps'.keys = ps.keys ∧ (∀ k', k' ≠ k → ps'.get E k' = ps.get E k') ∧
    ∀ w, E.writer w ((ps'.get E k).getD E.empty) ≠ none → (ps'.set E (some k) true w).2 = none ∧
      (PS.openAt E base (ps'.set E (some k) true w).1.fs).keys = (ps'.set E (some k) true w).1.keys := by
  obtain ⟨h, h2⟩ := (Inv.openAt hE hb hwf hcan hns).run hE ops
  intro ps ps' hp
  change Inv E comps ps at h
  change ps.basepath = base at h2
  obtain ⟨a1, a2, a3, _⟩ := Stopped.facts hE h (.set hp)
  refine ⟨rfl, fun k' hk' => ?_, fun w hw => ?_⟩
  · rw [PS.get, PS.get]
    change (runCalls E.empty ps.fs pre).lookup (resolve (osJoin ps.basepath _)) = _
    rw [resolve_dir hE h.base]
    exact a3 k' hk'
  · cases hc : E.writer w ((ps'.get E k).getD E.empty) with
    | none => exact absurd hc hw
    | some c =>
    rw [PS.get, resolve_dir hE (show PlainBase ps'.basepath from h.base)] at hc
    rw [set_spec hE (ps := ps') (show PlainBase ps'.basepath from h.base) hc]
    refine ⟨rfl, ?_⟩
    change getKeys E (((runCalls E.empty ps.fs pre).mkdirs E.empty (resolve ps.basepath ++ comps k)).put
      (resolve ps.basepath ++ comps k) c) base = if k ∈ ps.keys then ps.keys else sortedAdd E.lt k ps.keys
    have hcan2 : Canonical E comps (resolve ps.basepath) (((runCalls E.empty ps.fs pre).mkdirs E.empty (resolve ps.basepath ++ comps k)).put
        (resolve ps.basepath ++ comps k) c) := by
      intro rel c1 k2 b1 b2 b3 b4
      rw [lookup_mkdirs_put] at b1
      by_cases e : resolve ps.basepath ++ rel = resolve ps.basepath ++ comps k
      · have := List.append_cancel_left e
        subst this
        rw [hE.back] at b4
        cases b4; rfl
      · rw [if_neg e] at b1
        split at b1
        · exact a2 rel c1 k2 b1 b2 b3 b4
        · split at b1
          · cases b1
            rw [hE.noFile] at b3; cases b3
          · cases b1
    refine sorted_ext hE (getKeys_sorted hE _ _) ?_ fun x => ?_
    · split
      · exact h.sorted
      · exact sortedAdd_sorted hE _ _ h.sorted
    · rw [← h2, mem_getKeys hE (a1.mkdirs_put _ _ _) hcan2 x, mkdirs_comps hE]
      have hx : x ∈ (if k ∈ ps.keys then ps.keys else sortedAdd E.lt k ps.keys) ↔ x = k ∨ x ∈ ps.keys := by
        split
        · rename_i hk
          constructor
          · exact Or.inr
          · rintro (rfl | h5)
            · exact hk
            · exact h5
        · exact mem_sortedAdd _ _ _ _
      rw [hx]
      by_cases e : x = k
      · subst e
        have := hE.writes _ _ _ hc
        simpa using this
      · rw [if_neg e, a3 x e, h.mem, Stored]
        simp [e]

end

/-! ### Runs -/

def pq : Str := ['x', '.', 'p', 'a', 'r', 'q']
def pq2 : Str := ['y', '.', 'p', 'a', 'r', 'q']

/-- Basepath "/d" with a dataset of two files at "/d/b". -/
def stepFs : FS (List Str) := [([], []), ([['d']], []), ([['d'], ['b']], [pq, pq2])]

/-- Calls of `rmtree`: a file, the other, the directory. -/
def stepRm : List (Call (List Str)) := [.files [['d'], ['b']] [pq2], .files [['d'], ['b']] [], .rmdir [['d'], ['b']]]

theorem step_rmtree : Rmtree toyEnv (resolve (osJoin ['/', 'd'] (toyEnv.toPath false))) stepFs stepRm := by
  refine ⟨?_, rfl⟩
  refine .files (c := [pq, pq2]) (by decide) rfl (by simp [toyEnv]) ?_
  refine .files (c := [pq2]) (by decide) rfl (by simp [toyEnv]) ?_
  exact .rmdir (by decide) rfl (.nil _)

-- calls of a deletion and of a write
example : (PS.openAt toyEnv ['/', 'd'] stepFs).keys = [false] ∧
    (runCalls [] stepFs (delCalls toyEnv (PS.openAt toyEnv ['/', 'd'] stepFs) false stepRm)).map Prod.fst = [[], [['d']]] ∧
    (setCalls toyEnv (PS.openAt toyEnv ['/', 'd'] stepFs) true [[pq]]).length = 2 := by decide

-- stopped after the first file: the key is found, and can be deleted
example : (PS.openAt toyEnv ['/', 'd'] (runCalls [] stepFs (stepRm.take 1))).keys = [false] ∧
    ((PS.openAt toyEnv ['/', 'd'] (runCalls [] stepFs (stepRm.take 1))).del toyEnv false).1.fs.map Prod.fst = [[], [['d']]] := by decide

/-- Stopped once there is no file: the key is not found, its directory stays, and deleting the key does not remove it. -/
theorem C78_empty_left_fails : ∃ pre,
    pre <+: delCalls toyEnv (PS.openAt toyEnv ['/', 'd'] stepFs) false stepRm ∧
    let ps' := PS.openAt toyEnv ['/', 'd'] (runCalls [] stepFs pre)
    false ∉ ps'.keys ∧ ps'.fs.lookup [['d'], ['b']] = some [] ∧ (ps'.del toyEnv false).1.fs.lookup [['d'], ['b']] = some [] :=
  ⟨stepRm.take 2, List.prefix_append _ _, by decide⟩

/-- A call of the deletion raises once there is no file: the instance in use has the key, the store opened again has not. -/
theorem C78_ghost_fails : ∃ pre,
    pre <+: delCalls toyEnv (PS.openAt toyEnv ['/', 'd'] stepFs) false stepRm ∧
    let ps' := (PS.openAt toyEnv ['/', 'd'] stepFs).delRaised toyEnv false stepRm pre
    false ∈ ps'.keys ∧ false ∉ (PS.openAt toyEnv ['/', 'd'] ps'.fs).keys :=
  ⟨stepRm.take 2, List.prefix_append _ _, by decide⟩

/-- A call of the first write on a key raises after its first file: the store opened again has the key, the instance in use has not,
and deleting the key with it does nothing. -/
theorem C78_unseen_fails : ∃ pre,
    pre <+: setCalls toyEnv (PS.openAt toyEnv ['/', 'd'] stepFs) true [[pq], [pq, pq2]] ∧
    let ps' := (PS.openAt toyEnv ['/', 'd'] stepFs).setRaised toyEnv pre
    true ∉ ps'.keys ∧ true ∈ (PS.openAt toyEnv ['/', 'd'] ps'.fs).keys ∧
      (ps'.del toyEnv true).1.fs.lookup [['d'], ['a']] = some [pq] :=
  ⟨(setCalls toyEnv (PS.openAt toyEnv ['/', 'd'] stepFs) true [[pq], [pq, pq2]]).take 2, List.take_prefix _ _, by decide⟩

end Oups.Collection
